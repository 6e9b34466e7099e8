import Verif.Spec.Layout

/-!
# The records of the program

Generated by tools/gen_records.py from the source: the fields of every record with C layout, and the length the program states for it
(`Transmutable::LEN`).  `bool` and `SwigInstruction` count as `u8` and `u16`; `u128` is aligned to 8 bytes as on the target.
-/

namespace Verif.Rec
open Field

/-- program/src/actions/add_authority_v1.rs:59-67. -/
def AddAuthorityV1Args : Record := ⟨8, [u16, u16, u16, u16, u8, (bytes 3), u32]⟩
def AddAuthorityV1Args.instruction : Span := AddAuthorityV1Args.span 0
def AddAuthorityV1Args.new_authority_data_len : Span := AddAuthorityV1Args.span 1
def AddAuthorityV1Args.actions_data_len : Span := AddAuthorityV1Args.span 2
def AddAuthorityV1Args.new_authority_type : Span := AddAuthorityV1Args.span 3
def AddAuthorityV1Args.num_actions : Span := AddAuthorityV1Args.span 4
def AddAuthorityV1Args.acting_role_id : Span := AddAuthorityV1Args.span 6

/-- program/src/actions/close_swig_v1.rs:36-40. -/
def CloseSwigV1Args : Record := ⟨8, [u16, (bytes 2), u32]⟩
def CloseSwigV1Args.discriminator : Span := CloseSwigV1Args.span 0
def CloseSwigV1Args.role_id : Span := CloseSwigV1Args.span 2

/-- program/src/actions/close_token_account_v1.rs:39-43. -/
def CloseTokenAccountV1Args : Record := ⟨8, [u16, u16, u32]⟩
def CloseTokenAccountV1Args.discriminator : Span := CloseTokenAccountV1Args.span 0
def CloseTokenAccountV1Args.token_account_offset : Span := CloseTokenAccountV1Args.span 1
def CloseTokenAccountV1Args.role_id : Span := CloseTokenAccountV1Args.span 2

/-- program/src/actions/create_session_v1.rs:34-40. -/
def CreateSessionV1Args : Record := ⟨8, [u16, u16, u32, u64, (bytes 32)]⟩
def CreateSessionV1Args.instruction : Span := CreateSessionV1Args.span 0
def CreateSessionV1Args.role_id : Span := CreateSessionV1Args.span 2
def CreateSessionV1Args.session_duration : Span := CreateSessionV1Args.span 3
def CreateSessionV1Args.session_key : Span := CreateSessionV1Args.span 4

/-- program/src/actions/create_sub_account_v1.rs:49-55. -/
def CreateSubAccountV1Args : Record := ⟨8, [u16, u16, u32, u8, (bytes 7)]⟩
def CreateSubAccountV1Args.discriminator : Span := CreateSubAccountV1Args.span 0
def CreateSubAccountV1Args.role_id : Span := CreateSubAccountV1Args.span 2
def CreateSubAccountV1Args.sub_account_bump : Span := CreateSubAccountV1Args.span 3

/-- program/src/actions/create_sub_account_v2.rs:43-53. -/
def CreateSubAccountV2Args : Record := ⟨8, [u16, u16, u32, u8, u8, (bytes 6)]⟩
def CreateSubAccountV2Args.discriminator : Span := CreateSubAccountV2Args.span 0
def CreateSubAccountV2Args.role_id : Span := CreateSubAccountV2Args.span 2
def CreateSubAccountV2Args.state_bump : Span := CreateSubAccountV2Args.span 3
def CreateSubAccountV2Args.asset_bump : Span := CreateSubAccountV2Args.span 4

/-- program/src/actions/create_v1.rs:43-50. -/
def CreateV1Args : Record := ⟨8, [u16, u16, u16, u8, u8, (bytes 32)]⟩
def CreateV1Args.discriminator : Span := CreateV1Args.span 0
def CreateV1Args.authority_type : Span := CreateV1Args.span 1
def CreateV1Args.authority_data_len : Span := CreateV1Args.span 2
def CreateV1Args.bump : Span := CreateV1Args.span 3
def CreateV1Args.wallet_address_bump : Span := CreateV1Args.span 4
def CreateV1Args.id : Span := CreateV1Args.span 5

/-- program/src/actions/migrate_to_wallet_address_v1.rs:38-43. -/
def MigrateToWalletAddressV1Args : Record := ⟨8, [u16, u8, u8, u32]⟩
def MigrateToWalletAddressV1Args.discriminator : Span := MigrateToWalletAddressV1Args.span 0
def MigrateToWalletAddressV1Args.wallet_address_bump : Span := MigrateToWalletAddressV1Args.span 1
def MigrateToWalletAddressV1Args.role_id : Span := MigrateToWalletAddressV1Args.span 3

/-- program/src/actions/migrate_to_wallet_address_v1.rs:105-118. -/
def OldSwig : Record := ⟨8, [u8, u8, (bytes 32), u16, u32, u64]⟩
def OldSwig.discriminator : Span := OldSwig.span 0
def OldSwig.bump : Span := OldSwig.span 1
def OldSwig.id : Span := OldSwig.span 2
def OldSwig.roles : Span := OldSwig.span 3
def OldSwig.role_counter : Span := OldSwig.span 4
def OldSwig.reserved_lamports : Span := OldSwig.span 5

/-- program/src/actions/remove_authority_v1.rs:50-56. -/
def RemoveAuthorityV1Args : Record := ⟨8, [u16, u16, (array u16 2), u32, u32]⟩
def RemoveAuthorityV1Args.instruction : Span := RemoveAuthorityV1Args.span 0
def RemoveAuthorityV1Args.authority_payload_len : Span := RemoveAuthorityV1Args.span 1
def RemoveAuthorityV1Args.acting_role_id : Span := RemoveAuthorityV1Args.span 3
def RemoveAuthorityV1Args.authority_to_remove_id : Span := RemoveAuthorityV1Args.span 4

/-- program/src/actions/replace_authority_v1.rs:50-60. -/
def ReplaceAuthorityV1Args : Record := ⟨8, [u16, (bytes 2), u32, u32, u16, (bytes 2)]⟩
def ReplaceAuthorityV1Args.instruction : Span := ReplaceAuthorityV1Args.span 0
def ReplaceAuthorityV1Args.acting_role_id : Span := ReplaceAuthorityV1Args.span 2
def ReplaceAuthorityV1Args.target_role_id : Span := ReplaceAuthorityV1Args.span 3
def ReplaceAuthorityV1Args.new_authority_len : Span := ReplaceAuthorityV1Args.span 4

/-- program/src/actions/set_rent_claimer_v1.rs:27-32. -/
def SetRentClaimerV1Args : Record := ⟨8, [u16, (bytes 2), u32, (bytes 32)]⟩
def SetRentClaimerV1Args.discriminator : Span := SetRentClaimerV1Args.span 0
def SetRentClaimerV1Args.role_id : Span := SetRentClaimerV1Args.span 2
def SetRentClaimerV1Args.rent_claimer : Span := SetRentClaimerV1Args.span 3

/-- program/src/actions/sign_v2.rs:121-125. -/
def SignV2Args : Record := ⟨8, [u16, u16, u32]⟩
def SignV2Args.instruction : Span := SignV2Args.span 0
def SignV2Args.instruction_payload_len : Span := SignV2Args.span 1
def SignV2Args.role_id : Span := SignV2Args.span 2

/-- program/src/actions/sub_account_sign_v1.rs:41-46. -/
def SubAccountSignV1Args : Record := ⟨8, [u16, u16, u32, (bytes 8)]⟩
def SubAccountSignV1Args.instruction : Span := SubAccountSignV1Args.span 0
def SubAccountSignV1Args.instruction_payload_len : Span := SubAccountSignV1Args.span 1
def SubAccountSignV1Args.role_id : Span := SubAccountSignV1Args.span 2

/-- program/src/actions/sub_account_sign_v2.rs:131-137. -/
def SubAccountSignV2Args : Record := ⟨8, [u16, u16, u32, u32, (bytes 4)]⟩
def SubAccountSignV2Args.instruction : Span := SubAccountSignV2Args.span 0
def SubAccountSignV2Args.instruction_payload_len : Span := SubAccountSignV2Args.span 1
def SubAccountSignV2Args.role_id : Span := SubAccountSignV2Args.span 2
def SubAccountSignV2Args.subacc_id : Span := SubAccountSignV2Args.span 3

/-- program/src/actions/toggle_sub_account_v1.rs:42-48. -/
def ToggleSubAccountV1Args : Record := ⟨8, [u16, u8, (bytes 5), u32, u32]⟩
def ToggleSubAccountV1Args.discriminator : Span := ToggleSubAccountV1Args.span 0
def ToggleSubAccountV1Args.enabled : Span := ToggleSubAccountV1Args.span 1
def ToggleSubAccountV1Args.role_id : Span := ToggleSubAccountV1Args.span 3
def ToggleSubAccountV1Args.auth_role_id : Span := ToggleSubAccountV1Args.span 4

/-- program/src/actions/toggle_sub_account_v2.rs:34-44. -/
def ToggleSubAccountV2Args : Record := ⟨8, [u16, u8, u8, u32, u32, u32]⟩
def ToggleSubAccountV2Args.discriminator : Span := ToggleSubAccountV2Args.span 0
def ToggleSubAccountV2Args.enabled : Span := ToggleSubAccountV2Args.span 1
def ToggleSubAccountV2Args.auth_role_id : Span := ToggleSubAccountV2Args.span 3
def ToggleSubAccountV2Args.subacc_id : Span := ToggleSubAccountV2Args.span 4

/-- program/src/actions/transfer_assets_v1.rs:45-49. -/
def TransferAssetsV1Args : Record := ⟨8, [u16, u16, u32]⟩
def TransferAssetsV1Args.discriminator : Span := TransferAssetsV1Args.span 0
def TransferAssetsV1Args.role_id : Span := TransferAssetsV1Args.span 2

/-- program/src/actions/update_authority_v1.rs:131-138. -/
def UpdateAuthorityV1Args : Record := ⟨8, [u16, u16, u8, (bytes 3), u32, u32]⟩
def UpdateAuthorityV1Args.instruction : Span := UpdateAuthorityV1Args.span 0
def UpdateAuthorityV1Args.actions_data_len : Span := UpdateAuthorityV1Args.span 1
def UpdateAuthorityV1Args.num_actions : Span := UpdateAuthorityV1Args.span 2
def UpdateAuthorityV1Args.acting_role_id : Span := UpdateAuthorityV1Args.span 4
def UpdateAuthorityV1Args.authority_to_update_id : Span := UpdateAuthorityV1Args.span 5

/-- program/src/actions/withdraw_from_sub_account_v1.rs:46-51. -/
def WithdrawFromSubAccountV1Args : Record := ⟨8, [u16, u16, u32, u64]⟩
def WithdrawFromSubAccountV1Args.discriminator : Span := WithdrawFromSubAccountV1Args.span 0
def WithdrawFromSubAccountV1Args.role_id : Span := WithdrawFromSubAccountV1Args.span 2
def WithdrawFromSubAccountV1Args.amount : Span := WithdrawFromSubAccountV1Args.span 3

/-- program/src/actions/withdraw_from_sub_account_v2.rs:41-48. -/
def WithdrawFromSubAccountV2Args : Record := ⟨8, [u16, u16, u32, u32, u32, u64]⟩
def WithdrawFromSubAccountV2Args.discriminator : Span := WithdrawFromSubAccountV2Args.span 0
def WithdrawFromSubAccountV2Args.role_id : Span := WithdrawFromSubAccountV2Args.span 2
def WithdrawFromSubAccountV2Args.subacc_id : Span := WithdrawFromSubAccountV2Args.span 3
def WithdrawFromSubAccountV2Args.amount : Span := WithdrawFromSubAccountV2Args.span 5

/-- state/src/role.rs:22-34. -/
def Position : Record := ⟨8, [u16, u16, u16, u16, u32, u32]⟩
def Position.authority_type : Span := Position.span 0
def Position.authority_length : Span := Position.span 1
def Position.num_actions : Span := Position.span 2
def Position.id : Span := Position.span 4
def Position.boundary : Span := Position.span 5

/-- state/src/sub_account_v2.rs:10-25. -/
def SubAccountV2 : Record := ⟨8, [u8, u8, u8, u8, u32, (bytes 32), (bytes 32)]⟩
def SubAccountV2.discriminator : Span := SubAccountV2.span 0
def SubAccountV2.bump : Span := SubAccountV2.span 1
def SubAccountV2.asset_bump : Span := SubAccountV2.span 2
def SubAccountV2.enabled : Span := SubAccountV2.span 3
def SubAccountV2.subacc_id : Span := SubAccountV2.span 4
def SubAccountV2.swig_id : Span := SubAccountV2.span 5
def SubAccountV2.sub_account : Span := SubAccountV2.span 6

/-- state/src/swig.rs:484-503. -/
def Swig : Record := ⟨8, [u8, u8, (bytes 32), u16, u32, u8, (bytes 3), u32]⟩
def Swig.discriminator : Span := Swig.span 0
def Swig.bump : Span := Swig.span 1
def Swig.id : Span := Swig.span 2
def Swig.roles : Span := Swig.span 3
def Swig.role_counter : Span := Swig.span 4
def Swig.wallet_bump : Span := Swig.span 5
def Swig.sub_account_counter : Span := Swig.span 7

/-- state/src/action/mod.rs:67-74. -/
def Action : Record := ⟨8, [u16, u16, u32]⟩
def Action.action_type : Span := Action.span 0
def Action.length : Span := Action.span 1
def Action.boundary : Span := Action.span 2

/-- state/src/action/program.rs:19-22. -/
def Program : Record := ⟨8, [(bytes 32)]⟩
def Program.program_id : Span := Program.span 0

/-- state/src/action/program_curated.rs:44-47. -/
def ProgramCurated : Record := ⟨8, [(bytes 32)]⟩

/-- state/src/action/program_scope.rs:88-109. -/
def ProgramScope : Record := ⟨8, [u128, u128, u64, u64, (bytes 32), (bytes 32), u64, u64, u64, u64]⟩
def ProgramScope.current_amount : Span := ProgramScope.span 0
def ProgramScope.limit : Span := ProgramScope.span 1
def ProgramScope.window : Span := ProgramScope.span 2
def ProgramScope.last_reset : Span := ProgramScope.span 3
def ProgramScope.program_id : Span := ProgramScope.span 4
def ProgramScope.target_account : Span := ProgramScope.span 5
def ProgramScope.scope_type : Span := ProgramScope.span 6
def ProgramScope.numeric_type : Span := ProgramScope.span 7
def ProgramScope.balance_field_start : Span := ProgramScope.span 8
def ProgramScope.balance_field_end : Span := ProgramScope.span 9

/-- state/src/action/replace_authority.rs:17-21. -/
def ReplaceAuthority : Record := ⟨8, [u32, (bytes 4)]⟩
def ReplaceAuthority.role_id : Span := ReplaceAuthority.span 0

/-- state/src/action/sol_destination_limit.rs:20-26. -/
def SolDestinationLimit : Record := ⟨8, [(bytes 32), u64]⟩
def SolDestinationLimit.destination : Span := SolDestinationLimit.span 0
def SolDestinationLimit.amount : Span := SolDestinationLimit.span 1

/-- state/src/action/sol_limit.rs:18-21. -/
def SolLimit : Record := ⟨8, [u64]⟩
def SolLimit.amount : Span := SolLimit.span 0

/-- state/src/action/sol_recurring_destination_limit.rs:22-33. -/
def SolRecurringDestinationLimit : Record := ⟨8, [(bytes 32), u64, u64, u64, u64]⟩
def SolRecurringDestinationLimit.destination : Span := SolRecurringDestinationLimit.span 0
def SolRecurringDestinationLimit.recurring_amount : Span := SolRecurringDestinationLimit.span 1
def SolRecurringDestinationLimit.window : Span := SolRecurringDestinationLimit.span 2
def SolRecurringDestinationLimit.last_reset : Span := SolRecurringDestinationLimit.span 3
def SolRecurringDestinationLimit.current_amount : Span := SolRecurringDestinationLimit.span 4

/-- state/src/action/sol_recurring_limit.rs:20-29. -/
def SolRecurringLimit : Record := ⟨8, [u64, u64, u64, u64]⟩
def SolRecurringLimit.recurring_amount : Span := SolRecurringLimit.span 0
def SolRecurringLimit.window : Span := SolRecurringLimit.span 1
def SolRecurringLimit.last_reset : Span := SolRecurringLimit.span 2
def SolRecurringLimit.current_amount : Span := SolRecurringLimit.span 3

/-- state/src/action/stake_limit.rs:20-23. -/
def StakeLimit : Record := ⟨8, [u64]⟩
def StakeLimit.amount : Span := StakeLimit.span 0

/-- state/src/action/stake_recurring_limit.rs:21-30. -/
def StakeRecurringLimit : Record := ⟨8, [u64, u64, u64, u64]⟩
def StakeRecurringLimit.recurring_amount : Span := StakeRecurringLimit.span 0
def StakeRecurringLimit.window : Span := StakeRecurringLimit.span 1
def StakeRecurringLimit.last_reset : Span := StakeRecurringLimit.span 2
def StakeRecurringLimit.current_amount : Span := StakeRecurringLimit.span 3

/-- state/src/action/sub_account.rs:21-33. -/
def SubAccount : Record := ⟨8, [(bytes 32), u8, u8, (bytes 2), u32, (bytes 32)]⟩
def SubAccount.sub_account : Span := SubAccount.span 0
def SubAccount.bump : Span := SubAccount.span 1
def SubAccount.enabled : Span := SubAccount.span 2
def SubAccount.role_id : Span := SubAccount.span 4
def SubAccount.swig_id : Span := SubAccount.span 5

/-- state/src/action/sub_account_v2.rs:54-58. -/
def ScopedSubAccountV2 : Record := ⟨8, [u32, (bytes 4)]⟩
def ScopedSubAccountV2.subacc_id : Span := ScopedSubAccountV2.span 0

/-- state/src/action/token_destination_limit.rs:22-29. -/
def TokenDestinationLimit : Record := ⟨8, [(bytes 32), (bytes 32), u64]⟩
def TokenDestinationLimit.token_mint : Span := TokenDestinationLimit.span 0
def TokenDestinationLimit.destination : Span := TokenDestinationLimit.span 1
def TokenDestinationLimit.amount : Span := TokenDestinationLimit.span 2

/-- state/src/action/token_limit.rs:20-25. -/
def TokenLimit : Record := ⟨8, [(bytes 32), u64]⟩
def TokenLimit.token_mint : Span := TokenLimit.span 0
def TokenLimit.current_amount : Span := TokenLimit.span 1

/-- state/src/action/token_recurring_destination_limit.rs:25-38. -/
def TokenRecurringDestinationLimit : Record := ⟨8, [(bytes 32), (bytes 32), u64, u64, u64, u64]⟩
def TokenRecurringDestinationLimit.token_mint : Span := TokenRecurringDestinationLimit.span 0
def TokenRecurringDestinationLimit.destination : Span := TokenRecurringDestinationLimit.span 1
def TokenRecurringDestinationLimit.recurring_amount : Span := TokenRecurringDestinationLimit.span 2
def TokenRecurringDestinationLimit.window : Span := TokenRecurringDestinationLimit.span 3
def TokenRecurringDestinationLimit.last_reset : Span := TokenRecurringDestinationLimit.span 4
def TokenRecurringDestinationLimit.current_amount : Span := TokenRecurringDestinationLimit.span 5

/-- state/src/action/token_recurring_limit.rs:22-33. -/
def TokenRecurringLimit : Record := ⟨8, [(bytes 32), u64, u64, u64, u64]⟩
def TokenRecurringLimit.token_mint : Span := TokenRecurringLimit.span 0
def TokenRecurringLimit.window : Span := TokenRecurringLimit.span 1
def TokenRecurringLimit.limit : Span := TokenRecurringLimit.span 2
def TokenRecurringLimit.current : Span := TokenRecurringLimit.span 3
def TokenRecurringLimit.last_reset : Span := TokenRecurringLimit.span 4

/-- state/src/authority/ed25519.rs:24-27. -/
def ED25519Authority : Record := ⟨8, [(bytes 32)]⟩
def ED25519Authority.public_key : Span := ED25519Authority.span 0

/-- state/src/authority/ed25519.rs:125-132. -/
def CreateEd25519SessionAuthority : Record := ⟨8, [(bytes 32), (bytes 32), u64]⟩
def CreateEd25519SessionAuthority.public_key : Span := CreateEd25519SessionAuthority.span 0
def CreateEd25519SessionAuthority.session_key : Span := CreateEd25519SessionAuthority.span 1
def CreateEd25519SessionAuthority.max_session_length : Span := CreateEd25519SessionAuthority.span 2

/-- state/src/authority/ed25519.rs:169-178. -/
def Ed25519SessionAuthority : Record := ⟨8, [(bytes 32), (bytes 32), u64, u64]⟩
def Ed25519SessionAuthority.public_key : Span := Ed25519SessionAuthority.span 0
def Ed25519SessionAuthority.session_key : Span := Ed25519SessionAuthority.span 1
def Ed25519SessionAuthority.max_session_length : Span := Ed25519SessionAuthority.span 2
def Ed25519SessionAuthority.current_session_expiration : Span := Ed25519SessionAuthority.span 3

/-- state/src/authority/secp256k1.rs:28-35. -/
def CreateSecp256k1SessionAuthority : Record := ⟨8, [(bytes 64), (bytes 32), u64]⟩
def CreateSecp256k1SessionAuthority.public_key : Span := CreateSecp256k1SessionAuthority.span 0
def CreateSecp256k1SessionAuthority.session_key : Span := CreateSecp256k1SessionAuthority.span 1
def CreateSecp256k1SessionAuthority.max_session_length : Span := CreateSecp256k1SessionAuthority.span 2

/-- state/src/authority/secp256k1.rs:73-80. -/
def Secp256k1Authority : Record := ⟨8, [(bytes 33), (bytes 3), u32]⟩
def Secp256k1Authority.public_key : Span := Secp256k1Authority.span 0
def Secp256k1Authority.signature_odometer : Span := Secp256k1Authority.span 2

/-- state/src/authority/secp256k1.rs:196-208. -/
def Secp256k1SessionAuthority : Record := ⟨8, [(bytes 33), (bytes 3), u32, (bytes 32), u64, u64]⟩
def Secp256k1SessionAuthority.public_key : Span := Secp256k1SessionAuthority.span 0
def Secp256k1SessionAuthority.signature_odometer : Span := Secp256k1SessionAuthority.span 2
def Secp256k1SessionAuthority.session_key : Span := Secp256k1SessionAuthority.span 3
def Secp256k1SessionAuthority.max_session_age : Span := Secp256k1SessionAuthority.span 4
def Secp256k1SessionAuthority.current_session_expiration : Span := Secp256k1SessionAuthority.span 5

/-- state/src/authority/secp256k1.rs:582-590. -/
def AccountsPayload : Record := ⟨8, [(bytes 32), u8, u8, (bytes 6)]⟩
def AccountsPayload.pubkey : Span := AccountsPayload.span 0
def AccountsPayload.is_writable : Span := AccountsPayload.span 1
def AccountsPayload.is_signer : Span := AccountsPayload.span 2

/-- state/src/authority/secp256r1.rs:50-65. -/
def Secp256r1SignatureOffsets : Record := ⟨1, [u16, u16, u16, u16, u16, u16, u16]⟩
def Secp256r1SignatureOffsets.signature_offset : Span := Secp256r1SignatureOffsets.span 0
def Secp256r1SignatureOffsets.signature_instruction_index : Span := Secp256r1SignatureOffsets.span 1
def Secp256r1SignatureOffsets.public_key_offset : Span := Secp256r1SignatureOffsets.span 2
def Secp256r1SignatureOffsets.public_key_instruction_index : Span := Secp256r1SignatureOffsets.span 3
def Secp256r1SignatureOffsets.message_data_offset : Span := Secp256r1SignatureOffsets.span 4
def Secp256r1SignatureOffsets.message_data_size : Span := Secp256r1SignatureOffsets.span 5
def Secp256r1SignatureOffsets.message_instruction_index : Span := Secp256r1SignatureOffsets.span 6

/-- state/src/authority/secp256r1.rs:89-98. -/
def CreateSecp256r1SessionAuthority : Record := ⟨8, [(bytes 33), (bytes 7), (bytes 32), u64]⟩
def CreateSecp256r1SessionAuthority.public_key : Span := CreateSecp256r1SessionAuthority.span 0
def CreateSecp256r1SessionAuthority.session_key : Span := CreateSecp256r1SessionAuthority.span 2
def CreateSecp256r1SessionAuthority.max_session_length : Span := CreateSecp256r1SessionAuthority.span 3

/-- state/src/authority/secp256r1.rs:137-144. -/
def Secp256r1Authority : Record := ⟨8, [(bytes 33), (bytes 3), u32]⟩
def Secp256r1Authority.public_key : Span := Secp256r1Authority.span 0
def Secp256r1Authority.signature_odometer : Span := Secp256r1Authority.span 2

/-- state/src/authority/secp256r1.rs:236-248. -/
def Secp256r1SessionAuthority : Record := ⟨8, [(bytes 33), (bytes 3), u32, (bytes 32), u64, u64]⟩
def Secp256r1SessionAuthority.public_key : Span := Secp256r1SessionAuthority.span 0
def Secp256r1SessionAuthority.signature_odometer : Span := Secp256r1SessionAuthority.span 2
def Secp256r1SessionAuthority.session_key : Span := Secp256r1SessionAuthority.span 3
def Secp256r1SessionAuthority.max_session_age : Span := Secp256r1SessionAuthority.span 4
def Secp256r1SessionAuthority.current_session_expiration : Span := Secp256r1SessionAuthority.span 5

/-- state/src/authority/programexec/mod.rs:32-40. -/
def ProgramExecAuthority : Record := ⟨8, [(bytes 32), u8, (bytes 7), (bytes 40)]⟩
def ProgramExecAuthority.program_id : Span := ProgramExecAuthority.span 0
def ProgramExecAuthority.instruction_prefix_len : Span := ProgramExecAuthority.span 1
def ProgramExecAuthority.instruction_prefix : Span := ProgramExecAuthority.span 3

/-- state/src/authority/programexec/session.rs:19-32. -/
def CreateProgramExecSessionAuthority : Record := ⟨8, [(bytes 32), u8, (bytes 7), (bytes 40), (bytes 32), u64]⟩
def CreateProgramExecSessionAuthority.program_id : Span := CreateProgramExecSessionAuthority.span 0
def CreateProgramExecSessionAuthority.instruction_prefix_len : Span := CreateProgramExecSessionAuthority.span 1
def CreateProgramExecSessionAuthority.instruction_prefix : Span := CreateProgramExecSessionAuthority.span 3
def CreateProgramExecSessionAuthority.session_key : Span := CreateProgramExecSessionAuthority.span 4
def CreateProgramExecSessionAuthority.max_session_length : Span := CreateProgramExecSessionAuthority.span 5

/-- state/src/authority/programexec/session.rs:80-96. -/
def ProgramExecSessionAuthority : Record := ⟨8, [(bytes 32), u8, (bytes 7), (bytes 40), (bytes 32), u64, u64]⟩
def ProgramExecSessionAuthority.program_id : Span := ProgramExecSessionAuthority.span 0
def ProgramExecSessionAuthority.instruction_prefix_len : Span := ProgramExecSessionAuthority.span 1
def ProgramExecSessionAuthority.instruction_prefix : Span := ProgramExecSessionAuthority.span 3
def ProgramExecSessionAuthority.session_key : Span := ProgramExecSessionAuthority.span 4
def ProgramExecSessionAuthority.max_session_length : Span := ProgramExecSessionAuthority.span 5
def ProgramExecSessionAuthority.current_session_expiration : Span := ProgramExecSessionAuthority.span 6

/-- The records read from and written as bytes, each with the length stated for it. -/
def stated : List (Record × Nat) := [
  /- program/src/actions/add_authority_v1.rs:70 -/ (AddAuthorityV1Args, AddAuthorityV1Args.size),
  /- program/src/actions/close_swig_v1.rs:53 -/ (CloseSwigV1Args, CloseSwigV1Args.size),
  /- program/src/actions/close_token_account_v1.rs:56 -/ (CloseTokenAccountV1Args, CloseTokenAccountV1Args.size),
  /- program/src/actions/create_session_v1.rs:43 -/ (CreateSessionV1Args, CreateSessionV1Args.size),
  /- program/src/actions/create_sub_account_v1.rs:75 -/ (CreateSubAccountV1Args, CreateSubAccountV1Args.size),
  /- program/src/actions/create_sub_account_v2.rs:69 -/ (CreateSubAccountV2Args, CreateSubAccountV2Args.size),
  /- program/src/actions/create_v1.rs:80 -/ (CreateV1Args, CreateV1Args.size),
  /- program/src/actions/migrate_to_wallet_address_v1.rs:62 -/ (MigrateToWalletAddressV1Args, MigrateToWalletAddressV1Args.size),
  /- program/src/actions/migrate_to_wallet_address_v1.rs:121 -/ (OldSwig, OldSwig.size),
  /- program/src/actions/remove_authority_v1.rs:59 -/ (RemoveAuthorityV1Args, RemoveAuthorityV1Args.size),
  /- program/src/actions/replace_authority_v1.rs:63 -/ (ReplaceAuthorityV1Args, ReplaceAuthorityV1Args.size),
  /- program/src/actions/set_rent_claimer_v1.rs:46 -/ (SetRentClaimerV1Args, SetRentClaimerV1Args.size),
  /- program/src/actions/sign_v2.rs:143 -/ (SignV2Args, SignV2Args.size),
  /- program/src/actions/sub_account_sign_v1.rs:65 -/ (SubAccountSignV1Args, SubAccountSignV1Args.size),
  /- program/src/actions/sub_account_sign_v2.rs:152 -/ (SubAccountSignV2Args, SubAccountSignV2Args.size),
  /- program/src/actions/toggle_sub_account_v1.rs:68 -/ (ToggleSubAccountV1Args, ToggleSubAccountV1Args.size),
  /- program/src/actions/toggle_sub_account_v2.rs:60 -/ (ToggleSubAccountV2Args, ToggleSubAccountV2Args.size),
  /- program/src/actions/transfer_assets_v1.rs:66 -/ (TransferAssetsV1Args, TransferAssetsV1Args.size),
  /- program/src/actions/update_authority_v1.rs:141 -/ (UpdateAuthorityV1Args, UpdateAuthorityV1Args.size),
  /- program/src/actions/withdraw_from_sub_account_v1.rs:70 -/ (WithdrawFromSubAccountV1Args, WithdrawFromSubAccountV1Args.size),
  /- program/src/actions/withdraw_from_sub_account_v2.rs:64 -/ (WithdrawFromSubAccountV2Args, WithdrawFromSubAccountV2Args.size),
  /- state/src/role.rs:222 -/ (Position, Position.size),
  /- state/src/sub_account_v2.rs:30 -/ (SubAccountV2, 72),
  /- state/src/swig.rs:676 -/ (Swig, Swig.size),
  /- state/src/action/mod.rs:85 -/ (Action, Action.size),
  /- state/src/action/program.rs:26 -/ (Program, 32),
  /- state/src/action/program_curated.rs:74 -/ (ProgramCurated, 32),
  /- state/src/action/program_scope.rs:410 -/ (ProgramScope, 144),
  /- state/src/action/replace_authority.rs:33 -/ (ReplaceAuthority, 8),
  /- state/src/action/sol_destination_limit.rs:60 -/ (SolDestinationLimit, SolDestinationLimit.size),
  /- state/src/action/sol_limit.rs:43 -/ (SolLimit, SolLimit.size),
  /- state/src/action/sol_recurring_destination_limit.rs:84 -/ (SolRecurringDestinationLimit, SolRecurringDestinationLimit.size),
  /- state/src/action/sol_recurring_limit.rs:62 -/ (SolRecurringLimit, SolRecurringLimit.size),
  /- state/src/action/stake_limit.rs:49 -/ (StakeLimit, StakeLimit.size),
  /- state/src/action/stake_recurring_limit.rs:64 -/ (StakeRecurringLimit, StakeRecurringLimit.size),
  /- state/src/action/sub_account.rs:39 -/ (SubAccount, 72),
  /- state/src/action/sub_account_v2.rs:72 -/ (ScopedSubAccountV2, 8),
  /- state/src/action/token_destination_limit.rs:71 -/ (TokenDestinationLimit, TokenDestinationLimit.size),
  /- state/src/action/token_limit.rs:48 -/ (TokenLimit, 40),
  /- state/src/action/token_recurring_destination_limit.rs:95 -/ (TokenRecurringDestinationLimit, TokenRecurringDestinationLimit.size),
  /- state/src/action/token_recurring_limit.rs:64 -/ (TokenRecurringLimit, 64),
  /- state/src/authority/ed25519.rs:109 -/ (ED25519Authority, ED25519Authority.size),
  /- state/src/authority/ed25519.rs:159 -/ (CreateEd25519SessionAuthority, 64 + 8),
  /- state/src/authority/ed25519.rs:198 -/ (Ed25519SessionAuthority, Ed25519SessionAuthority.size),
  /- state/src/authority/secp256k1.rs:54 -/ (CreateSecp256k1SessionAuthority, 64 + 32 + 8),
  /- state/src/authority/secp256k1.rs:94 -/ (Secp256k1Authority, Secp256k1Authority.size),
  /- state/src/authority/secp256k1.rs:211 -/ (Secp256k1SessionAuthority, Secp256k1SessionAuthority.size),
  /- state/src/authority/secp256k1.rs:610 -/ (AccountsPayload, AccountsPayload.size),
  /- state/src/authority/secp256r1.rs:118 -/ (CreateSecp256r1SessionAuthority, 33 + 7 + 32 + 8),
  /- state/src/authority/secp256r1.rs:158 -/ (Secp256r1Authority, Secp256r1Authority.size),
  /- state/src/authority/secp256r1.rs:251 -/ (Secp256r1SessionAuthority, Secp256r1SessionAuthority.size),
  /- state/src/authority/programexec/mod.rs:95 -/ (ProgramExecAuthority, ProgramExecAuthority.size),
  /- state/src/authority/programexec/session.rs:62 -/ (CreateProgramExecSessionAuthority, ProgramExecSessionAuthority.size),
  /- state/src/authority/programexec/session.rs:127 -/ (ProgramExecSessionAuthority, ProgramExecSessionAuthority.size)]

/-- The records the compiler checks for padding (`#[derive(NoPadding)]`). -/
def checked : List Record := [
  AddAuthorityV1Args,
  CloseSwigV1Args,
  CloseTokenAccountV1Args,
  CreateSessionV1Args,
  CreateSubAccountV1Args,
  CreateSubAccountV2Args,
  CreateV1Args,
  MigrateToWalletAddressV1Args,
  OldSwig,
  RemoveAuthorityV1Args,
  ReplaceAuthorityV1Args,
  SetRentClaimerV1Args,
  SignV2Args,
  SubAccountSignV1Args,
  SubAccountSignV2Args,
  ToggleSubAccountV1Args,
  ToggleSubAccountV2Args,
  TransferAssetsV1Args,
  UpdateAuthorityV1Args,
  WithdrawFromSubAccountV1Args,
  WithdrawFromSubAccountV2Args,
  Position,
  SubAccountV2,
  Swig,
  Action,
  Program,
  ProgramCurated,
  ProgramScope,
  ReplaceAuthority,
  SolDestinationLimit,
  SolLimit,
  SolRecurringDestinationLimit,
  SolRecurringLimit,
  StakeLimit,
  StakeRecurringLimit,
  SubAccount,
  ScopedSubAccountV2,
  TokenDestinationLimit,
  TokenLimit,
  TokenRecurringDestinationLimit,
  TokenRecurringLimit,
  ED25519Authority,
  CreateEd25519SessionAuthority,
  Ed25519SessionAuthority,
  CreateSecp256k1SessionAuthority,
  Secp256k1Authority,
  Secp256k1SessionAuthority,
  AccountsPayload,
  CreateSecp256r1SessionAuthority,
  Secp256r1Authority,
  Secp256r1SessionAuthority,
  ProgramExecAuthority,
  CreateProgramExecSessionAuthority,
  ProgramExecSessionAuthority]

end Verif.Rec
