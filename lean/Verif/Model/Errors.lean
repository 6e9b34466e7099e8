import Verif.Model.Basic

/-!
# Error codes

Generated by tools/gen_errors.py from program/src/error.rs:20-167 (`SwigError`) and state/src/lib.rs:104-211
(`SwigStateError`, `SwigAuthenticateError`).  The code is the enum discriminant, as in `ProgramError::Custom(e as u32)`.
-/

namespace Verif.E

/-- `SwigError::InvalidSwigAccountDiscriminator` (program/src/error.rs:22). -/
abbrev invalidSwigAccountDiscriminator : Err := .custom 0
/-- `SwigError::OwnerMismatchSwigAccount` (program/src/error.rs:24). -/
abbrev ownerMismatchSwigAccount : Err := .custom 1
/-- `SwigError::AccountNotEmptySwigAccount` (program/src/error.rs:26). -/
abbrev accountNotEmptySwigAccount : Err := .custom 2
/-- `SwigError::NotOnCurveSwigAccount` (program/src/error.rs:28). -/
abbrev notOnCurveSwigAccount : Err := .custom 3
/-- `SwigError::ExpectedSignerSwigAccount` (program/src/error.rs:30). -/
abbrev expectedSignerSwigAccount : Err := .custom 4
/-- `SwigError::StateError` (program/src/error.rs:32). -/
abbrev stateError : Err := .custom 5
/-- `SwigError::AccountBorrowFailed` (program/src/error.rs:34). -/
abbrev accountBorrowFailed : Err := .custom 6
/-- `SwigError::InvalidAuthorityType` (program/src/error.rs:36). -/
abbrev invalidAuthorityType : Err := .custom 7
/-- `SwigError::Cpi` (program/src/error.rs:38). -/
abbrev cpi : Err := .custom 8
/-- `SwigError::InvalidSeedSwigAccount` (program/src/error.rs:40). -/
abbrev invalidSeedSwigAccount : Err := .custom 9
/-- `SwigError::MissingInstructions` (program/src/error.rs:42). -/
abbrev missingInstructions : Err := .custom 10
/-- `SwigError::InvalidAuthorityPayload` (program/src/error.rs:44). -/
abbrev invalidAuthorityPayload : Err := .custom 11
/-- `SwigError::InvalidAuthorityNotFoundByRoleId` (program/src/error.rs:46). -/
abbrev invalidAuthorityNotFoundByRoleId : Err := .custom 12
/-- `SwigError::InvalidAuthorityMustHaveAtLeastOneAction` (program/src/error.rs:48). -/
abbrev invalidAuthorityMustHaveAtLeastOneAction : Err := .custom 13
/-- `SwigError::InstructionExecutionError` (program/src/error.rs:50). -/
abbrev instructionExecutionError : Err := .custom 14
/-- `SwigError::SerializationError` (program/src/error.rs:52). -/
abbrev serializationError : Err := .custom 15
/-- `SwigError::InvalidSwigSignInstructionDataTooShort` (program/src/error.rs:54). -/
abbrev invalidSwigSignInstructionDataTooShort : Err := .custom 16
/-- `SwigError::InvalidSwigRemoveAuthorityInstructionDataTooShort` (program/src/error.rs:56). -/
abbrev invalidSwigRemoveAuthorityInstructionDataTooShort : Err := .custom 17
/-- `SwigError::InvalidSwigAddAuthorityInstructionDataTooShort` (program/src/error.rs:58). -/
abbrev invalidSwigAddAuthorityInstructionDataTooShort : Err := .custom 18
/-- `SwigError::InvalidSwigUpdateAuthorityInstructionDataTooShort` (program/src/error.rs:60). -/
abbrev invalidSwigUpdateAuthorityInstructionDataTooShort : Err := .custom 19
/-- `SwigError::InvalidSwigCreateInstructionDataTooShort` (program/src/error.rs:62). -/
abbrev invalidSwigCreateInstructionDataTooShort : Err := .custom 20
/-- `SwigError::InvalidSwigCreateSessionInstructionDataTooShort` (program/src/error.rs:64). -/
abbrev invalidSwigCreateSessionInstructionDataTooShort : Err := .custom 21
/-- `SwigError::InvalidAccountsLength` (program/src/error.rs:66). -/
abbrev invalidAccountsLength : Err := .custom 22
/-- `SwigError::InvalidAccountsSwigMustBeFirst` (program/src/error.rs:68). -/
abbrev invalidAccountsSwigMustBeFirst : Err := .custom 23
/-- `SwigError::InvalidSystemProgram` (program/src/error.rs:71). -/
abbrev invalidSystemProgram : Err := .custom 24
/-- `SwigError::DuplicateAuthority` (program/src/error.rs:73). -/
abbrev duplicateAuthority : Err := .custom 25
/-- `SwigError::InvalidOperation` (program/src/error.rs:75). -/
abbrev invalidOperation : Err := .custom 26
/-- `SwigError::InvalidAlignment` (program/src/error.rs:77). -/
abbrev invalidAlignment : Err := .custom 27
/-- `SwigError::InvalidSeedSubAccount` (program/src/error.rs:81). -/
abbrev invalidSeedSubAccount : Err := .custom 28
/-- `SwigError::InsufficientFunds` (program/src/error.rs:83). -/
abbrev insufficientFunds : Err := .custom 29
/-- `SwigError::OwnerMismatchTokenAccount` (program/src/error.rs:85). -/
abbrev ownerMismatchTokenAccount : Err := .custom 30
/-- `SwigError::PermissionDenied` (program/src/error.rs:87). -/
abbrev permissionDenied : Err := .custom 31
/-- `SwigError::InvalidSignature` (program/src/error.rs:89). -/
abbrev invalidSignature : Err := .custom 32
/-- `SwigError::InvalidInstructionDataTooShort` (program/src/error.rs:91). -/
abbrev invalidInstructionDataTooShort : Err := .custom 33
/-- `SwigError::OwnerMismatchSubAccount` (program/src/error.rs:93). -/
abbrev ownerMismatchSubAccount : Err := .custom 34
/-- `SwigError::SubAccountAlreadyExists` (program/src/error.rs:95). -/
abbrev subAccountAlreadyExists : Err := .custom 35
/-- `SwigError::AuthorityCannotCreateSubAccount` (program/src/error.rs:97). -/
abbrev authorityCannotCreateSubAccount : Err := .custom 36
/-- `SwigError::InvalidSwigSubAccountDiscriminator` (program/src/error.rs:99). -/
abbrev invalidSwigSubAccountDiscriminator : Err := .custom 37
/-- `SwigError::InvalidSwigSubAccountDisabled` (program/src/error.rs:101). -/
abbrev invalidSwigSubAccountDisabled : Err := .custom 38
/-- `SwigError::InvalidSwigSubAccountSwigIdMismatch` (program/src/error.rs:103). -/
abbrev invalidSwigSubAccountSwigIdMismatch : Err := .custom 39
/-- `SwigError::InvalidSwigSubAccountRoleIdMismatch` (program/src/error.rs:105). -/
abbrev invalidSwigSubAccountRoleIdMismatch : Err := .custom 40
/-- `SwigError::InvalidSwigTokenAccountOwner` (program/src/error.rs:107). -/
abbrev invalidSwigTokenAccountOwner : Err := .custom 41
/-- `SwigError::InvalidProgramScopeBalanceFields` (program/src/error.rs:109). -/
abbrev invalidProgramScopeBalanceFields : Err := .custom 42
/-- `SwigError::AccountDataModifiedUnexpectedly` (program/src/error.rs:112). -/
abbrev accountDataModifiedUnexpectedly : Err := .custom 43
/-- `SwigError::PermissionDeniedCannotUpdateRootAuthority` (program/src/error.rs:114). -/
abbrev permissionDeniedCannotUpdateRootAuthority : Err := .custom 44
/-- `SwigError::ReservedIdPrefix` (program/src/error.rs:116). -/
abbrev reservedIdPrefix : Err := .custom 45
/-- `SwigError::SignV1CannotBeUsedWithSwigV2` (program/src/error.rs:118). -/
abbrev signV1CannotBeUsedWithSwigV2 : Err := .custom 46
/-- `SwigError::SignV2CannotBeUsedWithSwigV1` (program/src/error.rs:120). -/
abbrev signV2CannotBeUsedWithSwigV1 : Err := .custom 47
/-- `SwigError::TokenAccountNotEmpty` (program/src/error.rs:122). -/
abbrev tokenAccountNotEmpty : Err := .custom 48
/-- `SwigError::WalletNotEmpty` (program/src/error.rs:124). -/
abbrev walletNotEmpty : Err := .custom 49
/-- `SwigError::InvalidSwigReplaceAuthorityInstructionDataTooShort` (program/src/error.rs:126). -/
abbrev invalidSwigReplaceAuthorityInstructionDataTooShort : Err := .custom 50
/-- `SwigError::ReplaceAuthorityInvalidPayload` (program/src/error.rs:128). -/
abbrev replaceAuthorityInvalidPayload : Err := .custom 51
/-- `SwigError::ReplaceAuthorityProofMismatch` (program/src/error.rs:130). -/
abbrev replaceAuthorityProofMismatch : Err := .custom 52
/-- `SwigError::ReplaceAuthorityProofInvalidData` (program/src/error.rs:132). -/
abbrev replaceAuthorityProofInvalidData : Err := .custom 53
/-- `SwigError::ReplaceAuthorityProofInvalidAccounts` (program/src/error.rs:134). -/
abbrev replaceAuthorityProofInvalidAccounts : Err := .custom 54
/-- `SwigError::ReplaceAuthorityProofInvalidInstruction` (program/src/error.rs:136). -/
abbrev replaceAuthorityProofInvalidInstruction : Err := .custom 55
/-- `SwigError::ReplaceAuthorityInvalidSignerLength` (program/src/error.rs:138). -/
abbrev replaceAuthorityInvalidSignerLength : Err := .custom 56
/-- `SwigError::UnsupportedReplaceAuthorityType` (program/src/error.rs:140). -/
abbrev unsupportedReplaceAuthorityType : Err := .custom 57
/-- `SwigError::InvalidSwigSetRentClaimerInstructionDataTooShort` (program/src/error.rs:142). -/
abbrev invalidSwigSetRentClaimerInstructionDataTooShort : Err := .custom 58
/-- `SwigError::RentClaimerAlreadySet` (program/src/error.rs:144). -/
abbrev rentClaimerAlreadySet : Err := .custom 59
/-- `SwigError::InvalidRentClaimerValue` (program/src/error.rs:146). -/
abbrev invalidRentClaimerValue : Err := .custom 60
/-- `SwigError::InvalidRentClaimerDestination` (program/src/error.rs:148). -/
abbrev invalidRentClaimerDestination : Err := .custom 61
/-- `SwigError::InvalidSwigCreateSubAccountV2InstructionDataTooShort` (program/src/error.rs:150). -/
abbrev invalidSwigCreateSubAccountV2InstructionDataTooShort : Err := .custom 62
/-- `SwigError::AuthorityCannotCreateSubAccountV2` (program/src/error.rs:152). -/
abbrev authorityCannotCreateSubAccountV2 : Err := .custom 63
/-- `SwigError::PermissionDeniedMissingSubAccountV2Permission` (program/src/error.rs:154). -/
abbrev permissionDeniedMissingSubAccountV2Permission : Err := .custom 64
/-- `SwigError::OwnerMismatchSubAccountV2State` (program/src/error.rs:156). -/
abbrev ownerMismatchSubAccountV2State : Err := .custom 65
/-- `SwigError::InvalidSwigSubAccountV2SwigIdMismatch` (program/src/error.rs:158). -/
abbrev invalidSwigSubAccountV2SwigIdMismatch : Err := .custom 66
/-- `SwigError::InvalidSwigSubAccountV2IdMismatch` (program/src/error.rs:160). -/
abbrev invalidSwigSubAccountV2IdMismatch : Err := .custom 67
/-- `SwigError::InvalidSwigSubAccountV2Disabled` (program/src/error.rs:162). -/
abbrev invalidSwigSubAccountV2Disabled : Err := .custom 68
/-- `SwigError::InvalidSeedSubAccountV2` (program/src/error.rs:164). -/
abbrev invalidSeedSubAccountV2 : Err := .custom 69
/-- `SwigError::ReplaceAuthoritySameSigner` (program/src/error.rs:166). -/
abbrev replaceAuthoritySameSigner : Err := .custom 70
/-- `SwigStateError::InvalidAccountData` (state/src/lib.rs:106). -/
abbrev st_invalidAccountData : Err := .custom 1000
/-- `SwigStateError::InvalidActionData` (state/src/lib.rs:108). -/
abbrev st_invalidActionData : Err := .custom 1001
/-- `SwigStateError::InvalidAuthorityData` (state/src/lib.rs:110). -/
abbrev st_invalidAuthorityData : Err := .custom 1002
/-- `SwigStateError::InvalidRoleData` (state/src/lib.rs:112). -/
abbrev st_invalidRoleData : Err := .custom 1003
/-- `SwigStateError::InvalidSwigData` (state/src/lib.rs:114). -/
abbrev st_invalidSwigData : Err := .custom 1004
/-- `SwigStateError::RoleNotFound` (state/src/lib.rs:116). -/
abbrev st_roleNotFound : Err := .custom 1005
/-- `SwigStateError::PermissionLoadError` (state/src/lib.rs:118). -/
abbrev st_permissionLoadError : Err := .custom 1006
/-- `SwigStateError::InvalidAuthorityMustHaveAtLeastOneAction` (state/src/lib.rs:120). -/
abbrev st_invalidAuthorityMustHaveAtLeastOneAction : Err := .custom 1007
/-- `SwigStateError::InvalidRentClaimerLayout` (state/src/lib.rs:123). -/
abbrev st_invalidRentClaimerLayout : Err := .custom 1008
/-- `SwigStateError::DuplicateV2SubAccountAction` (state/src/lib.rs:126). -/
abbrev st_duplicateV2SubAccountAction : Err := .custom 1009
/-- `SwigAuthenticateError::InvalidAuthority` (state/src/lib.rs:132). -/
abbrev au_invalidAuthority : Err := .custom 3000
/-- `SwigAuthenticateError::InvalidAuthorityPayload` (state/src/lib.rs:134). -/
abbrev au_invalidAuthorityPayload : Err := .custom 3001
/-- `SwigAuthenticateError::InvalidDataPayload` (state/src/lib.rs:136). -/
abbrev au_invalidDataPayload : Err := .custom 3002
/-- `SwigAuthenticateError::InvalidAuthorityEd25519MissingAuthorityAccount` (state/src/lib.rs:138). -/
abbrev au_invalidAuthorityEd25519MissingAuthorityAccount : Err := .custom 3003
/-- `SwigAuthenticateError::AuthorityDoesNotSupportSessionBasedAuth` (state/src/lib.rs:140). -/
abbrev au_authorityDoesNotSupportSessionBasedAuth : Err := .custom 3004
/-- `SwigAuthenticateError::PermissionDenied` (state/src/lib.rs:142). -/
abbrev au_permissionDenied : Err := .custom 3005
/-- `SwigAuthenticateError::PermissionDeniedMissingPermission` (state/src/lib.rs:144). -/
abbrev au_permissionDeniedMissingPermission : Err := .custom 3006
/-- `SwigAuthenticateError::PermissionDeniedTokenAccountPermissionFailure` (state/src/lib.rs:146). -/
abbrev au_permissionDeniedTokenAccountPermissionFailure : Err := .custom 3007
/-- `SwigAuthenticateError::PermissionDeniedTokenAccountDelegatePresent` (state/src/lib.rs:148). -/
abbrev au_permissionDeniedTokenAccountDelegatePresent : Err := .custom 3008
/-- `SwigAuthenticateError::PermissionDeniedTokenAccountNotInitialized` (state/src/lib.rs:150). -/
abbrev au_permissionDeniedTokenAccountNotInitialized : Err := .custom 3009
/-- `SwigAuthenticateError::PermissionDeniedToManageAuthority` (state/src/lib.rs:152). -/
abbrev au_permissionDeniedToManageAuthority : Err := .custom 3010
/-- `SwigAuthenticateError::PermissionDeniedInsufficientBalance` (state/src/lib.rs:154). -/
abbrev au_permissionDeniedInsufficientBalance : Err := .custom 3011
/-- `SwigAuthenticateError::PermissionDeniedCannotRemoveRootAuthority` (state/src/lib.rs:156). -/
abbrev au_permissionDeniedCannotRemoveRootAuthority : Err := .custom 3012
/-- `SwigAuthenticateError::PermissionDeniedCannotUpdateRootAuthority` (state/src/lib.rs:158). -/
abbrev au_permissionDeniedCannotUpdateRootAuthority : Err := .custom 3013
/-- `SwigAuthenticateError::PermissionDeniedSessionExpired` (state/src/lib.rs:160). -/
abbrev au_permissionDeniedSessionExpired : Err := .custom 3014
/-- `SwigAuthenticateError::PermissionDeniedSecp256k1InvalidSignature` (state/src/lib.rs:162). -/
abbrev au_permissionDeniedSecp256k1InvalidSignature : Err := .custom 3015
/-- `SwigAuthenticateError::PermissionDeniedSecp256k1InvalidSignatureAge` (state/src/lib.rs:164). -/
abbrev au_permissionDeniedSecp256k1InvalidSignatureAge : Err := .custom 3016
/-- `SwigAuthenticateError::PermissionDeniedSecp256k1SignatureReused` (state/src/lib.rs:166). -/
abbrev au_permissionDeniedSecp256k1SignatureReused : Err := .custom 3017
/-- `SwigAuthenticateError::PermissionDeniedSecp256k1InvalidHash` (state/src/lib.rs:168). -/
abbrev au_permissionDeniedSecp256k1InvalidHash : Err := .custom 3018
/-- `SwigAuthenticateError::PermissionDeniedSecp256r1SignatureReused` (state/src/lib.rs:170). -/
abbrev au_permissionDeniedSecp256r1SignatureReused : Err := .custom 3019
/-- `SwigAuthenticateError::PermissionDeniedStakeAccountInvalidState` (state/src/lib.rs:172). -/
abbrev au_permissionDeniedStakeAccountInvalidState : Err := .custom 3020
/-- `SwigAuthenticateError::InvalidSessionKeyCannotReuseSessionKey` (state/src/lib.rs:174). -/
abbrev au_invalidSessionKeyCannotReuseSessionKey : Err := .custom 3021
/-- `SwigAuthenticateError::InvalidSessionDuration` (state/src/lib.rs:176). -/
abbrev au_invalidSessionDuration : Err := .custom 3022
/-- `SwigAuthenticateError::PermissionDeniedTokenAccountAuthorityNotSwig` (state/src/lib.rs:178). -/
abbrev au_permissionDeniedTokenAccountAuthorityNotSwig : Err := .custom 3023
/-- `SwigAuthenticateError::PermissionDeniedSecp256r1InvalidInstruction` (state/src/lib.rs:180). -/
abbrev au_permissionDeniedSecp256r1InvalidInstruction : Err := .custom 3024
/-- `SwigAuthenticateError::PermissionDeniedSecp256r1InvalidPubkey` (state/src/lib.rs:182). -/
abbrev au_permissionDeniedSecp256r1InvalidPubkey : Err := .custom 3025
/-- `SwigAuthenticateError::PermissionDeniedSecp256r1InvalidMessageHash` (state/src/lib.rs:184). -/
abbrev au_permissionDeniedSecp256r1InvalidMessageHash : Err := .custom 3026
/-- `SwigAuthenticateError::PermissionDeniedSecp256r1InvalidMessage` (state/src/lib.rs:186). -/
abbrev au_permissionDeniedSecp256r1InvalidMessage : Err := .custom 3027
/-- `SwigAuthenticateError::PermissionDeniedSecp256r1InvalidAuthenticationKind` (state/src/lib.rs:188). -/
abbrev au_permissionDeniedSecp256r1InvalidAuthenticationKind : Err := .custom 3028
/-- `SwigAuthenticateError::PermissionDeniedSolDestinationLimitExceeded` (state/src/lib.rs:190). -/
abbrev au_permissionDeniedSolDestinationLimitExceeded : Err := .custom 3029
/-- `SwigAuthenticateError::PermissionDeniedSolDestinationRecurringLimitExceeded` (state/src/lib.rs:192). -/
abbrev au_permissionDeniedSolDestinationRecurringLimitExceeded : Err := .custom 3030
/-- `SwigAuthenticateError::PermissionDeniedTokenDestinationLimitExceeded` (state/src/lib.rs:194). -/
abbrev au_permissionDeniedTokenDestinationLimitExceeded : Err := .custom 3031
/-- `SwigAuthenticateError::PermissionDeniedRecurringTokenDestinationLimitExceeded` (state/src/lib.rs:196). -/
abbrev au_permissionDeniedRecurringTokenDestinationLimitExceeded : Err := .custom 3032
/-- `SwigAuthenticateError::PermissionDeniedProgramExecInvalidInstruction` (state/src/lib.rs:198). -/
abbrev au_permissionDeniedProgramExecInvalidInstruction : Err := .custom 3033
/-- `SwigAuthenticateError::PermissionDeniedProgramExecInvalidProgram` (state/src/lib.rs:200). -/
abbrev au_permissionDeniedProgramExecInvalidProgram : Err := .custom 3034
/-- `SwigAuthenticateError::PermissionDeniedProgramExecInvalidInstructionData` (state/src/lib.rs:202). -/
abbrev au_permissionDeniedProgramExecInvalidInstructionData : Err := .custom 3035
/-- `SwigAuthenticateError::PermissionDeniedProgramExecMissingAccounts` (state/src/lib.rs:204). -/
abbrev au_permissionDeniedProgramExecMissingAccounts : Err := .custom 3036
/-- `SwigAuthenticateError::PermissionDeniedProgramExecInvalidConfigAccount` (state/src/lib.rs:206). -/
abbrev au_permissionDeniedProgramExecInvalidConfigAccount : Err := .custom 3037
/-- `SwigAuthenticateError::PermissionDeniedProgramExecInvalidWalletAccount` (state/src/lib.rs:208). -/
abbrev au_permissionDeniedProgramExecInvalidWalletAccount : Err := .custom 3038
/-- `SwigAuthenticateError::PermissionDeniedProgramExecCannotBeSwig` (state/src/lib.rs:210). -/
abbrev au_permissionDeniedProgramExecCannotBeSwig : Err := .custom 3039

end Verif.E
