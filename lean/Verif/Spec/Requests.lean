import Verif.Model.Records

/-!
# The fixed part of every request

Which record stands at the start of a request, where it names the acting role, and which of its fields state the lengths of the parts
between the record and the credential.
-/

namespace Verif

structure Args where
  record : Record
  role : Span
  lens : List Span

/-- By instruction number; numbers without a handler of their own are creation requests (which name no role). -/
def args : Nat → Args
  | 1 => ⟨Rec.AddAuthorityV1Args, Rec.AddAuthorityV1Args.acting_role_id,
      [Rec.AddAuthorityV1Args.new_authority_data_len, Rec.AddAuthorityV1Args.actions_data_len]⟩
  | 2 => ⟨Rec.RemoveAuthorityV1Args, Rec.RemoveAuthorityV1Args.acting_role_id, []⟩
  | 3 => ⟨Rec.UpdateAuthorityV1Args, Rec.UpdateAuthorityV1Args.acting_role_id, [Rec.UpdateAuthorityV1Args.actions_data_len]⟩
  | 5 => ⟨Rec.CreateSessionV1Args, Rec.CreateSessionV1Args.role_id, []⟩
  | 6 => ⟨Rec.CreateSubAccountV1Args, Rec.CreateSubAccountV1Args.role_id, []⟩
  | 7 => ⟨Rec.WithdrawFromSubAccountV1Args, Rec.WithdrawFromSubAccountV1Args.role_id, []⟩
  | 9 => ⟨Rec.SubAccountSignV1Args, Rec.SubAccountSignV1Args.role_id, [Rec.SubAccountSignV1Args.instruction_payload_len]⟩
  | 10 => ⟨Rec.ToggleSubAccountV1Args, Rec.ToggleSubAccountV1Args.auth_role_id, []⟩
  | 11 => ⟨Rec.SignV2Args, Rec.SignV2Args.role_id, [Rec.SignV2Args.instruction_payload_len]⟩
  | 12 => ⟨Rec.MigrateToWalletAddressV1Args, Rec.MigrateToWalletAddressV1Args.role_id, []⟩
  | 13 => ⟨Rec.TransferAssetsV1Args, Rec.TransferAssetsV1Args.role_id, []⟩
  | 14 => ⟨Rec.CloseTokenAccountV1Args, Rec.CloseTokenAccountV1Args.role_id, []⟩
  | 15 => ⟨Rec.CloseSwigV1Args, Rec.CloseSwigV1Args.role_id, []⟩
  | 16 => ⟨Rec.ReplaceAuthorityV1Args, Rec.ReplaceAuthorityV1Args.acting_role_id, [Rec.ReplaceAuthorityV1Args.new_authority_len]⟩
  | 17 => ⟨Rec.SetRentClaimerV1Args, Rec.SetRentClaimerV1Args.role_id, []⟩
  | 18 => ⟨Rec.CreateSubAccountV2Args, Rec.CreateSubAccountV2Args.role_id, []⟩
  | 19 => ⟨Rec.ToggleSubAccountV2Args, Rec.ToggleSubAccountV2Args.auth_role_id, []⟩
  | 20 => ⟨Rec.SubAccountSignV2Args, Rec.SubAccountSignV2Args.role_id, [Rec.SubAccountSignV2Args.instruction_payload_len]⟩
  | 21 => ⟨Rec.WithdrawFromSubAccountV2Args, Rec.WithdrawFromSubAccountV2Args.role_id, []⟩
  | _ => ⟨Rec.CreateV1Args, (0, 0), [Rec.CreateV1Args.authority_data_len]⟩

/-- The record and the parts whose lengths it states. -/
def fixedPart (ix : Bytes) : Nat :=
  (args (rd ix 0 2)).record.size + ((args (rd ix 0 2)).lens.map (numAt ix)).sum

/-- The role the request acts as, as its record says. -/
def namedRole (ix : Bytes) : Nat := numAt ix (args (rd ix 0 2)).role

end Verif
