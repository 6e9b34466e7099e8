import Verif.Spec.Evolve

/-!
# Which bytes of a request are the credential and which are covered by it

Every request for an existing wallet ends with the credential of the acting role.
-/

namespace Verif

/-- Where the credential begins, by instruction number: after the fixed part and the parts whose lengths it states. -/
def credentialAt (ix : Bytes) : Nat :=
  match rd ix 0 2 with
  | 1 => 16 + rd ix 2 2 + rd ix 4 2     -- add: new credential, permissions
  | 3 => 16 + rd ix 2 2                 -- update: the change
  | 16 => 16 + rd ix 12 2               -- replace: new signer
  | 9 | 20 => 16 + rd ix 2 2            -- sub-account signing: inner instructions
  | 11 => 8 + rd ix 2 2                 -- signing: inner instructions
  | 5 => 48
  | 17 => 40
  | 21 => 24
  | 12 | 13 | 14 | 15 => 8
  | _ => 16

/-- What a signature credential covers (besides the accounts, the slot and the counter): everything before the credential, except that
signing requests (9, 11) cover only the inner instructions. -/
def signedPart (ix : Bytes) : Bytes :=
  if rd ix 0 2 = 9 then sl ix 16 (16 + rd ix 2 2) else if rd ix 0 2 = 11 then sl ix 8 (8 + rd ix 2 2) else ix.take (credentialAt ix)

end Verif
