import Verif.Model.Errors
import Verif.Model.Keys

/-!
# Stored authorities: types, sizes and creation

`state/src/authority/mod.rs`, and `set_into_bytes` of the eight authority types.
An authority type is its `u16` number (`AuthorityType`, state/src/authority/mod.rs:119-138).
-/

namespace Verif

namespace T
/-! Authority types, state/src/authority/mod.rs:119-138. -/
abbrev ed25519 : Nat := 1
abbrev ed25519Session : Nat := 2
abbrev secp256k1 : Nat := 3
abbrev secp256k1Session : Nat := 4
abbrev secp256r1 : Nat := 5
abbrev secp256r1Session : Nat := 6
abbrev programExec : Nat := 7
abbrev programExecSession : Nat := 8
end T

/-- Size of the stored struct of each authority type (`Transmutable::LEN`): ed25519.rs:109,198, secp256k1.rs:94,211,
secp256r1.rs:158,251, programexec/mod.rs:95, programexec/session.rs:127; also `authority_type_to_length`,
state/src/authority/mod.rs:168-182. -/
def authLen : Nat → Option Nat
  | 1 => some 32 | 2 => some 80 | 3 => some 40 | 4 => some 88 | 5 => some 40 | 6 => some 88
  | 7 => some 80 | 8 => some 128
  | _ => none

/-- `AuthorityType::try_from(u16)`, state/src/authority/mod.rs:140-158. -/
def authTypeOf (n : Nat) : R Nat :=
  if 1 ≤ n ∧ n ≤ 8 then .ok n else .error .invalidInstructionData

/-- `AuthorityInfo::session_based`: the even types. -/
def sessionBased (ty : Nat) : Bool := ty == 2 || ty == 4 || ty == 6 || ty == 8

/-- `compress`, state/src/authority/secp256k1.rs:571-576. -/
def compressKey (k : Bytes) : Bytes :=
  (if (k.getD 63 0).toNat % 2 = 0 then 2 else 3) :: sl k 0 32

/-- `set_into_bytes` of each authority type: `create` is the data supplied by the client, `old` the bytes already in
the region (of the size of the type); fields that the code does not assign keep their old bytes.
ed25519.rs:51-58, 215-222; secp256k1.rs:103-127, 220-235; secp256r1.rs:167-175, 260-268;
programexec/mod.rs:104-122; programexec/session.rs:144-166 (its `Create` struct has `LEN` 128, session.rs:62). -/
def setAuthority (ty : Nat) (create old : Bytes) : R Bytes :=
  if ty = T.ed25519 then
    if create.length ≠ 32 then .error E.st_invalidRoleData else .ok create
  else if ty = T.ed25519Session then
    if create.length ≠ 72 then .error .invalidAccountData
    else .ok (create ++ sl old 72 80)
  else if ty = T.secp256k1 then
    if create.length = 33 then .ok (create ++ sl old 33 36 ++ zeros 4)
    else if create.length = 64 then .ok (compressKey create ++ sl old 33 36 ++ zeros 4)
    else .error E.st_invalidRoleData
  else if ty = T.secp256k1Session then
    if create.length ≠ 104 then .error .invalidAccountData
    else
      let key := if sl create 33 64 = zeros 31 then sl create 0 33 else compressKey (sl create 0 64)
      .ok (key ++ sl old 33 36 ++ zeros 4 ++ sl create 64 104 ++ sl old 80 88)
  else if ty = T.secp256r1 then
    if create.length ≠ 33 then .error E.st_invalidRoleData
    else .ok (create ++ sl old 33 36 ++ zeros 4)
  else if ty = T.secp256r1Session then
    if create.length ≠ 80 then .error .invalidAccountData
    else .ok (sl create 0 33 ++ sl old 33 36 ++ zeros 4 ++ sl create 40 80 ++ sl old 80 88)
  else if ty = T.programExec then
    if create.length ≠ 80 then .error E.st_invalidRoleData
    else
      let p := (create.getD 32 0).toNat
      if p > 40 then .error E.st_invalidRoleData
      else if sl create 0 32 = swigId then .error E.au_permissionDeniedProgramExecCannotBeSwig
      else .ok (sl create 0 33 ++ sl old 33 40 ++ sl create 40 (40 + p) ++ sl old (40 + p) 80)
  else if ty = T.programExecSession then
    if create.length ≠ 128 then .error .invalidAccountData
    else
      let p := (create.getD 32 0).toNat
      if p > 40 then .error E.st_invalidRoleData
      else if sl create 0 32 = swigId then .error E.au_permissionDeniedProgramExecCannotBeSwig
      else .ok (sl create 0 33 ++ sl old 33 40 ++ sl create 40 120 ++ zeros 8)
  else .error E.st_invalidAuthorityData

end Verif
