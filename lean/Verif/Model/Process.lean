import Verif.Model.Sign
import Verif.Model.SubV2

/-!
# Entry point

`process_instruction` (program/src/lib.rs) and the dispatcher `process_action` (program/src/actions/mod.rs).
-/

namespace Verif

/-- `process_action`, program/src/actions/mod.rs:70-121.  Numbers of `SwigInstruction` (program/src/instruction.rs:19-320); an unknown
number is `CreateV1` (`num_enum(default)`, instruction.rs:34). -/
def dispatch (env : Env) (cpi : Cpi) (m : Mem) (metas : List Meta) (cls : List Class) (ix : Bytes) : R Mem :=
  if ix.length < 2 then .error .invalidInstructionData
  else match rd ix 0 2 with
    | 1 => addAuthorityV1 env m metas ix
    | 2 => removeAuthorityV1 env m metas ix
    | 3 => updateAuthorityV1 env m metas ix
    | 4 => .error .invalidInstructionData
    | 5 => createSessionV1 env m metas ix
    | 6 => createSubV1 env m metas ix
    | 7 => withdrawSubV1 env cpi m metas ix
    | 9 => subSignV1 env cpi m metas ix
    | 10 => toggleSubV1 env m metas ix
    | 11 => signV2 env cpi m metas cls ix
    | 12 => migrateV1 env m metas ix
    | 13 => transferAssetsV1 env cpi m metas ix
    | 14 => closeTokenV1 env cpi m metas ix
    | 15 => closeSwigV1 env m metas ix
    | 16 => replaceAuthorityV1 env m metas ix
    | 17 => setRentClaimerV1 env m metas ix
    | 18 => createSubV2 env m metas ix
    | 19 => toggleSubV2 env m metas ix
    | 20 => subSignV2 env cpi m metas ix
    | 21 => withdrawSubV2 env cpi m metas ix
    | _ => createV1 env m metas ix

/-- `process_instruction`, program/src/lib.rs:87-101, and `execute`, 257-335: at most `MAX_ACCOUNTS` = 254 accounts, classify them,
dispatch. -/
def process (env : Env) (cpi : Cpi) (m : Mem) (metas : List Meta) (ix : Bytes) : R Mem := do
  require (metas.length ≤ 254) E.invalidAccountsLength
  let cls ← classifyAll m metas
  dispatch env cpi m metas cls ix

end Verif
