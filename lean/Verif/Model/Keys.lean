import Verif.Model.Basic

/-!
# Well-known addresses

Generated by tools/gen_keys.py from the base58 strings in the source.
-/

namespace Verif

/-- swigypWHEksbC64pWKwah1WTeh9JXwx8H1rJHLdbQMB: the program itself, assertions/src/lib.rs:12. -/
def swigId : Key := [13, 12, 233, 66, 225, 231, 197, 6, 226, 24, 223, 13, 125, 241, 197, 47, 175, 220, 53, 41, 228, 141, 103, 77, 29, 178, 76, 117, 181, 76, 204, 190]

/-- 11111111111111111111111111111111: System program (`pinocchio_system::ID`). -/
def systemId : Key := [0, 0, 0, 0, 0, 0, 0, 0, 0, 0, 0, 0, 0, 0, 0, 0, 0, 0, 0, 0, 0, 0, 0, 0, 0, 0, 0, 0, 0, 0, 0, 0]

/-- TokenkegQfeZyiNwAJbNbGKPFXCWuBvf9Ss623VQ5DA: SPL Token, program/src/lib.rs. -/
def tokenId : Key := [6, 221, 246, 225, 215, 101, 161, 147, 217, 203, 225, 70, 206, 235, 121, 172, 28, 180, 133, 237, 95, 91, 55, 145, 58, 140, 245, 133, 126, 255, 0, 169]

/-- TokenzQdBNbLqP5VEhdkAS6EPFLC1PHnBqCXEpPxuEb: SPL Token 2022, program/src/lib.rs. -/
def token2022Id : Key := [6, 221, 246, 225, 238, 117, 143, 222, 24, 66, 93, 188, 228, 108, 205, 218, 182, 26, 252, 77, 131, 185, 13, 39, 254, 189, 249, 40, 216, 161, 139, 252]

/-- Stake11111111111111111111111111111111111111: Stake program, program/src/lib.rs. -/
def stakeId : Key := [6, 161, 216, 23, 145, 55, 84, 42, 152, 52, 55, 189, 254, 42, 122, 178, 85, 127, 83, 92, 138, 120, 114, 43, 104, 164, 157, 192, 0, 0, 0, 0]

/-- Sysvar1nstructions1111111111111111111111111: Instructions sysvar (`pinocchio::sysvars::instructions::INSTRUCTIONS_ID`). -/
def instructionsSysvarId : Key := [6, 167, 213, 23, 24, 123, 209, 102, 53, 218, 212, 4, 85, 253, 194, 192, 193, 36, 198, 143, 33, 86, 117, 165, 219, 186, 203, 95, 8, 0, 0, 0]

/-- Secp256r1SigVerify1111111111111111111111111: secp256r1 precompile, state/src/authority/secp256r1.rs:32-41. -/
def secp256r1Id : Key := [6, 146, 13, 236, 47, 234, 113, 181, 183, 35, 129, 77, 116, 45, 169, 3, 28, 131, 231, 95, 219, 121, 93, 86, 142, 117, 71, 128, 32, 0, 0, 0]

end Verif
