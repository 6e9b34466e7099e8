import Verif.Model.Basic

/-! Base58 (the text form of Solana addresses), as a number in base 58 written big-endian into 32 bytes. -/

namespace Verif

def base58Alphabet : List Char := "123456789ABCDEFGHJKLMNPQRSTUVWXYZabcdefghijkmnopqrstuvwxyz".toList

/-- Value of a base58 text. -/
def base58Value (s : String) : Nat := s.toList.foldl (fun acc c => acc * 58 + base58Alphabet.idxOf c) 0

/-- The 32 bytes of an address given in base58. -/
def address (s : String) : Bytes := (natLE 32 (base58Value s)).reverse

end Verif
