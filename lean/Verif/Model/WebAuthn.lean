import Verif.Model.World

/-!
# Text encodings and WebAuthn client data

Hexadecimal and base64url encoders, the WebAuthn client-data JSON builder and the raw client-data JSON parser of
`state/src/authority/secp256k1.rs` and `secp256r1.rs`.
-/

namespace Verif

/-- `HEX_CHARS[i]`, state/src/authority/secp256k1.rs:628 ("0123456789abcdef"). -/
def hexChar (i : Nat) : UInt8 := if i < 10 then UInt8.ofNat (48 + i) else UInt8.ofNat (87 + i)

/-- `hex_encode`, state/src/authority/secp256k1.rs:627-634. -/
def hexEncode : Bytes → Bytes
  | [] => []
  | b :: bs => hexChar (b.toNat / 16) :: hexChar (b.toNat % 16) :: hexEncode bs

/-- `BASE64URL_CHARS[i]`, state/src/authority/secp256r1.rs:1142-1143: A-Z, a-z, 0-9, `-`, `_`. -/
def b64Char (i : Nat) : UInt8 :=
  if i < 26 then UInt8.ofNat (65 + i)
  else if i < 52 then UInt8.ofNat (71 + i)
  else if i < 62 then UInt8.ofNat (i - 4)
  else if i = 62 then 45
  else 95

/-- `base64url_encode_no_pad`, state/src/authority/secp256r1.rs:1141-1176: three bytes give four characters, a rest of one or two
bytes gives two or three.  Bit masks and shifts are written with `/`, `%` and `*`. -/
def b64Encode : Bytes → Bytes
  | b1 :: b2 :: b3 :: rest =>
    b64Char (b1.toNat / 4) :: b64Char (b1.toNat % 4 * 16 + b2.toNat / 16) ::
      b64Char (b2.toNat % 16 * 4 + b3.toNat / 64) :: b64Char (b3.toNat % 64) :: b64Encode rest
  | [b1, b2] =>
    [b64Char (b1.toNat / 4), b64Char (b1.toNat % 4 * 16 + b2.toNat / 16), b64Char (b2.toNat % 16 * 4)]
  | [b1] => [b64Char (b1.toNat / 4), b64Char (b1.toNat % 4 * 16)]
  | [] => []

/-- ASCII text as bytes. -/
def ascii (s : String) : Bytes := s.toList.map (fun c => UInt8.ofNat c.toNat)

/-- `"challenge":"` -/
def jsonChallenge : Bytes := [34, 99, 104, 97, 108, 108, 101, 110, 103, 101, 34, 58, 34]
/-- `"type":"webauthn.get"` -/
def jsonType : Bytes := [34, 116, 121, 112, 101, 34, 58, 34, 119, 101, 98, 97, 117, 116, 104, 110, 46, 103, 101, 116, 34]
/-- `"origin":"` -/
def jsonOrigin : Bytes := [34, 111, 114, 105, 103, 105, 110, 34, 58, 34]
/-- `"crossOrigin":false` -/
def jsonCross : Bytes := [34, 99, 114, 111, 115, 115, 79, 114, 105, 103, 105, 110, 34, 58, 102, 97, 108, 115, 101]
/-- `challenge` -/
def nameChallenge : Bytes := [99, 104, 97, 108, 108, 101, 110, 103, 101]
/-- `type` -/
def nameType : Bytes := [116, 121, 112, 101]
/-- `webauthn.get` -/
def webauthnGet : Bytes := [119, 101, 98, 97, 117, 116, 104, 110, 46, 103, 101, 116]

/-- `core::str::from_utf8(..).is_ok()`: the table of well-formed UTF-8 byte sequences (Unicode, table 3-7). -/
def utf8Valid : Bytes → Bool
  | [] => true
  | a :: rest =>
    if a.toNat < 0x80 then utf8Valid rest
    else
      let cont (x : UInt8) : Bool := 0x80 ≤ x.toNat && x.toNat ≤ 0xBF
      match rest with
      | b :: rest2 =>
        if 0xC2 ≤ a.toNat ∧ a.toNat ≤ 0xDF then cont b && utf8Valid rest2
        else match rest2 with
          | c :: rest3 =>
            if a.toNat = 0xE0 then 0xA0 ≤ b.toNat && b.toNat ≤ 0xBF && cont c && utf8Valid rest3
            else if a.toNat = 0xED then 0x80 ≤ b.toNat && b.toNat ≤ 0x9F && cont c && utf8Valid rest3
            else if 0xE1 ≤ a.toNat ∧ a.toNat ≤ 0xEF then cont b && cont c && utf8Valid rest3
            else match rest3 with
              | d :: rest4 =>
                if a.toNat = 0xF0 then 0x90 ≤ b.toNat && b.toNat ≤ 0xBF && cont c && cont d && utf8Valid rest4
                else if 0xF1 ≤ a.toNat ∧ a.toNat ≤ 0xF3 then cont b && cont c && cont d && utf8Valid rest4
                else if a.toNat = 0xF4 then 0x80 ≤ b.toNat && b.toNat ≤ 0x8F && cont c && cont d && utf8Valid rest4
                else false
              | [] => false
          | [] => false
      | [] => false

/-- Error used throughout the WebAuthn code. -/
abbrev eMsg : Err := E.au_permissionDeniedSecp256r1InvalidMessage

/-- One field of the client data, state/src/authority/secp256r1.rs:1124-1132; `WebAuthnField::try_from` 701-715. -/
def jsonField (challenge origin : Bytes) (key : UInt8) : R (List Bytes) :=
  if key = 0 then .ok []
  else if key = 1 then .ok [jsonType]
  else if key = 2 then .ok [jsonChallenge ++ challenge ++ [34]]
  else if key = 3 then .ok [jsonOrigin ++ origin ++ [34]]
  else if key = 4 then .ok [jsonCross]
  else .error eMsg

def jsonFields (challenge origin : Bytes) : Bytes → R (List Bytes)
  | [] => .ok []
  | k :: ks => do
    let f ← jsonField challenge origin k
    let fs ← jsonFields challenge origin ks
    .ok (f ++ fs)

/-- `fields.join(",")`. -/
def joinComma : List Bytes → Bytes
  | [] => []
  | [f] => f
  | f :: g :: fs => f ++ [44] ++ joinComma (g :: fs)

/-- `reconstruct_client_data_json`, state/src/authority/secp256r1.rs:1111-1138. -/
def reconstructJson (fieldOrder origin challenge : Bytes) : R Bytes :=
  if utf8Valid origin then do
    let fs ← jsonFields (b64Encode challenge) origin fieldOrder
    .ok ([123] ++ joinComma fs ++ [125])
  else .error eMsg

/-- `validate_webauthn_field_order`, state/src/authority/secp256r1.rs:839-856. -/
def validFieldOrder (fo : Bytes) : R Unit :=
  if fo.all (fun k => k.toNat ≤ 4) then
    if fo.count 2 = 1 ∧ fo.count 1 = 1 then .ok () else .error eMsg
  else .error eMsg

/-- Bits of a byte, most significant first (`BIT_MASKS`, secp256r1.rs:1054). -/
def bitsOf (b : UInt8) : List Bool :=
  [7, 6, 5, 4, 3, 2, 1, 0].map (fun i => b.toNat / 2 ^ i % 2 == 1)

/-- Loop body of `decode_huffman_origin`, state/src/authority/secp256r1.rs:1066-1105, over the bits of the input. -/
def huffGo (tree : Bytes) (root want : Nat) : List Bool → Nat → Bytes → R Bytes
  | [], _, out => .ok out
  | bit :: bits, node, out =>
    if out.length = want then .ok out
    else if tree.getD (node * 3) 0 = 0 then .error eMsg
    else
      let next := (if bit then tree.getD (node * 3 + 2) 0 else tree.getD (node * 3 + 1) 0).toNat
      if next ≥ tree.length / 3 then .error eMsg
      else if tree.getD (next * 3) 0 = 0 then
        huffGo tree root want bits root (out ++ [tree.getD (next * 3 + 1) 0])
      else huffGo tree root want bits next out

/-- `decode_huffman_origin`, state/src/authority/secp256r1.rs:1046-1108. -/
def decodeHuffman (tree encoded : Bytes) (want : Nat) : R Bytes :=
  if tree.length % 3 ≠ 0 ∨ tree = [] then .error eMsg
  else huffGo tree (tree.length / 3 - 1) want (encoded.flatMap bitsOf) (tree.length / 3 - 1) []

/-- `webauthn_message`, state/src/authority/secp256r1.rs:733-837. -/
def webauthnMessage (env : Env) (p hash : Bytes) : R Bytes :=
  if p.length < 6 then .error eMsg
  else
    let al := rd p 2 2
    if al ≥ 196 then .error eMsg
    else if p.length < 4 + al + 4 then .error eMsg
    else do
      let authData := sl p 4 (4 + al)
      let fo := sl p (4 + al) (4 + al + 4)
      validFieldOrder fo
      let o := 4 + al + 4
      if p.length < o + 6 then .error eMsg
      else do
        let originLen := rd p o 2
        let treeLen := rd p (o + 2) 2
        let encLen := rd p (o + 4) 2
        let o := o + 6
        if p.length < o + treeLen + encLen then .error eMsg
        else do
          let origin ← decodeHuffman (sl p o (o + treeLen)) (sl p (o + treeLen) (o + treeLen + encLen)) originLen
          let json ← reconstructJson fo origin hash
          .ok (authData ++ env.sha256 json)

/-! ## Raw client data -/

/-- `u8::is_ascii_whitespace`. -/
def isWs (b : UInt8) : Bool := b = 32 || b = 9 || b = 10 || b = 12 || b = 13

def skipWs : Bytes → Bytes
  | [] => []
  | b :: r => if isWs b then skipWs r else b :: r

/-- Reads a string body up to the closing quote; `none` when a backslash or the end comes first
(state/src/authority/secp256r1.rs:965-980, 1003-1021): content and what follows the quote. -/
def scanString : Bytes → Option (Bytes × Bytes)
  | [] => none
  | b :: r =>
    if b = 34 then some ([], r)
    else if b = 92 then none
    else match scanString r with
      | some (s, rest) => some (b :: s, rest)
      | none => none

/-- Main loop of `extract_top_level_string_field`, state/src/authority/secp256r1.rs:937-1042, on the bytes from the cursor on;
every turn consumes at least one byte, so `fuel = length` suffices.  All its failures are the same error. -/
def extractGo (name : Bytes) : Nat → Nat → Bytes → R Bytes
  | 0, _, _ => .error eMsg
  | _ + 1, _, [] => .error eMsg
  | fuel + 1, depth, b :: r =>
    if b = 123 then extractGo name fuel (depth + 1) r
    else if b = 125 then
      if depth = 0 then .error eMsg else extractGo name fuel (depth - 1) r
    else if depth = 1 ∧ b = 34 then
      match scanString r with
      | none => .error eMsg
      | some (key, r1) =>
        match skipWs r1 with
        | [] => .error eMsg
        | c :: r2 =>
          if c ≠ 58 then .error eMsg
          else match skipWs r2 with
            | [] => .error eMsg
            | v :: r3 =>
              if key = name then
                if v ≠ 34 then .error eMsg
                else match scanString r3 with
                  | some (val, _) => .ok val
                  | none => .error eMsg
              else if v = 34 then
                match scanString r3 with
                | some (_, r4) => extractGo name fuel depth r4
                | none => .error eMsg
              else extractGo name fuel depth (v :: r3)
    else extractGo name fuel depth r

/-- `extract_top_level_string_field`, state/src/authority/secp256r1.rs:925-1043. -/
def extractField (json name : Bytes) : R Bytes :=
  match skipWs json with
  | [] => .error eMsg
  | b :: r => if b = 123 then extractGo name (b :: r).length 0 (b :: r) else .error eMsg

/-- `webauthn_raw_client_data_json_message`, state/src/authority/secp256r1.rs:858-923. -/
def webauthnRawMessage (env : Env) (p hash : Bytes) : R Bytes :=
  if p.length < 6 then .error eMsg
  else
    let al := rd p 2 2
    if al ≥ 196 then .error eMsg
    else if p.length < 4 + al + 2 then .error eMsg
    else do
      let authData := sl p 4 (4 + al)
      let jl := rd p (4 + al) 2
      if jl = 0 ∨ jl > 1024 then .error eMsg
      else if p.length ≠ 4 + al + 2 + jl then .error eMsg
      else do
        let json := sl p (4 + al + 2) (4 + al + 2 + jl)
        let challenge ← extractField json nameChallenge
        if challenge ≠ b64Encode hash then .error E.au_permissionDeniedSecp256r1InvalidMessageHash
        else do
          let ty ← extractField json nameType
          if ty ≠ webauthnGet then .error eMsg
          else .ok (authData ++ env.sha256 json)

end Verif
