import Verif.Spec.Passkey
import Verif.Props.WebAuthn
import Verif.Props.AcceptCred

/-!
# C116: a passkey assertion for a request is accepted

C63 says that nothing but an assertion for the request is accepted.  Here is the other direction: whatever a browser and an authenticator produce for
the challenge of the request is accepted, in both forms the program knows.
-/

namespace Verif

/-! ### The compressed origin -/

private theorem bits_eq (b : Bytes) : b.flatMap bitsOf = bitString b := by
  unfold bitString
  congr 1

private theorem Code.At.bound {table : Bytes} {i : Nat} {t : Code} (h : Code.At table i t) : 3 * i + 3 ≤ table.length := by
  cases h <;> assumption

private theorem Code.At.kind {table : Bytes} {i : Nat} {l r : Code} (h : Code.At table i (.node l r)) :
    table.getD (3 * i) 0 ≠ 0 ∧ Code.At table (table.getD (3 * i + 1) 0).toNat l ∧ Code.At table (table.getD (3 * i + 2) 0).toNat r := by
  cases h with | node h1 h2 h3 h4 => exact ⟨h2, h3, h4⟩

/-- One way through the tree gives one byte. -/
private theorem huff_way {table : Bytes} {root want : Nat} {t : Code} {w : List Bool} {c : UInt8} (hw : t.Way w c) :
    ∀ {i : Nat} {l r : Code}, t = .node l r → Code.At table i t → ∀ (bits : List Bool) (out : Bytes), out.length ≠ want →
      huffGo table root want (w ++ bits) i out = huffGo table root want bits root (out ++ [c]) := by
  induction hw with
  | here c => intro i l r h; cases h
  | @zero l r w c hw ih =>
    intro i l' r' ht hat bits out ho
    obtain ⟨hk, hl, hr⟩ := hat.kind
    rw [List.cons_append, huffGo, if_neg ho, Nat.mul_comm i 3, if_neg hk]
    dsimp only
    rw [if_neg (show ¬ (false = true) by decide), if_neg (by have := hl.bound; omega), Nat.mul_comm _ 3]
    cases hl with
    | leaf h1 h2 h3 => rw [if_pos h2, h3]; cases hw; rfl
    | node h1 h2 h3 h4 => rw [if_neg h2]; exact ih rfl (.node h1 h2 h3 h4) bits out ho
  | @one l r w c hw ih =>
    intro i l' r' ht hat bits out ho
    obtain ⟨hk, hl, hr⟩ := hat.kind
    rw [List.cons_append, huffGo, if_neg ho, Nat.mul_comm i 3, if_neg hk]
    dsimp only
    rw [if_pos rfl, if_neg (by have := hr.bound; omega), Nat.mul_comm _ 3]
    cases hr with
    | leaf h1 h2 h3 => rw [if_pos h2, h3]; cases hw; rfl
    | node h1 h2 h3 h4 => rw [if_neg h2]; exact ih rfl (.node h1 h2 h3 h4) bits out ho

private theorem huff_codes {table : Bytes} {root : Nat} {l r : Code} (hat : Code.At table root (.node l r)) {text : Bytes} {bits : List Bool}
    (hc : (Code.node l r).Codes text bits) : ∀ (fill : List Bool) (out : Bytes),
      huffGo table root (out.length + text.length) (bits ++ fill) root out = .ok (out ++ text) := by
  induction hc with
  | nil =>
    intro fill out
    cases fill with
    | nil => simp [huffGo]
    | cons b bs => rw [List.nil_append, huffGo, if_pos (by simp)]; simp
  | @cons c w text bits hw _ ih =>
    intro fill out
    rw [List.append_assoc, huff_way hw rfl hat _ _ (by simp)]
    have := ih fill (out ++ [c])
    rw [List.length_append] at this
    rw [show out.length + (c :: text).length = out.length + [c].length + text.length by simp; omega, this, List.append_assoc]
    rfl

/-- Whatever prefix code with two sides is used, whatever table holds it, and whatever fills the last byte: the origin comes out as it was coded. -/
theorem C116_origin {table : Bytes} {l r : Code} (ht : Code.Table table l r) {origin coded : Bytes} {bits fill : List Bool}
    (hc : (Code.node l r).Codes origin bits) (hb : bitString coded = bits ++ fill) : decodeHuffman table coded origin.length = .ok origin := by
  obtain ⟨n, hn, hat⟩ := ht
  unfold decodeHuffman
  rw [if_neg (by
      rintro (h | h)
      · omega
      · rw [h] at hn; simp at hn), bits_eq, hb, show table.length / 3 - 1 = n by omega]
  have := huff_codes hat hc fill []
  simpa using this

/-! ### Client data as browsers write them -/

/-- The text of the challenge: base64url of the hash. -/
def challengeText (hash : Bytes) : Bytes := (baseEncode 6 base64urlAlphabet hash).map charByte

/-- The beginning of every client data for a get assertion; the standard fixes the order of the first members and leaves the end open. -/
def clientData (hash rest : Bytes) : Bytes :=
  ascii "{\"type\":\"webauthn.get\",\"challenge\":\"" ++ challengeText hash ++ ascii "\"" ++ rest

theorem clientData_eq (hash rest : Bytes) : clientData hash rest = 123 :: (memberText (nameType, .str webauthnGet) ++
    (44 :: (memberText (nameChallenge, .str (b64Encode hash)) ++ rest))) := by
  unfold clientData challengeText
  rw [← C32_base64url_standard]
  have e : ascii "{\"type\":\"webauthn.get\",\"challenge\":\"" = 123 :: (memberText (nameType, .str webauthnGet) ++ (44 :: ([34] ++ nameChallenge ++ [34, 58, 34]))) := by decide
  have e' : ascii "\"" = [34] := by decide
  rw [e, e']
  simp [memberText, JVal.text]

private theorem extract_client (hash rest : Bytes) : extractField (clientData hash rest) nameType = .ok webauthnGet ∧
    extractField (clientData hash rest) nameChallenge = .ok (b64Encode hash) := by
  have p1 : PlainText nameType := by unfold PlainText; decide
  have p2 : PlainText nameChallenge := by unfold PlainText; decide
  have p3 : (JVal.str webauthnGet).Plain := by change PlainText webauthnGet; unfold PlainText; decide
  have p4 : (JVal.str (b64Encode hash)).Plain := b64_plain hash
  have go : ∀ name, extractField (clientData hash rest) name = extractGo name (memberText (nameType, .str webauthnGet) ++
    (44 :: (memberText (nameChallenge, .str (b64Encode hash)) ++ rest))).length 1 (memberText (nameType, .str webauthnGet) ++
    (44 :: (memberText (nameChallenge, .str (b64Encode hash)) ++ rest))) := by
    intro name
    unfold extractField
    rw [clientData_eq, skipWs_of_not 123 _ (by decide)]
    simp only [if_true]
    rw [List.length_cons, extractGo, if_pos rfl]
  constructor
  · rw [go]
    obtain ⟨f, _, h⟩ := extractGo_member nameType nameType (.str webauthnGet) (44 :: (memberText (nameChallenge, .str (b64Encode hash)) ++ rest)) p1 p3 _ (Nat.le_refl _)
    rw [h, if_pos rfl]
    rfl
  · rw [go]
    obtain ⟨f, hf, h⟩ := extractGo_member nameChallenge nameType (.str webauthnGet) (44 :: (memberText (nameChallenge, .str (b64Encode hash)) ++ rest)) p1 p3 _ (Nat.le_refl _)
    rw [h, if_neg (by decide)]
    obtain ⟨f', rfl⟩ : ∃ f', f = f' + 1 := ⟨f - 1, by simp at hf; omega⟩
    rw [extractGo, if_neg (by decide), if_neg (by decide), if_neg (by decide)]
    obtain ⟨f'', _, h'⟩ := extractGo_member nameChallenge nameChallenge (.str (b64Encode hash)) rest p2 p4 f' (by simp at hf ⊢; omega)
    rw [h', if_pos rfl]
    rfl

/-- Client data as they are: whatever the browser writes after the challenge (origin, further members, nested objects, arrays, escapes), an assertion
of up to 195 bytes of authenticator data and 1024 bytes of client data is what the program expects to be signed. -/
theorem C116_raw (env : Env) (hash authData rest : Bytes) (ha : authData.length < 196) (hj : (clientData hash rest).length ≤ 1024) :
    r1Message env hash (rawPart authData (clientData hash rest)) = .ok (authData ++ env.sha256 (clientData hash rest)) := by
  obtain ⟨ht, hc⟩ := extract_client hash rest
  have hpos : (clientData hash rest).length ≠ 0 := by rw [clientData_eq]; simp
  generalize hje : clientData hash rest = json at *
  generalize hp : rawPart authData json = p
  have hlen : p.length = 6 + authData.length + json.length := by
    rw [← hp]; simp [rawPart]; omega
  have f0 : rd p 0 2 = 2 := by rw [← hp]; simp [rawPart, rd, sl, leNat]
  have f2 : rd p 2 2 = authData.length := by
    have := rd_full 2 authData.length (by omega) [2, 0] (authData ++ (natLE 2 json.length ++ json)) (i := 2) (by simp)
    rw [← hp]; simpa only [rawPart, List.append_assoc] using this
  have fa : sl p 4 (4 + authData.length) = authData := by
    have := sl_mid ([2, 0] ++ natLE 2 authData.length) authData (natLE 2 json.length ++ json) (i := 4) (j := 4 + authData.length) (by simp) (by simp)
    rw [← hp]; simpa only [rawPart, List.append_assoc] using this
  have fl : rd p (4 + authData.length) 2 = json.length := by
    have := rd_full 2 json.length (by omega) ([2, 0] ++ natLE 2 authData.length ++ authData) json (i := 4 + authData.length) (by simp; omega)
    rw [← hp]; simpa only [rawPart, List.append_assoc] using this
  have fj : sl p (4 + authData.length + 2) (4 + authData.length + 2 + json.length) = json := by
    have := sl_mid ([2, 0] ++ natLE 2 authData.length ++ authData ++ natLE 2 json.length) json [] (i := 4 + authData.length + 2)
      (j := 4 + authData.length + 2 + json.length) (by simp; omega) (by simp; omega)
    rw [← hp]; simpa only [rawPart, List.append_assoc, List.append_nil] using this
  unfold r1Message
  rw [if_neg (by intro h; rw [h] at hlen; simp at hlen; omega), if_neg (by omega), f0, if_neg (by decide), if_pos rfl]
  unfold webauthnRawMessage
  rw [if_neg (by omega)]
  dsimp only
  rw [f2, if_neg (by omega), if_neg (by omega), fl, if_neg (by omega), if_neg (by omega), fj, hc, ok_bind, if_neg (by simp), ht, ok_bind,
    if_neg (by simp), fa]

/-- The compressed form: the members in any order that has the type and the challenge once, the origin any text, coded with any prefix code. -/
theorem C116_packed (env : Env) (hash authData order table coded rest : Bytes) (text : List Char) {l r : Code} {bits fill : List Bool}
    (ha : authData.length < 196) (ho : order.length = 4) (hk : ∀ k ∈ order, k.toNat ≤ 4) (h1 : order.count 1 = 1) (h2 : order.count 2 = 1)
    (ht : Code.Table table l r) (hc : (Code.node l r).Codes (text.flatMap String.utf8EncodeChar) bits) (hb : bitString coded = bits ++ fill)
    (s1 : (text.flatMap String.utf8EncodeChar).length < 2 ^ 16) (s2 : table.length < 2 ^ 16) (s3 : coded.length < 2 ^ 16) :
    r1Message env hash (packedPart authData order (text.flatMap String.utf8EncodeChar).length table coded rest) =
      .ok (authData ++ env.sha256 (objectText (order.flatMap (memberOf (challengeText hash) (text.flatMap String.utf8EncodeChar))))) := by
  have hu := (C32_origin order (text.flatMap String.utf8EncodeChar) hash hk).mpr ⟨text, rfl⟩
  generalize text.flatMap String.utf8EncodeChar = origin at *
  have hd := C116_origin ht hc hb
  obtain ⟨json, hjson⟩ := hu
  have hj := C63_rebuilt _ _ _ _ hjson
  generalize hp : packedPart authData order origin.length table coded rest = p
  have hlen : p.length = 14 + authData.length + table.length + coded.length + rest.length := by
    rw [← hp]; simp [packedPart, ho]; omega
  have f0 : rd p 0 2 = 1 := by rw [← hp]; simp [packedPart, rd, sl, leNat]
  have f2 : rd p 2 2 = authData.length := by
    have := rd_full 2 authData.length (by omega) [1, 0] (authData ++ (order ++ (natLE 2 origin.length ++ (natLE 2 table.length ++ (natLE 2 coded.length ++
      (table ++ (coded ++ rest))))))) (i := 2) (by simp)
    rw [← hp]; simpa only [packedPart, List.append_assoc] using this
  have fa : sl p 4 (4 + authData.length) = authData := by
    have := sl_mid ([1, 0] ++ natLE 2 authData.length) authData (order ++ (natLE 2 origin.length ++ (natLE 2 table.length ++ (natLE 2 coded.length ++
      (table ++ (coded ++ rest)))))) (i := 4) (j := 4 + authData.length) (by simp) (by simp)
    rw [← hp]; simpa only [packedPart, List.append_assoc] using this
  have fo : sl p (4 + authData.length) (4 + authData.length + 4) = order := by
    have := sl_mid ([1, 0] ++ natLE 2 authData.length ++ authData) order (natLE 2 origin.length ++ (natLE 2 table.length ++ (natLE 2 coded.length ++
      (table ++ (coded ++ rest))))) (i := 4 + authData.length) (j := 4 + authData.length + 4) (by simp; omega) (by simp [ho]; omega)
    rw [← hp]; simpa only [packedPart, List.append_assoc] using this
  have g1 : rd p (4 + authData.length + 4) 2 = origin.length := by
    have := rd_full 2 origin.length (by simpa using s1) ([1, 0] ++ natLE 2 authData.length ++ authData ++ order) (natLE 2 table.length ++ (natLE 2 coded.length ++
      (table ++ (coded ++ rest)))) (i := 4 + authData.length + 4) (by simp [ho]; omega)
    rw [← hp]; simpa only [packedPart, List.append_assoc] using this
  have g2 : rd p (4 + authData.length + 4 + 2) 2 = table.length := by
    have := rd_full 2 table.length (by simpa using s2) ([1, 0] ++ natLE 2 authData.length ++ authData ++ order ++ natLE 2 origin.length) (natLE 2 coded.length ++
      (table ++ (coded ++ rest))) (i := 4 + authData.length + 4 + 2) (by simp [ho]; omega)
    rw [← hp]; simpa only [packedPart, List.append_assoc] using this
  have g3 : rd p (4 + authData.length + 4 + 4) 2 = coded.length := by
    have := rd_full 2 coded.length (by simpa using s3) ([1, 0] ++ natLE 2 authData.length ++ authData ++ order ++ natLE 2 origin.length ++ natLE 2 table.length)
      (table ++ (coded ++ rest)) (i := 4 + authData.length + 4 + 4) (by simp [ho]; omega)
    rw [← hp]; simpa only [packedPart, List.append_assoc] using this
  have g4 : sl p (4 + authData.length + 4 + 6) (4 + authData.length + 4 + 6 + table.length) = table := by
    have := sl_mid ([1, 0] ++ natLE 2 authData.length ++ authData ++ order ++ natLE 2 origin.length ++ natLE 2 table.length ++ natLE 2 coded.length) table
      (coded ++ rest) (i := 4 + authData.length + 4 + 6) (j := 4 + authData.length + 4 + 6 + table.length) (by simp [ho]; omega) (by simp [ho]; omega)
    rw [← hp]; simpa only [packedPart, List.append_assoc] using this
  have g5 : sl p (4 + authData.length + 4 + 6 + table.length) (4 + authData.length + 4 + 6 + table.length + coded.length) = coded := by
    have := sl_mid ([1, 0] ++ natLE 2 authData.length ++ authData ++ order ++ natLE 2 origin.length ++ natLE 2 table.length ++ natLE 2 coded.length ++ table) coded
      rest (i := 4 + authData.length + 4 + 6 + table.length) (j := 4 + authData.length + 4 + 6 + table.length + coded.length) (by simp [ho]; omega) (by simp [ho]; omega)
    rw [← hp]; simpa only [packedPart, List.append_assoc] using this
  have hv : validFieldOrder order = .ok () := by
    unfold validFieldOrder
    rw [if_pos (by simpa using hk), if_pos ⟨h2, h1⟩]
  unfold r1Message
  rw [if_neg (by intro h; rw [h] at hlen; simp at hlen; omega), if_neg (by omega), f0, if_pos rfl]
  unfold webauthnMessage
  rw [if_neg (by omega)]
  dsimp only
  rw [f2, if_neg (by omega), if_neg (by omega), fo, hv, ok_bind, if_neg (by omega), g1, g2, g3, if_neg (by omega), g4, g5, hd, ok_bind, hjson, ok_bind, fa, hj]
  unfold challengeText
  rw [C32_base64url_standard]

/-- In the order browsers use, the compressed form stands for the client data of a request made on a page of the origin itself. -/
theorem C116_packed_browser (env : Env) (hash authData table coded rest : Bytes) (text : List Char) {l r : Code} {bits fill : List Bool}
    (ha : authData.length < 196) (ht : Code.Table table l r) (hc : (Code.node l r).Codes (text.flatMap String.utf8EncodeChar) bits)
    (hb : bitString coded = bits ++ fill) (s1 : (text.flatMap String.utf8EncodeChar).length < 2 ^ 16) (s2 : table.length < 2 ^ 16)
    (s3 : coded.length < 2 ^ 16) :
    r1Message env hash (packedPart authData [1, 2, 3, 4] (text.flatMap String.utf8EncodeChar).length table coded rest) =
      .ok (authData ++ env.sha256 (clientData hash
        (ascii ",\"origin\":\"" ++ text.flatMap String.utf8EncodeChar ++ ascii "\",\"crossOrigin\":false}"))) := by
  rw [C116_packed env hash authData [1, 2, 3, 4] table coded rest text ha rfl (by decide) (by decide) (by decide) ht hc hb s1 s2 s3]
  congr 3
  have e1 : ascii ",\"origin\":\"" = 44 :: ([34] ++ ascii "origin" ++ [34, 58, 34]) := by decide
  have e2 : ascii "\",\"crossOrigin\":false}" = [34, 44] ++ memberText (ascii "crossOrigin", .lit (ascii "false")) ++ [125] := by decide
  have t1 : ascii "type" = nameType := by decide
  have t2 : ascii "webauthn.get" = webauthnGet := by decide
  have t3 : ascii "challenge" = nameChallenge := by decide
  rw [clientData_eq, e1, e2]
  unfold challengeText
  rw [← C32_base64url_standard]
  simp [objectText, memberOf, membersText, memberText, JVal.text, t1, t2, t3]

/-- The bounds are sharp: with 196 or more bytes of authenticator data (long extensions) there is no form in which an assertion is accepted. -/
theorem C116_too_long (env : Env) (hsha : ∀ b, (env.sha256 b).length = 32) (hash extra authData json : Bytes) (hx : extra ≠ []) (ha : 196 ≤ authData.length) :
    r1Message env hash extra ≠ .ok (authData ++ env.sha256 json) := by
  intro h
  have key : ∀ a j : Bytes, a ++ env.sha256 j = authData ++ env.sha256 json → a.length < 196 → False := by
    intro a j e hl
    have := congrArg List.length e
    simp only [List.length_append, hsha] at this
    omega
  have hs : ∀ i j : Nat, (sl extra i j).length ≤ j - i := by intro i j; unfold sl; rw [List.length_take]; exact Nat.min_le_left _ _
  unfold r1Message at h
  rw [if_neg hx] at h
  split at h
  · cases h
  · split at h
    · unfold webauthnMessage at h
      split at h
      · cases h
      · dsimp only at h
        split at h
        · cases h
        · split at h
          · cases h
          · obtain ⟨_, _, h⟩ := bind_ok_iff.mp h
            split at h
            · cases h
            · split at h
              · cases h
              · obtain ⟨_, _, h⟩ := bind_ok_iff.mp h
                obtain ⟨_, _, h⟩ := bind_ok_iff.mp h
                exact key _ _ (Except.ok.inj h) (by have := hs 4 (4 + rd extra 2 2); omega)
    · split at h
      · unfold webauthnRawMessage at h
        split at h
        · cases h
        · dsimp only at h
          split at h
          · cases h
          · split at h
            · cases h
            · split at h
              · cases h
              · split at h
                · cases h
                · obtain ⟨_, _, h⟩ := bind_ok_iff.mp h
                  split at h
                  · cases h
                  · obtain ⟨_, _, h⟩ := bind_ok_iff.mp h
                    split at h
                    · cases h
                    · exact key _ _ (Except.ok.inj h) (by have := hs 4 (4 + rd extra 2 2); omega)
      · cases h

/-! ### The whole credential -/

/-- What a Secp256r1 role signs: the digest of the request, its accounts, the slot and the next counter. -/
def requestHash (env : Env) (data : Bytes) (metas : List Meta) (slot counter : Nat) : Bytes :=
  env.keccak (data ++ accountRecords metas ++ natLE 8 slot ++ natLE 4 counter)

/-- The credential of a Secp256r1 request: slot, counter, position of the instructions sysvar, four free bytes, passkey part. -/
def r1Credential (slot counter : Nat) (at' : UInt8) (free part : Bytes) : Bytes := natLE 8 slot ++ natLE 4 counter ++ [at'] ++ free ++ part

private theorem accepted_of (env : Env) (a : Auth) {pk pad : Bytes} {n : Nat} {metas : List Meta} {ixs : List TxIx} {i : Nat} {ix : TxIx} {sys : Meta}
    {slot : Nat} {at' : UInt8} {free part data msg : Bytes} (hw : a.WF) (hc : a.cred = .secp256r1 pk pad n) (hx : TxOk ixs (i + 1))
    (h64 : slot < 2 ^ 64) (hs : slot ≤ env.slot ∧ env.slot ≤ slot + 60) (hm : metas.length ≤ 64)
    (hsys : metas[at'.toNat]? = some sys) (hid : sys.key = instructionsSysvarId) (hfree : free.length = 4)
    (hix : ixs[i]? = some ix) (hp : ix.program = secp256r1Id)
    (hmsg : r1Message env (requestHash env data metas slot ((n + 1) % 2 ^ 32)) part = .ok msg) (hd : PrecompileData ix.data pk msg) :
    authenticate env a.ty a.encode metas (sysvarEncode ixs (i + 1)) (r1Credential slot ((n + 1) % 2 ^ 32) at' free part) data =
      .ok ({ a with cred := .secp256r1 pk pad ((n + 1) % 2 ^ 32) } : Auth).encode := by
  have hcnt : (n + 1) % 2 ^ 32 < 256 ^ 4 := by omega
  generalize hce : (n + 1) % 2 ^ 32 = c at *
  have f1 : rd (r1Credential slot c at' free part) 0 8 = slot := by
    have := rd_full 8 slot (by simpa using h64) [] (natLE 4 c ++ ([at'] ++ (free ++ part))) (i := 0) rfl
    simpa only [r1Credential, List.append_assoc, List.nil_append] using this
  have f2 : rd (r1Credential slot c at' free part) 8 4 = c := by
    have := rd_full 4 c hcnt (natLE 8 slot) ([at'] ++ (free ++ part)) (i := 8) (by simp)
    simpa only [r1Credential, List.append_assoc] using this
  have f3 : (r1Credential slot c at' free part).getD 12 0 = at' := by
    unfold r1Credential
    simp [List.getElem?_append]
  have f4 : (r1Credential slot c at' free part).drop 17 = part := by
    unfold r1Credential
    rw [List.drop_append, List.drop_eq_nil_of_le (by simp [hfree])]
    simp [hfree]
  have hiff := C112_secp256r1 env a pk pad n metas ixs (i + 1) (r1Credential slot c at' free part) data
    ({ a with cred := .secp256r1 pk pad c } : Auth).encode hw hc hx
  rw [hce, f1, f2, f3, f4] at hiff
  refine hiff.mpr ⟨rfl, ?_, rfl, hs, hm, ⟨sys, hsys, hid⟩, msg, ix, i, hmsg, rfl, hix, hp, hd⟩
  simp [r1Credential, hfree]
  omega

/-- A passkey signature over client data as the browser wrote them is accepted, and moves the counter on: the transaction has, just before the request,
the verification of the signature over authenticator data and digest of client data, and the client data are for the hash of the request. -/
theorem C116_raw_accepted (env : Env) (a : Auth) {pk pad : Bytes} {n : Nat} {metas : List Meta} {ixs : List TxIx} {i : Nat} {ix : TxIx} {sys : Meta}
    {slot : Nat} {at' : UInt8} {free data authData rest json : Bytes} (hw : a.WF) (hc : a.cred = .secp256r1 pk pad n) (hx : TxOk ixs (i + 1))
    (h64 : slot < 2 ^ 64) (hs : slot ≤ env.slot ∧ env.slot ≤ slot + 60) (hm : metas.length ≤ 64)
    (hsys : metas[at'.toNat]? = some sys) (hid : sys.key = instructionsSysvarId) (hfree : free.length = 4)
    (ha : authData.length < 196) (hj : json = clientData (requestHash env data metas slot ((n + 1) % 2 ^ 32)) rest) (hl : json.length ≤ 1024)
    (hix : ixs[i]? = some ix) (hp : ix.program = secp256r1Id) (hd : PrecompileData ix.data pk (authData ++ env.sha256 json)) :
    authenticate env a.ty a.encode metas (sysvarEncode ixs (i + 1)) (r1Credential slot ((n + 1) % 2 ^ 32) at' free (rawPart authData json)) data =
      .ok ({ a with cred := .secp256r1 pk pad ((n + 1) % 2 ^ 32) } : Auth).encode := by
  subst hj
  exact accepted_of env a hw hc hx h64 hs hm hsys hid hfree hix hp (C116_raw env _ authData rest ha hl) hd

/-- The same for the compressed form. -/
theorem C116_packed_accepted (env : Env) (a : Auth) {pk pad : Bytes} {n : Nat} {metas : List Meta} {ixs : List TxIx} {i : Nat} {ix : TxIx} {sys : Meta}
    {slot : Nat} {at' : UInt8} {free data authData json table coded rest : Bytes} (text : List Char) {l r : Code} {bits fill : List Bool}
    (hw : a.WF) (hc : a.cred = .secp256r1 pk pad n) (hx : TxOk ixs (i + 1))
    (h64 : slot < 2 ^ 64) (hs : slot ≤ env.slot ∧ env.slot ≤ slot + 60) (hm : metas.length ≤ 64)
    (hsys : metas[at'.toNat]? = some sys) (hid : sys.key = instructionsSysvarId) (hfree : free.length = 4)
    (ha : authData.length < 196) (ht : Code.Table table l r) (hcode : (Code.node l r).Codes (text.flatMap String.utf8EncodeChar) bits)
    (hb : bitString coded = bits ++ fill) (s1 : (text.flatMap String.utf8EncodeChar).length < 2 ^ 16) (s2 : table.length < 2 ^ 16)
    (s3 : coded.length < 2 ^ 16)
    (hj : json = clientData (requestHash env data metas slot ((n + 1) % 2 ^ 32))
      (ascii ",\"origin\":\"" ++ text.flatMap String.utf8EncodeChar ++ ascii "\",\"crossOrigin\":false}"))
    (hix : ixs[i]? = some ix) (hp : ix.program = secp256r1Id) (hd : PrecompileData ix.data pk (authData ++ env.sha256 json)) :
    authenticate env a.ty a.encode metas (sysvarEncode ixs (i + 1)) (r1Credential slot ((n + 1) % 2 ^ 32) at' free
        (packedPart authData [1, 2, 3, 4] (text.flatMap String.utf8EncodeChar).length table coded rest)) data =
      .ok ({ a with cred := .secp256r1 pk pad ((n + 1) % 2 ^ 32) } : Auth).encode := by
  subst hj
  exact accepted_of env a hw hc hx h64 hs hm hsys hid hfree hix hp (C116_packed_browser env _ authData table coded rest text ha ht hcode hb s1 s2 s3) hd

/-! ### Concrete cases -/

namespace Sample

/-- The code `a = 0`, `b = 10`, `.` = `11`. -/
private def abCode : Code := .node (.leaf 97) (.node (.leaf 98) (.leaf 46))
private def abTable : Bytes := [0, 97, 0, 0, 98, 0, 0, 46, 0, 1, 1, 2, 1, 0, 3]

private theorem ab_table : Code.Table abTable (.leaf 97) (.node (.leaf 98) (.leaf 46)) :=
  ⟨4, by decide, .node (by decide) (by decide) (.leaf (by decide) (by decide) (by decide))
    (.node (by decide) (by decide) (.leaf (by decide) (by decide) (by decide)) (.leaf (by decide) (by decide) (by decide)))⟩

/-- `a.ba` is `0 11 10 0`, one byte with two bits to spare. -/
private theorem ab_codes : abCode.Codes [97, 46, 98, 97] [false, true, true, true, false, false] :=
  .cons (.zero (.here 97)) (.cons (w := [true, true]) (.one (.one (.here 46))) (.cons (w := [true, false]) (.one (.zero (.here 98)))
    (.cons (w := [false]) (.zero (.here 97)) .nil)))

example : bitString [0x72] = [false, true, true, true, false, false] ++ [true, false] := by decide
example : decodeHuffman abTable [0x72] 4 = .ok [97, 46, 98, 97] := C116_origin ab_table ab_codes (fill := [true, false]) (by decide)
example : "a.ba".toList.flatMap String.utf8EncodeChar = [97, 46, 98, 97] := by decide

private def pkMetas : List Meta := [⟨K 1, false, true⟩, ⟨instructionsSysvarId, false, false⟩]
private def pkEnv : Env := { Sample.env with slot := 130, keccak := fun b => b.take 32, sha256 := fun b => b.take 32 }
private def pkAuth : Auth := ⟨.secp256r1 (2 :: zeros 32) [0, 0, 0] 4, none⟩
private def pkRest : Bytes := ascii ",\"origin\":\"a.ba\",\"crossOrigin\":true,\"x\":[\"\\\"}\"]}"
private def pkJson : Bytes := clientData (requestHash pkEnv [7] pkMetas 100 5) pkRest
private def pkMsg : Bytes := zeros 37 ++ pkEnv.sha256 pkJson
private def pkData : Bytes :=
  [1, 0] ++ natLE 2 49 ++ natLE 2 0xFFFF ++ natLE 2 16 ++ natLE 2 0xFFFF ++ natLE 2 113 ++ natLE 2 pkMsg.length ++ natLE 2 0xFFFF ++
    (2 :: zeros 32) ++ zeros 64 ++ pkMsg ++ []
private def pkTx : List TxIx := [⟨secp256r1Id, [], pkData⟩, ⟨swigId, pkMetas, [7]⟩]

/-- Client data with `crossOrigin` set and a further member with an escaped quote. -/
example : authenticate pkEnv pkAuth.ty pkAuth.encode pkMetas (sysvarEncode pkTx 1) (r1Credential 100 5 1 (zeros 4) (rawPart (zeros 37) pkJson)) [7] =
    .ok (⟨.secp256r1 (2 :: zeros 32) [0, 0, 0] 5, none⟩ : Auth).encode :=
  C116_raw_accepted pkEnv pkAuth (n := 4) (i := 0) (ix := ⟨secp256r1Id, [], pkData⟩) (sys := ⟨instructionsSysvarId, false, false⟩) (rest := pkRest)
    ⟨⟨by decide, by decide, by decide⟩, by intro s h; cases h⟩ rfl ⟨by decide, by decide +kernel, by decide +kernel⟩ (by decide) (by decide) (by decide)
    rfl rfl rfl (by decide) rfl (by decide +kernel) rfl rfl ⟨0, 49, zeros 64, [], by decide, by decide +kernel, by decide +kernel, rfl⟩

end Sample

end Verif
