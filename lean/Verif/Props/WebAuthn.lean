import Verif.Model.Auth
import Verif.Spec.Json
import Verif.Props.Text
import Verif.Proofs.Sysvar

/-!
# C63: passkey signatures bind the challenge

A Secp256r1 role accepts, instead of the bare hash, a passkey ("WebAuthn") message: authenticator data followed by the SHA-256 digest
of a client-data JSON object.  Claim: that object is a `webauthn.get` object whose `challenge` member is the base64url text of the hash of
the request, so a passkey signature given for one request cannot be used for another.
-/

namespace Verif

private theorem scanString_plain (s rest : Bytes) (h : PlainText s) : scanString (s ++ 34 :: rest) = some (s, rest) := by
  induction s with
  | nil => simp [scanString]
  | cons b bs ih =>
    have hb := h b (by simp)
    simp only [List.cons_append, scanString, hb.1, hb.2, if_false]
    rw [ih (fun x hx => h x (by simp [hx]))]

theorem skipWs_of_not (b : UInt8) (r : Bytes) (h : isWs b = false) : skipWs (b :: r) = b :: r := by simp [skipWs, h]

/-- Literal characters are skipped one by one. -/
private theorem extractGo_lit (name : Bytes) (s rest : Bytes) (h : ∀ b ∈ s, b ≠ 34 ∧ b ≠ 123 ∧ b ≠ 125 ∧ b ≠ 32 ∧ b ≠ 9 ∧ b ≠ 10 ∧ b ≠ 12 ∧ b ≠ 13)
    (fuel : Nat) : extractGo name (fuel + s.length) 1 (s ++ rest) = extractGo name fuel 1 rest := by
  induction s with
  | nil => rfl
  | cons b bs ih =>
    have hb := h b (by simp)
    have e : fuel + (b :: bs).length = (fuel + bs.length) + 1 := by simp; omega
    rw [e, List.cons_append, extractGo]
    simp only [hb.1, hb.2.1, hb.2.2.1, if_false, and_false]
    exact ih (fun x hx => h x (by simp [hx]))

def answer (o : Option Bytes) : R Bytes := match o with | some s => .ok s | none => .error eMsg

/-- One member. -/
theorem extractGo_member (name : Bytes) (k : Bytes) (v : JVal) (rest : Bytes) (hk : PlainText k) (hv : v.Plain) (fuel : Nat)
    (hf : (memberText (k, v) ++ rest).length ≤ fuel) :
    ∃ fuel', rest.length ≤ fuel' ∧ extractGo name fuel 1 (memberText (k, v) ++ rest) =
      if k = name then answer v.string? else extractGo name fuel' 1 rest := by
  obtain ⟨f, rfl⟩ : ∃ f, fuel = f + 1 := ⟨fuel - 1, by simp [memberText] at hf; omega⟩
  have e : memberText (k, v) ++ rest = 34 :: (k ++ 34 :: (58 :: (v.text ++ rest))) := by simp [memberText]
  rw [e] at hf ⊢
  simp only [extractGo]
  rw [if_neg (by decide), if_neg (by decide), if_pos ⟨trivial, trivial⟩, scanString_plain _ _ hk]
  simp only
  rw [skipWs_of_not 58 _ (by decide)]
  simp only
  rw [if_neg (by decide)]
  cases v with
  | str s =>
    have e2 : JVal.text (.str s) ++ rest = 34 :: (s ++ 34 :: rest) := by simp [JVal.text]
    rw [e2] at hf ⊢
    rw [skipWs_of_not 34 _ (by decide)]
    simp only
    rw [scanString_plain _ _ hv]
    refine ⟨f, ?_, ?_⟩
    · simp at hf ⊢; omega
    · by_cases hn : k = name
      · simp [hn, answer, JVal.string?]
      · simp [hn]
  | lit s =>
    obtain ⟨hne, hs⟩ := hv
    cases s with
    | nil => exact absurd rfl hne
    | cons c cs =>
      have hc := hs c (by simp)
      have e2 : JVal.text (.lit (c :: cs)) ++ rest = c :: (cs ++ rest) := by simp [JVal.text]
      rw [e2] at hf ⊢
      rw [skipWs_of_not c _ (by simp [isWs, hc])]
      simp only
      refine ⟨f - (cs.length + 1), ?_, ?_⟩
      · simp at hf ⊢; omega
      · by_cases hn : k = name
        · simp [hn, answer, hc.1, JVal.string?]
        · simp only [hn, if_false, hc.1]
          have e3 : f = (f - (cs.length + 1)) + (c :: cs).length := by simp at hf ⊢; omega
          rw [← List.cons_append]
          conv => lhs; rw [e3]
          exact extractGo_lit name (c :: cs) rest hs _

private theorem extractGo_members (name : Bytes) : ∀ (ms : List (Bytes × JVal)), Plain ms → ∀ fuel, (membersText ms ++ [125]).length ≤ fuel →
    extractGo name fuel 1 (membersText ms ++ [125]) = answer (lookupString name ms)
  | [], _, fuel, hf => by
    obtain ⟨f, rfl⟩ : ∃ f, fuel = f + 1 := ⟨fuel - 1, by simp at hf; omega⟩
    simp only [membersText, List.nil_append, extractGo]
    cases f <;> simp [extractGo, lookupString, answer]
  | [(k, v)], hp, fuel, hf => by
    obtain ⟨hk, hv⟩ := hp (k, v) (by simp)
    obtain ⟨f, h1, h2⟩ := extractGo_member name k v [125] hk hv fuel hf
    simp only [membersText]
    rw [h2]
    by_cases hn : k = name
    · simp [hn, lookupString]
    · simp only [hn, if_false, lookupString]
      obtain ⟨f', rfl⟩ : ∃ f', f = f' + 1 := ⟨f - 1, by simp at h1; omega⟩
      cases f' <;> simp [extractGo, answer]
  | (k, v) :: m :: ms, hp, fuel, hf => by
    obtain ⟨hk, hv⟩ := hp (k, v) (by simp)
    have ih := extractGo_members name (m :: ms) (fun x hx => hp x (by simp [hx]))
    have e : membersText ((k, v) :: m :: ms) ++ [125] = memberText (k, v) ++ (44 :: (membersText (m :: ms) ++ [125])) := by
      simp [membersText]
    rw [e] at hf ⊢
    obtain ⟨f, h1, h2⟩ := extractGo_member name k v _ hk hv fuel hf
    rw [h2]
    by_cases hn : k = name
    · simp [hn, lookupString]
    · simp only [hn, if_false, lookupString]
      obtain ⟨f', rfl⟩ : ∃ f', f = f' + 1 := ⟨f - 1, by simp at h1; omega⟩
      simp only [extractGo]
      rw [if_neg (by decide), if_neg (by decide), if_neg (by decide)]
      have := ih f' (by simp at h1 ⊢; omega)
      rw [this]
      simp only [lookupString]

/-- The parser used for raw client data reads exactly the named string member of a plain object. -/
theorem C63_parser (name : Bytes) (ms : List (Bytes × JVal)) (h : Plain ms) :
    extractField (objectText ms) name = match lookupString name ms with | some s => .ok s | none => .error eMsg := by
  have e : objectText ms = 123 :: (membersText ms ++ [125]) := by simp [objectText]
  unfold extractField
  rw [e, skipWs_of_not 123 _ (by decide)]
  simp only [if_true]
  rw [List.length_cons, extractGo, if_pos rfl]
  exact extractGo_members name ms h _ (Nat.le_refl _)

private theorem scanString_some : ∀ (b s rest : Bytes), scanString b = some (s, rest) → b = s ++ 34 :: rest ∧ PlainText s
  | [], _, _, h => by simp [scanString] at h
  | b :: r, s, rest, h => by
    unfold scanString at h
    split at h
    · rename_i hb
      cases h
      exact ⟨by rw [hb]; rfl, fun _ hx => nomatch hx⟩
    · rename_i hb
      split at h
      · cases h
      · rename_i hb2
        split at h
        · rename_i s' rest' hs
          cases h
          obtain ⟨h1, h2⟩ := scanString_some r s' _ hs
          refine ⟨by rw [h1]; rfl, fun x hx => ?_⟩
          rcases List.mem_cons.mp hx with rfl | hx
          · exact ⟨hb, hb2⟩
          · exact h2 x hx
        · cases h

private theorem skipWs_split : ∀ b : Bytes, ∃ ws, b = ws ++ skipWs b ∧ ∀ x ∈ ws, isWs x = true
  | [] => ⟨[], rfl, fun _ h => nomatch h⟩
  | b :: r => by
    unfold skipWs
    split
    · rename_i hb
      obtain ⟨ws, h1, h2⟩ := skipWs_split r
      refine ⟨b :: ws, by rw [List.cons_append, ← h1], fun x hx => ?_⟩
      rcases List.mem_cons.mp hx with rfl | hx
      · exact hb
      · exact h2 x hx
    · exact ⟨[], rfl, fun _ h => nomatch h⟩

/-- `"name" : "s"` with white space around the colon occurs in the text. -/
def HasMember (text name s : Bytes) : Prop := ∃ pre ws1 ws2 post, text = pre ++ [34] ++ name ++ [34] ++ ws1 ++ [58] ++ ws2 ++ [34] ++ s ++ [34] ++ post ∧
  (∀ x ∈ ws1 ++ ws2, isWs x = true)

private theorem HasMember.more {t name s : Bytes} (h : HasMember t name s) (p : Bytes) : HasMember (p ++ t) name s := by
  obtain ⟨pre, ws1, ws2, post, h1, h2⟩ := h
  exact ⟨p ++ pre, ws1, ws2, post, by rw [h1]; simp, h2⟩

private theorem extractGo_found (name : Bytes) : ∀ (fuel depth : Nat) (t s : Bytes), extractGo name fuel depth t = .ok s →
    HasMember t name s ∧ PlainText s ∧ PlainText name
  | 0, _, _, _, h => by cases h
  | _ + 1, _, [], _, h => by cases h
  | fuel + 1, depth, b :: r, s, h => by
    have one : ∀ d t', (extractGo name fuel d t' = .ok s) → (∃ p, b :: r = p ++ t') → HasMember (b :: r) name s ∧ PlainText s ∧ PlainText name := by
      rintro d t' e ⟨p, hp⟩
      obtain ⟨h1, h2⟩ := extractGo_found name fuel d t' s e
      rw [hp]
      exact ⟨h1.more p, h2⟩
    rw [extractGo] at h
    split at h
    · exact one _ _ h ⟨[b], rfl⟩
    · split at h
      · split at h
        · cases h
        · exact one _ _ h ⟨[b], rfl⟩
      · split at h
        · rename_i hb
          split at h
          · cases h
          · rename_i key r1 hkey
            obtain ⟨k1, k2⟩ := scanString_some _ _ _ hkey
            obtain ⟨ws1, w1, w2⟩ := skipWs_split r1
            split at h
            · cases h
            · rename_i c r2 hc
              split at h
              · cases h
              · rename_i hcol
                have hcol := Decidable.of_not_not hcol
                obtain ⟨ws2, w3, w4⟩ := skipWs_split r2
                split at h
                · cases h
                · rename_i v r3 hv
                  have etext : b :: r = [34] ++ key ++ [34] ++ ws1 ++ [58] ++ ws2 ++ (v :: r3) := by
                    rw [hb.2, k1, w1, hc, hcol, w3, hv]; simp
                  split at h
                  · rename_i hname
                    split at h
                    · cases h
                    · rename_i hq
                      have hq := Decidable.of_not_not hq
                      split at h
                      · rename_i val rest hval
                        cases h
                        obtain ⟨v1, v2⟩ := scanString_some _ _ _ hval
                        refine ⟨⟨[], ws1, ws2, rest, ?_, ?_⟩, v2, hname ▸ k2⟩
                        · rw [etext, hq, v1, hname]; simp
                        · intro x hx
                          rcases List.mem_append.mp hx with hx | hx
                          · exact w2 x hx
                          · exact w4 x hx
                      · cases h
                  · split at h
                    · split at h
                      · rename_i val r4 hr4
                        obtain ⟨v1, _⟩ := scanString_some _ _ _ hr4
                        refine one _ _ h ⟨[34] ++ key ++ [34] ++ ws1 ++ [58] ++ ws2 ++ (v :: val) ++ [34], ?_⟩
                        rw [etext, v1]; simp
                      · cases h
                    · exact one _ _ h ⟨_, etext⟩
        · exact one _ _ h ⟨[b], rfl⟩

/-- Whatever the text: what the parser returns occurs in it as `"name" : "value"`, and the value contains neither a quote nor a
backslash, so no escape sequence is ever misread. -/
theorem C63_found (text name s : Bytes) (h : extractField text name = .ok s) : HasMember text name s ∧ PlainText s := by
  unfold extractField at h
  obtain ⟨ws, h1, _⟩ := skipWs_split text
  split at h
  · cases h
  · rename_i b r hb
    split at h
    · obtain ⟨g1, g2, _⟩ := extractGo_found name _ _ _ _ h
      rw [hb] at h1
      rw [h1]
      exact ⟨g1.more ws, g2⟩
    · cases h

/-- `{"x":{"y":{"z":"}"},"challenge":"BAUG"},"challenge":"AQID","type":"webauthn.get"}` -/
def nestedDoc : Members :=
  .cons [120] (.obj (.cons [121] (.obj (.cons [122] (.str [125]) .nil)) (.cons nameChallenge (.str [66, 65, 85, 71]) .nil)))
    (.cons nameChallenge (.str [65, 81, 73, 68]) (.cons nameType (.str webauthnGet) .nil))

/-- Disagreement: the parser counts braces inside the strings of inner objects.  For this object, whose only challenge is `AQID`, it reads
`BAUG`, which is stored in an inner object.  (Browsers put no inner objects with braces in strings into client data.) -/
theorem C63_nested_refuted : ∃ doc : Members, doc.Plain ∧ doc.strings nameChallenge = [[65, 81, 73, 68]] ∧
    extractField (Json.text (.obj doc)) nameChallenge = .ok [66, 65, 85, 71] := by
  refine ⟨nestedDoc, ?_, by decide, ?_⟩
  · unfold nestedDoc
    simp only [Members.Plain, Json.Plain, PlainText]
    decide
  · have e : Json.text (.obj nestedDoc) = [123, 34, 120, 34, 58, 123, 34, 121, 34, 58, 123, 34, 122, 34, 58, 34, 125, 34, 125, 44] ++ jsonChallenge ++ [66, 65, 85, 71, 34, 125, 44] ++ jsonChallenge ++
      [65, 81, 73, 68, 34, 44] ++ jsonType ++ [125] := by decide
    rw [e]
    set_option maxRecDepth 8000 in decide

/-! ### the rebuilt object -/

/-- Members in the order a client asks for: 1 type, 2 challenge, 3 origin, 4 crossOrigin, 0 nothing. -/
def memberOf (challenge origin : Bytes) (k : UInt8) : List (Bytes × JVal) :=
  if k = 1 then [(ascii "type", .str (ascii "webauthn.get"))]
  else if k = 2 then [(ascii "challenge", .str challenge)]
  else if k = 3 then [(ascii "origin", .str origin)]
  else if k = 4 then [(ascii "crossOrigin", .lit (ascii "false"))]
  else []

private theorem jsonFields_eq (challenge origin : Bytes) (order : Bytes) (fs : List Bytes) (h : jsonFields challenge origin order = .ok fs) :
    fs = (order.flatMap (memberOf challenge origin)).map memberText := by
  induction order generalizing fs with
  | nil => cases h; rfl
  | cons k ks ih =>
    unfold jsonFields at h
    obtain ⟨f, hf, h⟩ := bind_ok_iff.mp h
    obtain ⟨gs, hg, h⟩ := bind_ok_iff.mp h
    cases h
    rw [ih gs hg, List.flatMap_cons, List.map_append]
    congr 1
    unfold jsonField at hf
    unfold memberOf
    have t1 : ascii "type" = [116, 121, 112, 101] := by decide
    have t2 : ascii "webauthn.get" = [119, 101, 98, 97, 117, 116, 104, 110, 46, 103, 101, 116] := by decide
    have t3 : ascii "challenge" = [99, 104, 97, 108, 108, 101, 110, 103, 101] := by decide
    have t4 : ascii "origin" = [111, 114, 105, 103, 105, 110] := by decide
    have t5 : ascii "crossOrigin" = [99, 114, 111, 115, 115, 79, 114, 105, 103, 105, 110] := by decide
    have t6 : ascii "false" = [102, 97, 108, 115, 101] := by decide
    by_cases h0 : k = 0
    · subst h0; simp at hf; simp [hf]
    · by_cases h1 : k = 1
      · subst h1; simp at hf; subst hf; simp [memberText, JVal.text, jsonType, t1, t2]
      · by_cases h2 : k = 2
        · subst h2; simp at hf; subst hf; simp [memberText, JVal.text, jsonChallenge, t3]
        · by_cases h3 : k = 3
          · subst h3; simp at hf; subst hf; simp [memberText, JVal.text, jsonOrigin, t4]
          · by_cases h4 : k = 4
            · subst h4; simp at hf; subst hf; simp [memberText, JVal.text, jsonCross, t5, t6]
            · simp [h0, h1, h2, h3, h4] at hf

private theorem joinComma_members (ms : List (Bytes × JVal)) : joinComma (ms.map memberText) = membersText ms := by
  match ms with
  | [] => rfl
  | [m] => rfl
  | m :: n :: ms =>
    have := joinComma_members (n :: ms)
    simp only [List.map_cons, joinComma, membersText] at *
    rw [this]

/-- The rebuilt object is the JSON text of the members asked for. -/
theorem C63_rebuilt (order origin hash json : Bytes) (h : reconstructJson order origin hash = .ok json) :
    json = objectText (order.flatMap (memberOf (b64Encode hash) origin)) := by
  unfold reconstructJson at h
  split at h
  · obtain ⟨fs, hf, h⟩ := bind_ok_iff.mp h
    cases h
    rw [jsonFields_eq _ _ _ _ hf, joinComma_members]
    rfl
  · cases h

private theorem b64Char_plain (i : Nat) (h : i < 64) : b64Char i ≠ 34 ∧ b64Char i ≠ 92 := by
  revert i
  set_option maxRecDepth 4000 in decide

theorem b64_plain : ∀ (b : Bytes), PlainText (b64Encode b)
  | b1 :: b2 :: b3 :: rest => by
    have ih := b64_plain rest
    have h1 : b1.toNat < 256 := by simpa using b1.toNat_lt
    have h2 : b2.toNat < 256 := by simpa using b2.toNat_lt
    have h3 : b3.toNat < 256 := by simpa using b3.toNat_lt
    intro x hx
    simp only [b64Encode, List.mem_cons] at hx
    rcases hx with rfl | rfl | rfl | rfl | hx
    · exact b64Char_plain _ (by omega)
    · exact b64Char_plain _ (by omega)
    · exact b64Char_plain _ (by omega)
    · exact b64Char_plain _ (by omega)
    · exact ih x hx
  | [b1, b2] => by
    have h1 : b1.toNat < 256 := by simpa using b1.toNat_lt
    have h2 : b2.toNat < 256 := by simpa using b2.toNat_lt
    intro x hx
    simp only [b64Encode, List.mem_cons, List.not_mem_nil, or_false] at hx
    rcases hx with rfl | rfl | rfl <;> exact b64Char_plain _ (by omega)
  | [b1] => by
    have h1 : b1.toNat < 256 := by simpa using b1.toNat_lt
    intro x hx
    simp only [b64Encode, List.mem_cons, List.not_mem_nil, or_false] at hx
    rcases hx with rfl | rfl <;> exact b64Char_plain _ (by omega)
  | [] => by intro x hx; simp [b64Encode] at hx

private theorem members_plain (hash origin : Bytes) (ho : PlainText origin) (order : Bytes) :
    Plain (order.flatMap (memberOf (b64Encode hash) origin)) := by
  intro m hm
  obtain ⟨k, _, hk⟩ := List.mem_flatMap.mp hm
  unfold memberOf at hk
  have d : ∀ s : Bytes, (s.all (fun b => b ≠ 34 ∧ b ≠ 92)) = true → PlainText s := by
    intro s hs b hb
    have := List.all_eq_true.mp hs b hb
    simpa using this
  split at hk
  · simp at hk; subst hk; exact ⟨d _ (by decide), d _ (by decide)⟩
  · split at hk
    · simp at hk; subst hk; exact ⟨d (ascii "challenge") (by decide), b64_plain hash⟩
    · split at hk
      · simp at hk; subst hk; exact ⟨d (ascii "origin") (by decide), ho⟩
      · split at hk
        · simp at hk; subst hk
          refine ⟨d _ (by decide), by decide, ?_⟩
          have : ∀ b ∈ ascii "false", b ≠ 34 ∧ b ≠ 123 ∧ b ≠ 125 ∧ b ≠ 32 ∧ b ≠ 9 ∧ b ≠ 10 ∧ b ≠ 12 ∧ b ≠ 13 := by decide
          exact this
        · simp at hk

private theorem lookup_challenge (c o : Bytes) (order : Bytes) (h : 2 ∈ order) :
    lookupString nameChallenge (order.flatMap (memberOf c o)) = some c := by
  induction order with
  | nil => simp at h
  | cons k ks ih =>
    rw [List.flatMap_cons]
    have n3 : ascii "challenge" = nameChallenge := by decide
    have n1 : ascii "type" ≠ nameChallenge := by decide
    have n4 : ascii "origin" ≠ nameChallenge := by decide
    have n5 : ascii "crossOrigin" ≠ nameChallenge := by decide
    by_cases h2 : k = 2
    · subst h2; simp [memberOf, lookupString, n3, JVal.string?]
    · have ih := ih (by rcases List.mem_cons.mp h with h | h; exact absurd h.symm h2; exact h)
      unfold memberOf
      rw [if_neg h2]
      split
      · simp only [List.cons_append, List.nil_append, lookupString, n1, if_false]; exact ih
      · skip
        split
        · simp only [List.cons_append, List.nil_append, lookupString, n4, if_false]; exact ih
        · split
          · simp only [List.cons_append, List.nil_append, lookupString, n5, if_false]; exact ih
          · exact ih

private theorem lookup_type (c o : Bytes) (order : Bytes) (h : 1 ∈ order) :
    lookupString nameType (order.flatMap (memberOf c o)) = some webauthnGet := by
  induction order with
  | nil => simp at h
  | cons k ks ih =>
    rw [List.flatMap_cons]
    have n3 : ascii "type" = nameType := by decide
    have n6 : ascii "webauthn.get" = webauthnGet := by decide
    have n1 : ascii "challenge" ≠ nameType := by decide
    have n4 : ascii "origin" ≠ nameType := by decide
    have n5 : ascii "crossOrigin" ≠ nameType := by decide
    by_cases h2 : k = 1
    · subst h2; simp [memberOf, lookupString, n3, n6, JVal.string?]
    · have ih := ih (by rcases List.mem_cons.mp h with h | h; exact absurd h.symm h2; exact h)
      unfold memberOf
      rw [if_neg h2]
      · split
        · simp only [List.cons_append, List.nil_append, lookupString, n1, if_false]; exact ih
        · split
          · simp only [List.cons_append, List.nil_append, lookupString, n4, if_false]; exact ih
          · split
            · simp only [List.cons_append, List.nil_append, lookupString, n5, if_false]; exact ih
            · exact ih

/-! ### what an accepted message is -/

/-- `json` is client data for `hash`: a get assertion whose challenge is the base64url text of the hash. -/
def ClientDataFor (hash json : Bytes) : Prop :=
  extractField json (ascii "challenge") = .ok (b64Encode hash) ∧ extractField json (ascii "type") = .ok (ascii "webauthn.get")

/-- The expected message is the bare hash, or authenticator data followed by the digest of client data for the hash; the rebuilt object has this form
provided the origin contains no quote and no backslash (browsers escape them). -/
theorem C63_message (env : Env) (hash extra msg : Bytes) (h : r1Message env hash extra = .ok msg) :
    (extra = [] ∧ msg = hash) ∨
    (∃ authData json, msg = authData ++ env.sha256 json ∧ ClientDataFor hash json) ∨
    (∃ authData order origin : Bytes, msg = authData ++ env.sha256 (objectText (order.flatMap (memberOf (b64Encode hash) origin))) ∧
      ¬ PlainText origin) := by
  have t1 : ascii "challenge" = nameChallenge := by decide
  have t2 : ascii "type" = nameType := by decide
  have t3 : ascii "webauthn.get" = webauthnGet := by decide
  unfold r1Message at h
  split at h
  · rename_i he; cases h; exact .inl ⟨he, rfl⟩
  · split at h
    · cases h
    · split at h
      · unfold webauthnMessage at h
        split at h
        · cases h
        · simp only at h
          split at h
          · cases h
          · split at h
            · cases h
            · obtain ⟨_, hv, h⟩ := bind_ok_iff.mp h
              split at h
              · cases h
              · split at h
                · cases h
                · obtain ⟨origin, _, h⟩ := bind_ok_iff.mp h
                  obtain ⟨json, hj, h⟩ := bind_ok_iff.mp h
                  have h := Except.ok.inj h
                  subst h
                  have hj := C63_rebuilt _ _ _ _ hj
                  subst hj
                  generalize sl extra (4 + rd extra 2 2) (4 + rd extra 2 2 + 4) = order at hv ⊢
                  unfold validFieldOrder at hv
                  split at hv
                  · split at hv
                    · rename_i hcnt
                      by_cases hp : PlainText origin
                      · right; left
                        refine ⟨_, _, rfl, ?_, ?_⟩
                        · rw [C63_parser _ _ (members_plain hash origin hp order), t1,
                            lookup_challenge _ _ _ (List.count_pos_iff.mp (by omega))]
                        · rw [C63_parser _ _ (members_plain hash origin hp order), t2,
                            lookup_type _ _ _ (List.count_pos_iff.mp (by omega)), t3]
                      · exact .inr (.inr ⟨_, order, origin, rfl, hp⟩)
                    · cases hv
                  · cases hv
      · split at h
        · unfold webauthnRawMessage at h
          split at h
          · cases h
          · simp only at h
            split at h
            · cases h
            · split at h
              · cases h
              · split at h
                · cases h
                · split at h
                  · cases h
                  · obtain ⟨c, hc, h⟩ := bind_ok_iff.mp h
                    split at h
                    · cases h
                    · rename_i hce
                      obtain ⟨t, ht, h⟩ := bind_ok_iff.mp h
                      split at h
                      · cases h
                      · rename_i hte
                        have h := Except.ok.inj h
                        subst h
                        right; left
                        refine ⟨_, _, rfl, ?_, ?_⟩
                        · rw [t1, hc, Decidable.of_not_not hce]
                        · rw [t2, t3, ht, Decidable.of_not_not hte]
        · cases h

/-- Client data is for one hash only. -/
theorem C63_one_hash (hash hash' json : Bytes) (h : ClientDataFor hash json) (h' : ClientDataFor hash' json) : hash = hash' := by
  have e := h.1.symm.trans h'.1
  exact (C32_base64url_injective _ _).1 (Except.ok.inj e)

/-- Two passkey messages that are equal are for the same hash, unless two different objects have the same digest. -/
theorem C63_binds (env : Env) (hsha : ∀ b, (env.sha256 b).length = 32) (hash hash' a a' json json' : Bytes)
    (h : ClientDataFor hash json) (h' : ClientDataFor hash' json') (e : a ++ env.sha256 json = a' ++ env.sha256 json') :
    hash = hash' ∨ (json ≠ json' ∧ env.sha256 json = env.sha256 json') := by
  obtain ⟨_, e2⟩ := List.append_inj' e (by rw [hsha, hsha])
  by_cases hj : json = json'
  · subst hj; exact .inl (C63_one_hash hash hash' json h h')
  · exact .inr ⟨hj, e2⟩

private theorem utf8_ascii : ∀ (s : Bytes), (∀ b ∈ s, b.toNat < 128) → utf8Valid s = true
  | [], _ => by simp [utf8Valid]
  | b :: bs, h => by
    have hb := h b (by simp)
    unfold utf8Valid
    simp [hb, utf8_ascii bs (fun x hx => h x (by simp [hx]))]

private theorem b64Char_ascii (i : Nat) (h : i < 64) : (b64Char i).toNat < 128 := by
  revert i
  set_option maxRecDepth 4000 in decide

private theorem b64_ascii : ∀ (b : Bytes), ∀ x ∈ b64Encode b, x.toNat < 128
  | b1 :: b2 :: b3 :: rest => by
    have ih := b64_ascii rest
    have h1 : b1.toNat < 256 := by simpa using b1.toNat_lt
    have h2 : b2.toNat < 256 := by simpa using b2.toNat_lt
    have h3 : b3.toNat < 256 := by simpa using b3.toNat_lt
    intro x hx
    simp only [b64Encode, List.mem_cons] at hx
    rcases hx with rfl | rfl | rfl | rfl | hx
    · exact b64Char_ascii _ (by omega)
    · exact b64Char_ascii _ (by omega)
    · exact b64Char_ascii _ (by omega)
    · exact b64Char_ascii _ (by omega)
    · exact ih x hx
  | [b1, b2] => by
    have h1 : b1.toNat < 256 := by simpa using b1.toNat_lt
    have h2 : b2.toNat < 256 := by simpa using b2.toNat_lt
    intro x hx
    simp only [b64Encode, List.mem_cons, List.not_mem_nil, or_false] at hx
    rcases hx with rfl | rfl | rfl <;> exact b64Char_ascii _ (by omega)
  | [b1] => by
    have h1 : b1.toNat < 256 := by simpa using b1.toNat_lt
    intro x hx
    simp only [b64Encode, List.mem_cons, List.not_mem_nil, or_false] at hx
    rcases hx with rfl | rfl <;> exact b64Char_ascii _ (by omega)
  | [] => by intro x hx; simp [b64Encode] at hx

/-- Disagreement: the builder does not escape the origin.  For any two hashes there is one object that the builder produces for both, with origins that
contain quotes, so the builder alone does not bind the challenge. -/
theorem C63_unescaped_origin (hash hash' : Bytes) : ∃ order order' origin origin' json,
    validFieldOrder order = .ok () ∧ validFieldOrder order' = .ok () ∧
    reconstructJson order origin hash = .ok json ∧ reconstructJson order' origin' hash' = .ok json := by
  have key : ∀ (c d : Bytes), (∀ x ∈ c, x.toNat < 128) → (∀ x ∈ d, x.toNat < 128) →
      ∃ o p : Bytes, utf8Valid o = true ∧ utf8Valid p = true ∧
        ∃ fs gs, jsonFields c o [3, 2, 1, 3] = .ok fs ∧ jsonFields d p [3, 1, 2, 0] = .ok gs ∧ joinComma fs = joinComma gs := by
    intro c d hc hd
    have ho : ∀ x ∈ ([120, 34, 44] ++ jsonType ++ [44] ++ jsonChallenge ++ d : Bytes), x.toNat < 128 := by
      intro x hx
      rcases List.mem_append.mp hx with hx | hx
      · exact (by decide : ∀ x ∈ ([120, 34, 44] ++ jsonType ++ [44] ++ jsonChallenge : Bytes), x.toNat < 128) x hx
      · exact hd x hx
    refine ⟨[120, 34, 44] ++ jsonType ++ [44] ++ jsonChallenge ++ d,
      ([120, 34, 44] ++ jsonType ++ [44] ++ jsonChallenge ++ d) ++ ([34, 44] ++ jsonChallenge ++ c ++ [34, 44] ++ jsonType ++ [44] ++ jsonOrigin ++ [120]),
      utf8_ascii _ ho, utf8_ascii _ ?_, _, _, rfl, rfl, ?_⟩
    · intro x hx
      rcases List.mem_append.mp hx with hx | hx
      · exact ho x hx
      · simp only [List.mem_append] at hx
        rcases hx with (((((hx | hx) | hx) | hx) | hx) | hx) | hx
        · rcases hx with hx | hx
          · exact (by decide : ∀ x ∈ ([34, 44] : Bytes), x.toNat < 128) x hx
          · exact (by decide : ∀ x ∈ jsonChallenge, x.toNat < 128) x hx
        · exact hc x hx
        · exact (by decide : ∀ x ∈ ([34, 44] : Bytes), x.toNat < 128) x hx
        · exact (by decide : ∀ x ∈ jsonType, x.toNat < 128) x hx
        · exact (by decide : ∀ x ∈ ([44] : Bytes), x.toNat < 128) x hx
        · exact (by decide : ∀ x ∈ jsonOrigin, x.toNat < 128) x hx
        · exact (by decide : ∀ x ∈ ([120] : Bytes), x.toNat < 128) x hx
    · simp [joinComma, List.append_assoc]
  obtain ⟨o, p, h1, h2, fs, gs, h3, h4, h5⟩ := key (b64Encode hash) (b64Encode hash') (b64_ascii _) (b64_ascii _)
  refine ⟨[3, 2, 1, 3], [3, 1, 2, 0], o, p, [123] ++ joinComma fs ++ [125], by decide, by decide, ?_, ?_⟩
  · simp only [reconstructJson, h1, if_true, h3, ok_bind]
  · simp only [reconstructJson, h2, if_true, h4, ok_bind, h5]

/-! Worked case. -/
example : ClientDataFor [1, 2, 3] (ascii "{\"type\":\"webauthn.get\",\"challenge\":\"AQID\",\"origin\":\"https://a.b\",\"crossOrigin\":false}") := by
  refine ⟨?_, ?_⟩
  · have : b64Encode [1, 2, 3] = [65, 81, 73, 68] := by simp [b64Encode, b64Char]
    rw [this]
    set_option maxRecDepth 8000 in decide
  · set_option maxRecDepth 8000 in decide

end Verif
