import Verif.Model.Auth
import Verif.Spec.Auth
import Verif.Proofs.Bytes

/-! Lemmas about stored authority records. -/

namespace Verif

@[simp] theorem Session.encode_length {s : Session} (h : s.WF) : s.encode.length = 48 := by
  simp [Session.encode, h.key]

theorem Cred.encode_length {c : Cred} (h : c.WF) : c.encode.length =
    match c with | .ed25519 .. => 32 | .secp256k1 .. => 40 | .secp256r1 .. => 40 | .exec .. => 80 := by
  cases c <;> simp only [Cred.WF] at h <;> simp [Cred.encode] <;> omega

/-- The record of a well-formed authority has the length of its type. -/
theorem Auth.encode_length {a : Auth} (h : a.WF) : authLen a.ty = some a.encode.length := by
  have hc := Cred.encode_length h.cred
  cases a with
  | mk c s =>
    cases s with
    | none => cases c <;> simp_all [Auth.encode, Auth.ty, authLen]
    | some s =>
      have hs := Session.encode_length (h.session s rfl)
      cases c <;> simp_all [Auth.encode, Auth.ty, authLen]

theorem sl_split (b : Bytes) (i j k : Nat) (h1 : i ≤ j) (h2 : j ≤ k) : sl b i k = sl b i j ++ sl b j k := by
  unfold sl
  have e : k - i = (j - i) + (k - j) := by omega
  rw [e, List.take_add, List.drop_drop]
  congr 3
  omega

theorem natLE_sl (b : Bytes) (i k : Nat) (h : i + k ≤ b.length) : natLE k (rd b i k) = sl b i (i + k) := by
  have hl : (sl b i (i + k)).length = k := by rw [sl_length_of_le h]; omega
  have := natLE_leNat (sl b i (i + k))
  rw [hl] at this
  exact this

theorem getD_sl (b : Bytes) (i : Nat) (h : i < b.length) : [b.getD i 0] = sl b i (i + 1) := by
  unfold sl
  have e : i + 1 - i = 1 := by omega
  rw [e, List.drop_eq_getElem_cons h, List.take_succ_cons, List.take_zero]
  simp [List.getD, h]

/-- The session decoded from the record. -/
private def decSession (b : Bytes) (o : Nat) : Session := ⟨sl b o (o + 32), rd b (o + 32) 8, rd b (o + 40) 8⟩

private theorem decSession_wf (b : Bytes) (o : Nat) (h : o + 48 = b.length) : (decSession b o).WF := by
  refine ⟨?_, ?_, ?_⟩
  · simp only [decSession]; rw [sl_length_of_le (by omega)]; omega
  · have := rd_lt b (o + 32) 8; simpa [decSession] using this
  · have := rd_lt b (o + 40) 8; simpa [decSession] using this

private theorem decSession_encode (b : Bytes) (o : Nat) (h : o + 48 = b.length) :
    (decSession b o).encode = sl b o b.length := by
  simp only [decSession, Session.encode]
  rw [natLE_sl _ _ _ (by omega), natLE_sl _ _ _ (by omega), ← sl_split _ _ _ _ (by omega) (by omega),
    ← sl_split _ _ _ _ (by omega) (by omega)]
  congr 1

private def decCred (ty : Nat) (b : Bytes) : Cred :=
  if ty ≤ 2 then .ed25519 (sl b 0 32)
  else if ty ≤ 4 then .secp256k1 (sl b 0 33) (sl b 33 36) (rd b 36 4)
  else if ty ≤ 6 then .secp256r1 (sl b 0 33) (sl b 33 36) (rd b 36 4)
  else .exec (sl b 0 32) (b.getD 32 0) (sl b 33 40) (sl b 40 80)

private theorem secp_split (b : Bytes) (h : 40 ≤ b.length) :
    sl b 0 33 ++ sl b 33 36 ++ natLE 4 (rd b 36 4) = sl b 0 40 := by
  rw [natLE_sl _ _ _ (by omega), ← sl_split _ _ _ _ (by omega) (by omega), ← sl_split _ _ _ _ (by omega) (by omega)]

private theorem exec_split (b : Bytes) (h : 80 ≤ b.length) :
    sl b 0 32 ++ [b.getD 32 0] ++ sl b 33 40 ++ sl b 40 80 = sl b 0 80 := by
  rw [getD_sl _ _ (by omega), ← sl_split _ _ _ _ (by omega) (by omega), ← sl_split _ _ _ _ (by omega) (by omega),
    ← sl_split _ _ _ _ (by omega) (by omega)]

theorem authLen_types {ty n : Nat} (h : authLen ty = some n) :
    (ty = 1 ∧ n = 32) ∨ (ty = 2 ∧ n = 80) ∨ (ty = 3 ∧ n = 40) ∨ (ty = 4 ∧ n = 88) ∨ (ty = 5 ∧ n = 40) ∨
    (ty = 6 ∧ n = 88) ∨ (ty = 7 ∧ n = 80) ∨ (ty = 8 ∧ n = 128) := by
  unfold authLen at h
  split at h <;> simp_all

/-- Every stored record of the right length is the record of some well-formed authority of its type. -/
theorem Auth.decode (ty : Nat) (b : Bytes) (h : authLen ty = some b.length) :
    ∃ a : Auth, a.WF ∧ a.ty = ty ∧ a.encode = b := by
  have full : sl b 0 b.length = b := sl_full b
  have hr := rd_lt b 36 4
  rcases authLen_types h with ⟨rfl, hn⟩ | ⟨rfl, hn⟩ | ⟨rfl, hn⟩ | ⟨rfl, hn⟩ | ⟨rfl, hn⟩ | ⟨rfl, hn⟩ | ⟨rfl, hn⟩ | ⟨rfl, hn⟩
  · refine ⟨⟨decCred 1 b, none⟩, ⟨?_, by simp⟩, rfl, ?_⟩
    · show (sl b 0 32).length = 32
      rw [sl_length_of_le (by omega)]
    · show sl b 0 32 ++ [] = b
      rw [List.append_nil, ← hn, full]
  · refine ⟨⟨decCred 2 b, some (decSession b 32)⟩, ⟨?_, ?_⟩, rfl, ?_⟩
    · show (sl b 0 32).length = 32
      rw [sl_length_of_le (by omega)]
    · intro s hs; cases hs; exact decSession_wf b 32 (by omega)
    · show sl b 0 32 ++ (decSession b 32).encode = b
      rw [decSession_encode _ _ (by omega), ← sl_split _ _ _ _ (by omega) (by omega), full]
  · refine ⟨⟨decCred 3 b, none⟩, ⟨?_, by simp⟩, rfl, ?_⟩
    · show (sl b 0 33).length = 33 ∧ (sl b 33 36).length = 3 ∧ rd b 36 4 < 2 ^ 32
      rw [sl_length_of_le (by omega), sl_length_of_le (by omega)]
      refine ⟨by omega, by omega, by simpa using hr⟩
    · show sl b 0 33 ++ sl b 33 36 ++ natLE 4 (rd b 36 4) ++ [] = b
      rw [List.append_nil, secp_split _ (by omega), ← hn, full]
  · refine ⟨⟨decCred 4 b, some (decSession b 40)⟩, ⟨?_, ?_⟩, rfl, ?_⟩
    · show (sl b 0 33).length = 33 ∧ (sl b 33 36).length = 3 ∧ rd b 36 4 < 2 ^ 32
      rw [sl_length_of_le (by omega), sl_length_of_le (by omega)]
      refine ⟨by omega, by omega, by simpa using hr⟩
    · intro s hs; cases hs; exact decSession_wf b 40 (by omega)
    · show sl b 0 33 ++ sl b 33 36 ++ natLE 4 (rd b 36 4) ++ (decSession b 40).encode = b
      rw [secp_split _ (by omega), decSession_encode _ _ (by omega), ← sl_split _ _ _ _ (by omega) (by omega), full]
  · refine ⟨⟨decCred 5 b, none⟩, ⟨?_, by simp⟩, rfl, ?_⟩
    · show (sl b 0 33).length = 33 ∧ (sl b 33 36).length = 3 ∧ rd b 36 4 < 2 ^ 32
      rw [sl_length_of_le (by omega), sl_length_of_le (by omega)]
      refine ⟨by omega, by omega, by simpa using hr⟩
    · show sl b 0 33 ++ sl b 33 36 ++ natLE 4 (rd b 36 4) ++ [] = b
      rw [List.append_nil, secp_split _ (by omega), ← hn, full]
  · refine ⟨⟨decCred 6 b, some (decSession b 40)⟩, ⟨?_, ?_⟩, rfl, ?_⟩
    · show (sl b 0 33).length = 33 ∧ (sl b 33 36).length = 3 ∧ rd b 36 4 < 2 ^ 32
      rw [sl_length_of_le (by omega), sl_length_of_le (by omega)]
      refine ⟨by omega, by omega, by simpa using hr⟩
    · intro s hs; cases hs; exact decSession_wf b 40 (by omega)
    · show sl b 0 33 ++ sl b 33 36 ++ natLE 4 (rd b 36 4) ++ (decSession b 40).encode = b
      rw [secp_split _ (by omega), decSession_encode _ _ (by omega), ← sl_split _ _ _ _ (by omega) (by omega), full]
  · refine ⟨⟨decCred 7 b, none⟩, ⟨?_, by simp⟩, rfl, ?_⟩
    · show (sl b 0 32).length = 32 ∧ (sl b 33 40).length = 7 ∧ (sl b 40 80).length = 40
      rw [sl_length_of_le (by omega), sl_length_of_le (by omega), sl_length_of_le (by omega)]
      refine ⟨by omega, by omega, by omega⟩
    · show sl b 0 32 ++ [b.getD 32 0] ++ sl b 33 40 ++ sl b 40 80 ++ [] = b
      rw [List.append_nil, exec_split _ (by omega), ← hn, full]
  · refine ⟨⟨decCred 8 b, some (decSession b 80)⟩, ⟨?_, ?_⟩, rfl, ?_⟩
    · show (sl b 0 32).length = 32 ∧ (sl b 33 40).length = 7 ∧ (sl b 40 80).length = 40
      rw [sl_length_of_le (by omega), sl_length_of_le (by omega), sl_length_of_le (by omega)]
      refine ⟨by omega, by omega, by omega⟩
    · intro s hs; cases hs; exact decSession_wf b 80 (by omega)
    · show sl b 0 32 ++ [b.getD 32 0] ++ sl b 33 40 ++ sl b 40 80 ++ (decSession b 80).encode = b
      rw [exec_split _ (by omega), decSession_encode _ _ (by omega), ← sl_split _ _ _ _ (by omega) (by omega), full]

/-! ### fields of records -/

theorem Auth.sessionBased_iff (a : Auth) : sessionBased a.ty = a.session.isSome := by
  cases a with | mk c s => cases s <;> cases c <;> simp [Auth.ty, sessionBased]

/-- The session of a record starts right after the main credential. -/
theorem Auth.sessionOff_eq {a : Auth} (h : a.WF) {s : Session} (hs : a.session = some s) :
    sessionOff a.ty = a.cred.encode.length := by
  have hc := Cred.encode_length h.cred
  cases a with
  | mk c s' => cases hs; cases c <;> simp only [hc] <;> rfl

theorem Auth.session_fields {a : Auth} (h : a.WF) {s : Session} (hs : a.session = some s) :
    sessionKey a.ty a.encode = s.key ∧ sessionMax a.ty a.encode = s.max ∧ sessionExpiry a.ty a.encode = s.expiry := by
  have ho := Auth.sessionOff_eq h hs
  have hw := h.session s hs
  have he : a.encode = a.cred.encode ++ (s.encode ++ []) := by simp [Auth.encode, hs]
  have hsl : s.encode.length = 48 := Session.encode_length hw
  unfold sessionKey sessionMax sessionExpiry
  rw [ho, he]
  refine ⟨?_, ?_, ?_⟩
  · have := sl_append3 a.cred.encode s.encode [] 0 32 (by omega) (by omega)
    simp only [Nat.add_zero] at this
    rw [this]
    unfold Session.encode
    rw [List.append_assoc, sl_left _ _ _ _ (by rw [hw.key]; omega), ← hw.key, sl_full]
  · have := rd_append3 a.cred.encode s.encode [] 32 8 (by omega)
    rw [this]
    have h2 := rd_append3 s.key (natLE 8 s.max) (natLE 8 s.expiry) 0 8 (by simp)
    unfold Session.encode
    rw [hw.key, Nat.add_zero, ← List.append_assoc] at h2
    rw [h2, rd, Nat.zero_add]
    have : sl (natLE 8 s.max) 0 8 = natLE 8 s.max := by simpa using sl_full (natLE 8 s.max)
    rw [this, leNat_natLE_of_lt (by simpa using hw.max)]
  · have := rd_append3 a.cred.encode s.encode [] 40 8 (by omega)
    rw [this]
    have h2 := rd_append3 (s.key ++ natLE 8 s.max) (natLE 8 s.expiry) [] 0 8 (by simp)
    unfold Session.encode
    simp only [List.length_append, hw.key, natLE_length, List.append_nil, Nat.add_zero] at h2
    rw [h2, rd, Nat.zero_add]
    have : sl (natLE 8 s.expiry) 0 8 = natLE 8 s.expiry := by simpa using sl_full (natLE 8 s.expiry)
    rw [this, leNat_natLE_of_lt (by simpa using hw.expiry)]

/-- Writing a session through its offset. -/
theorem Auth.put_session {a : Auth} (h : a.WF) {s : Session} (hs : a.session = some s) (t : Session) (ht : t.encode.length = 48) :
    put a.encode (sessionOff a.ty) t.encode = ({ a with session := some t } : Auth).encode := by
  have ho := Auth.sessionOff_eq h hs
  have hw := h.session s hs
  have he : a.encode = a.cred.encode ++ (s.encode ++ []) := by simp [Auth.encode, hs]
  rw [ho, he, put_mid _ _ _ _ (by rw [ht, Session.encode_length hw])]
  simp [Auth.encode]

/-! ### odometer -/

theorem Cred.secp_fields {c : Cred} (h : c.WF) {pk : Bytes} {n : Nat} (hs : c.secp = some (pk, n)) (rest : Bytes) (m : Nat) :
    sl (c.encode ++ rest) 0 33 = pk ∧ odometer (c.encode ++ rest) = n ∧
    put (c.encode ++ rest) 36 (natLE 4 m) = (c.withOdometer m).encode ++ rest := by
  have key : ∀ (pk' pad : Bytes) (n' : Nat), pk'.length = 33 → pad.length = 3 → n' < 2 ^ 32 →
      sl (pk' ++ pad ++ natLE 4 n' ++ rest) 0 33 = pk' ∧ odometer (pk' ++ pad ++ natLE 4 n' ++ rest) = n' ∧
      put (pk' ++ pad ++ natLE 4 n' ++ rest) 36 (natLE 4 m) = pk' ++ pad ++ natLE 4 m ++ rest := by
    intro pk' pad n' h1 h2 h3
    refine ⟨?_, ?_, ?_⟩
    · rw [List.append_assoc, List.append_assoc, sl_left _ _ _ _ (by omega), ← h1, sl_full]
    · unfold odometer
      have := rd_append3 (pk' ++ pad) (natLE 4 n') rest 0 4 (by simp)
      simp only [List.length_append, h1, h2, Nat.add_zero] at this
      rw [List.append_assoc, this, rd, Nat.zero_add]
      have e : sl (natLE 4 n') 0 4 = natLE 4 n' := by simpa using sl_full (natLE 4 n')
      rw [e, leNat_natLE_of_lt (by simpa using h3)]
    · rw [List.append_assoc, put_mid' (pk' ++ pad) (natLE 4 n') rest (natLE 4 m) (by simp [h1, h2]) (by simp),
        ← List.append_assoc]
  cases c with
  | ed25519 => simp [Cred.secp] at hs
  | exec => simp [Cred.secp] at hs
  | secp256k1 pk' pad n' =>
    simp only [Cred.secp, Option.some.injEq, Prod.mk.injEq] at hs
    obtain ⟨rfl, rfl⟩ := hs
    exact key _ _ _ h.1 h.2.1 h.2.2
  | secp256r1 pk' pad n' =>
    simp only [Cred.secp, Option.some.injEq, Prod.mk.injEq] at hs
    obtain ⟨rfl, rfl⟩ := hs
    exact key _ _ _ h.1 h.2.1 h.2.2

/-! ### which function authenticates a record -/

theorem authenticate_ed25519 {a : Auth} {pk : Key} (hc : a.cred = .ed25519 pk) (env : Env) (auth : Bytes) (metas : List Meta)
    (sysvar payload data : Bytes) : authenticate env a.ty auth metas sysvar payload data =
      if payload.length ≠ 1 then .error E.au_invalidAuthorityPayload
      else (do ed25519Auth metas (payload.getD 0 0).toNat (sl auth 0 32); .ok auth) := by
  cases a with | mk c s => cases hc; cases s <;> rfl

theorem authenticate_secp256k1 {a : Auth} {pk pad : Bytes} {n : Nat} (hc : a.cred = .secp256k1 pk pad n) (env : Env) (auth : Bytes)
    (metas : List Meta) (sysvar payload data : Bytes) :
    authenticate env a.ty auth metas sysvar payload data = k1Authenticate env auth metas payload data := by
  cases a with | mk c s => cases hc; cases s <;> rfl

theorem authenticate_secp256r1 {a : Auth} {pk pad : Bytes} {n : Nat} (hc : a.cred = .secp256r1 pk pad n) (env : Env) (auth : Bytes)
    (metas : List Meta) (sysvar payload data : Bytes) :
    authenticate env a.ty auth metas sysvar payload data = r1Authenticate env auth metas sysvar payload data := by
  cases a with | mk c s => cases hc; cases s <;> rfl

theorem authenticate_exec {a : Auth} {p : Key} {n : UInt8} {pad buf : Bytes} (hc : a.cred = .exec p n pad buf) (env : Env) (auth : Bytes)
    (metas : List Meta) (sysvar payload data : Bytes) :
    authenticate env a.ty auth metas sysvar payload data = (do execAuthenticate auth metas sysvar payload; .ok auth) := by
  cases a with | mk c s => cases hc; cases s <;> rfl

end Verif
