import Verif.Proofs.Sysvar
import Verif.Spec.History

/-!
# Properties C24, C25, C27 - C31, C62: authentication

A stored credential is an `Auth` (Verif/Spec/Auth.lean), its record is `a.encode`, its type number `a.ty`; `Auth.decode`
(Verif/Proofs/Auth.lean) shows that every stored record of the right size is of this form.  `metas` are the accounts of the instruction,
`payload` the authority payload and `data` the instruction payload the client supplied.
-/

namespace Verif

/-- An account of the instruction signed the transaction with key `k`, at position `i`. -/
def SignedBy (metas : List Meta) (i : Nat) (k : Key) : Prop :=
  ∃ m, metas[i]? = some m ∧ m.key = k ∧ m.signer = true

theorem ed25519Auth_iff (metas : List Meta) (i : Nat) (k : Key) : ed25519Auth metas i k = .ok () ↔ SignedBy metas i k := by
  unfold ed25519Auth SignedBy getOr
  cases metas[i]? with
  | none => simp
  | some m =>
    simp only [ok_bind, Option.some.injEq, exists_eq_left']
    by_cases h : k = m.key ∧ m.signer = true
    · simp [h]
    · simp only [h, if_false, reduceCtorEq, false_iff]
      intro h2; exact h ⟨h2.1.symm, h2.2⟩

/-! ## C24: session keys -/

/-- A session authentication is accepted only while the session has not expired and only with the session key's signature. -/
theorem C24_session_accepts_only (env : Env) (a : Auth) (s : Session) (metas : List Meta) (payload : Bytes)
    (hw : a.WF) (hs : a.session = some s) (h : authenticateSession env a.ty a.encode metas payload = .ok ()) :
    env.slot ≤ s.expiry ∧ ∃ i rest, payload = i :: rest ∧ SignedBy metas i.toNat s.key := by
  obtain ⟨hk, hm, he⟩ := Auth.session_fields hw hs
  unfold authenticateSession at h
  rw [if_neg (by simp [Auth.sessionBased_iff, hs]), hk, he] at h
  obtain ⟨_, _, h⟩ := bind_ok_iff.mp h
  split at h
  · cases h
  · split at h
    · cases h
    · rename_i h1 h2
      refine ⟨by omega, ?_⟩
      cases payload with
      | nil => exact absurd rfl h2
      | cons i rest => exact ⟨i, rest, rfl, (ed25519Auth_iff _ _ _).mp (by simpa using h)⟩

/-- Until then a signature by the session key is accepted. -/
theorem C24_session_accepts (env : Env) (a : Auth) (s : Session) (metas : List Meta) (i : UInt8)
    (hw : a.WF) (hs : a.session = some s) (h1 : env.slot ≤ s.expiry) (h2 : SignedBy metas i.toNat s.key) :
    authenticateSession env a.ty a.encode metas [i] = .ok () := by
  obtain ⟨hk, hm, he⟩ := Auth.session_fields hw hs
  unfold authenticateSession
  rw [if_neg (by simp [Auth.sessionBased_iff, hs]), hk, he]
  have hp : sessionPayloadOk a.ty [i] = .ok () := by
    unfold sessionPayloadOk
    simp
  rw [hp, ok_bind, if_neg (by omega), if_neg (by simp)]
  simpa using (ed25519Auth_iff metas i.toNat s.key).mpr h2

/-- Handlers authenticate a session role in this way only, and the stored record does not change. -/
theorem C24_session_role (env : Env) (a : Auth) (s : Session) (metas : List Meta) (sysvar payload data b : Bytes)
    (hw : a.WF) (hs : a.session = some s) (h : authRole env a.ty a.encode metas sysvar payload data = .ok b) :
    b = a.encode ∧ env.slot ≤ s.expiry ∧ ∃ i rest, payload = i :: rest ∧ SignedBy metas i.toNat s.key := by
  unfold authRole at h
  rw [if_pos (by simp [Auth.sessionBased_iff, hs])] at h
  obtain ⟨_, h1, h2⟩ := bind_ok_iff.mp h
  cases h2
  exact ⟨rfl, C24_session_accepts_only env a s metas payload hw hs h1⟩

/-! Worked case: an Ed25519 session role, at its last valid slot and one slot later. -/
section
private def k1 : Key := List.replicate 32 1
private def k2 : Key := List.replicate 32 2
private def sess : Auth := ⟨.ed25519 k1, some ⟨k2, 100, 50⟩⟩
private def envAt (slot : Nat) : Env :=
  ⟨slot, fun n => (n + 128) * 6960, fun _ => none, fun b => b, fun b => b, fun _ _ _ => none, 1⟩

example : sess.WF := ⟨by show k1.length = 32; decide, by intro s h; cases h; exact ⟨by decide, by decide, by decide⟩⟩
example : authenticateSession (envAt 50) sess.ty sess.encode [⟨k1, false, true⟩, ⟨k2, true, false⟩] [1] = .ok () := by decide
example : authenticateSession (envAt 51) sess.ty sess.encode [⟨k1, false, true⟩, ⟨k2, true, false⟩] [1] =
    .error E.au_permissionDeniedSessionExpired := by decide
end

/-! ## C25: starting a session -/

/-- Starting a session succeeds exactly when the duration is at most the configured maximum; then the record is the same
credential with the new key and the expiry `slot + duration`, and the maximum unchanged. -/
theorem C25_start_session (a : Auth) (s : Session) (key : Key) (slot duration : Nat) (b : Bytes)
    (hw : a.WF) (hs : a.session = some s) (hk : key.length = 32) (hslot : slot + duration < 2 ^ 64) :
    startSession a.ty a.encode key slot duration = .ok b ↔
      duration ≤ s.max ∧ b = ({ a with session := some ⟨key, s.max, slot + duration⟩ } : Auth).encode := by
  obtain ⟨_, hm, _⟩ := Auth.session_fields hw hs
  unfold startSession
  rw [if_neg (by simp [Auth.sessionBased_iff, hs]), hm]
  by_cases hd : duration > s.max
  · rw [if_pos hd]; constructor
    · intro h; cases h
    · intro h; omega
  · rw [if_neg hd, Nat.mod_eq_of_lt hslot]
    have := Auth.put_session hw hs ⟨key, s.max, slot + duration⟩ (by simp [Session.encode, hk])
    unfold Session.encode at this
    rw [this]
    constructor
    · intro h; cases h; exact ⟨by omega, rfl⟩
    · intro h; rw [h.2]

/-- Without the clock hypothesis: the stored expiry is at most `slot + maximum`, even when the addition wraps around. -/
theorem C25_never_outlives (a : Auth) (s : Session) (key : Key) (slot duration : Nat) (b : Bytes)
    (hw : a.WF) (hs : a.session = some s) (hk : key.length = 32)
    (h : startSession a.ty a.encode key slot duration = .ok b) :
    ∃ e, b = ({ a with session := some ⟨key, s.max, e⟩ } : Auth).encode ∧ e ≤ slot + s.max := by
  obtain ⟨_, hm, _⟩ := Auth.session_fields hw hs
  unfold startSession at h
  rw [if_neg (by simp [Auth.sessionBased_iff, hs]), hm] at h
  split at h
  · cases h
  · rename_i hd
    cases h
    refine ⟨(slot + duration) % 2 ^ 64, ?_, ?_⟩
    · have := Auth.put_session hw hs ⟨key, s.max, (slot + duration) % 2 ^ 64⟩ (by simp [Session.encode, hk])
      unfold Session.encode at this
      rw [this]
    · have := Nat.mod_le (slot + duration) (2 ^ 64)
      omega

section
private def s1 : Auth := ⟨.ed25519 (List.replicate 32 1), some ⟨List.replicate 32 2, 100, 50⟩⟩
example : startSession s1.ty s1.encode (List.replicate 32 3) 1000 100 =
    .ok ({ s1 with session := some ⟨List.replicate 32 3, 100, 1100⟩ } : Auth).encode := by decide
example : startSession s1.ty s1.encode (List.replicate 32 3) 1000 101 = .error E.au_invalidSessionDuration := by decide
end

/-! ## C27: roles without sessions -/

theorem C27_no_session (env : Env) (a : Auth) (metas : List Meta) (payload key : Bytes) (slot duration : Nat)
    (hs : a.session = none) :
    authenticateSession env a.ty a.encode metas payload = .error E.au_authorityDoesNotSupportSessionBasedAuth ∧
    startSession a.ty a.encode key slot duration = .error E.au_authorityDoesNotSupportSessionBasedAuth := by
  have hb : sessionBased a.ty = false := by simp [Auth.sessionBased_iff, hs]
  simp [authenticateSession, startSession, hb]

/-! ## C28: replay -/

/-- One authentication attempt by the main credential. -/
structure Attempt where
  env : Env
  metas : List Meta
  sysvar : Bytes
  payload : Bytes
  data : Bytes

/-- The counter an attempt states (bytes 8..12 of the payload). -/
def Attempt.counter (t : Attempt) : Nat := rd t.payload 8 4

def Attempt.run (ty : Nat) (auth : Bytes) (t : Attempt) : R Bytes :=
  authenticate t.env ty auth t.metas t.sysvar t.payload t.data

/-- An accepted authorisation of a secp credential states the stored counter plus one, which is then stored; key and session are
unchanged. -/
theorem C28_step (a : Auth) (pk : Bytes) (n : Nat) (t : Attempt) (b : Bytes)
    (hw : a.WF) (hc : a.cred.secp = some (pk, n)) (h : t.run a.ty a.encode = .ok b) :
    t.counter = (n + 1) % 2 ^ 32 ∧
    b = ({ a with cred := a.cred.withOdometer ((n + 1) % 2 ^ 32) } : Auth).encode := by
  obtain ⟨_, ho, hp⟩ := Cred.secp_fields hw.cred hc
    (match a.session with | none => [] | some s => s.encode) ((n + 1) % 2 ^ 32)
  change odometer a.encode = n at ho
  change put a.encode 36 _ = _ at hp
  unfold Attempt.run at h
  cases hcr : a.cred with
  | ed25519 => rw [hcr] at hc; simp [Cred.secp] at hc
  | exec => rw [hcr] at hc; simp [Cred.secp] at hc
  | secp256k1 =>
    rw [hcr] at hp
    rw [authenticate_secp256k1 hcr] at h
    unfold k1Authenticate at h
    split at h
    · cases h
    · simp only at h
      split at h
      · cases h
      · rename_i hcnt
        obtain ⟨_, _, h⟩ := bind_ok_iff.mp h
        cases h
        rw [ho] at hcnt
        have hcnt : rd t.payload 8 4 = (n + 1) % 2 ^ 32 := Decidable.of_not_not hcnt
        exact ⟨hcnt, by rw [hcnt, hp]; rfl⟩
  | secp256r1 =>
    rw [hcr] at hp
    rw [authenticate_secp256r1 hcr] at h
    unfold r1Authenticate at h
    split at h
    · cases h
    · simp only at h
      split at h
      · cases h
      · rename_i hcnt
        obtain ⟨_, _, h⟩ := bind_ok_iff.mp h
        cases h
        rw [ho] at hcnt
        have hcnt : rd t.payload 8 4 = (n + 1) % 2 ^ 32 := Decidable.of_not_not hcnt
        exact ⟨hcnt, by rw [hcnt, hp]; rfl⟩

private theorem withOdometer_twice (c : Cred) (m n : Nat) : (c.withOdometer m).withOdometer n = c.withOdometer n := by
  cases c <;> rfl

private theorem withOdometer_secp {c : Cred} {pk : Bytes} {n : Nat} (m : Nat) (h : c.secp = some (pk, n)) :
    (c.withOdometer m).secp = some (pk, m) := by
  cases c <;> simp [Cred.secp, Cred.withOdometer] at * <;> exact h.1

private theorem withOdometer_wf {a : Auth} (h : a.WF) (m : Nat) (hm : m < 2 ^ 32) :
    ({ a with cred := a.cred.withOdometer m } : Auth).WF := by
  refine ⟨?_, h.session⟩
  have hc := h.cred
  cases a with
  | mk c s => cases c <;> simp only [Cred.withOdometer, Cred.WF] at * <;> first | exact hc | exact ⟨hc.1, hc.2.1, hm⟩

private theorem withOdometer_ty (a : Auth) (m : Nat) : ({ a with cred := a.cred.withOdometer m } : Auth).ty = a.ty := by
  cases a with | mk c s => cases c <;> rfl

/-- In any history of attempts the accepted authorisations state consecutive counters, starting after the stored one. -/
theorem C28_counters_consecutive (a : Auth) (pk : Bytes) (n : Nat) (ts : List Attempt)
    (hw : a.WF) (hc : a.cred.secp = some (pk, n)) (k : Nat) (t : Attempt)
    (h : (play (Attempt.run a.ty) a.encode ts).2[k]? = some t) :
    t.counter = (n + 1 + k) % 2 ^ 32 := by
  induction ts generalizing a n k with
  | nil => simp [play] at h
  | cons x xs ih =>
    unfold play at h
    split at h
    · rename_i b hb
      obtain ⟨h1, h2⟩ := C28_step a pk n x b hw hc hb
      subst h2
      simp only at h
      cases k with
      | zero => simp at h; subst h; simpa using h1
      | succ k =>
        simp only [List.getElem?_cons_succ] at h
        have hlt : (n + 1) % 2 ^ 32 < 2 ^ 32 := Nat.mod_lt _ (by decide)
        have := ih ({ a with cred := a.cred.withOdometer ((n + 1) % 2 ^ 32) } : Auth) ((n + 1) % 2 ^ 32)
          (withOdometer_wf hw _ hlt) (withOdometer_secp _ hc) k (by rw [withOdometer_ty]; exact h)
        rw [this]
        omega
    · exact ih a n hw hc k h

/-- A payload accepted once is not accepted again before 2^32 - 1 further authorisations have been accepted. -/
theorem C28_no_replay (a : Auth) (pk : Bytes) (n : Nat) (ts : List Attempt) (hw : a.WF) (hc : a.cred.secp = some (pk, n))
    (i j : Nat) (s t : Attempt) (hij : i < j)
    (hi : (play (Attempt.run a.ty) a.encode ts).2[i]? = some s)
    (hj : (play (Attempt.run a.ty) a.encode ts).2[j]? = some t) (hsame : s.payload = t.payload) :
    2 ^ 32 ≤ j - i := by
  have h1 := C28_counters_consecutive a pk n ts hw hc i s hi
  have h2 := C28_counters_consecutive a pk n ts hw hc j t hj
  have h3 : s.counter = t.counter := by unfold Attempt.counter; rw [hsame]
  rw [h1, h2] at h3
  omega

/-! Worked case: with an environment in which recovery yields the key, counter 6 is accepted after 5, once. -/
section
private def pk33 : Bytes := 2 :: List.replicate 32 7
private def pk64 : Bytes := List.replicate 32 7 ++ List.replicate 32 0
private def k1Auth : Auth := ⟨.secp256k1 pk33 (zeros 3) 5, none⟩
private def okEnv : Env := ⟨100, fun n => (n + 128) * 6960, fun _ => none, fun _ => zeros 32, fun b => b, fun _ _ _ => some pk64, 1⟩
private def okPayload : Bytes := natLE 8 90 ++ natLE 4 6 ++ (List.replicate 32 1 ++ List.replicate 32 1) ++ [27]
private def try1 : Attempt := ⟨okEnv, [⟨List.replicate 32 9, true, true⟩], [], okPayload, [1, 2, 3]⟩

example : k1Auth.WF ∧ k1Auth.cred.secp = some (pk33, 5) := ⟨⟨⟨by decide, by decide, by decide⟩, by intro s h; cases h⟩, by decide⟩
example : try1.run k1Auth.ty k1Auth.encode = .ok (⟨.secp256k1 pk33 (zeros 3) 6, none⟩ : Auth).encode := by decide
example : try1.run k1Auth.ty (⟨.secp256k1 pk33 (zeros 3) 6, none⟩ : Auth).encode =
    .error E.au_permissionDeniedSecp256k1SignatureReused := by decide
end

/-! ## C31: only the stored key, C29: signature age -/

/-- Ed25519 roles: accepted exactly when the referenced account signed with the stored key. -/
theorem C31_ed25519 (env : Env) (a : Auth) (pk : Key) (metas : List Meta) (sysvar payload data b : Bytes)
    (hw : a.WF) (hc : a.cred = .ed25519 pk) :
    authenticate env a.ty a.encode metas sysvar payload data = .ok b ↔
      b = a.encode ∧ ∃ i, payload = [i] ∧ SignedBy metas i.toNat pk := by
  have ht : a.ty = T.ed25519 ∨ a.ty = T.ed25519Session := by
    cases a with | mk c s => cases hc; cases s <;> simp [Auth.ty]
  have hk : sl a.encode 0 32 = pk := by
    have hl : pk.length = 32 := by have := hw.cred; rw [hc] at this; exact this
    unfold Auth.encode
    rw [hc, sl_left _ _ _ _ (by simp [Cred.encode, hl])]
    simp only [Cred.encode]
    rw [← hl, sl_full]
  unfold authenticate
  rw [if_pos ht, hk]
  match payload with
  | [] => simp
  | [i] =>
    simp only [List.length_singleton, ne_eq, not_true_eq_false, if_false]
    constructor
    · intro h
      obtain ⟨_, h1, h2⟩ := bind_ok_iff.mp h
      cases h2
      exact ⟨rfl, i, rfl, (ed25519Auth_iff _ _ _).mp (by simpa using h1)⟩
    · rintro ⟨rfl, j, hj, h1⟩
      cases hj
      have := (ed25519Auth_iff _ _ _).mpr h1
      simp [this]
  | _ :: _ :: _ => simp

/-- Secp256k1 roles: an authentication is accepted exactly when the payload is `slot, counter, signature, v, prefix` with the next
counter, a slot not in the future and at most 60 slots old, at most 64 accounts, a low-s signature, and recovery of the signature over the hash of
the prefixed hexadecimal digest of the signed message gives a key whose compressed form is the stored one. -/
theorem C31_secp256k1 (env : Env) (a : Auth) (pk pad : Bytes) (n : Nat) (metas : List Meta) (sysvar data b : Bytes)
    (slot counter : Nat) (r s : Bytes) (v : UInt8) (pfx : Bytes)
    (hw : a.WF) (hc : a.cred = .secp256k1 pk pad n) (hslot : slot < 2 ^ 64) (hcnt : counter < 2 ^ 32)
    (hr : r.length = 32) (hs : s.length = 32) :
    authenticate env a.ty a.encode metas sysvar (natLE 8 slot ++ natLE 4 counter ++ (r ++ s) ++ [v] ++ pfx) data = .ok b ↔
      b = ({ a with cred := .secp256k1 pk pad counter } : Auth).encode ∧ counter = (n + 1) % 2 ^ 32 ∧
      (slot ≤ env.slot ∧ env.slot ≤ slot + 60) ∧ metas.length ≤ 64 ∧
      beNat r < secpN ∧ beNat s ≤ secpN / 2 ∧
      ∃ key, env.recover (env.keccak (pfx ++ hexEncode (env.sha256
          (data ++ accountRecords metas ++ natLE 8 slot ++ natLE 4 counter)))) (if v = 27 then 0 else 1) (r ++ s) = some key ∧
        compressKey key = pk := by
  obtain ⟨hk, ho, hp⟩ := Cred.secp_fields hw.cred (pk := pk) (n := n) (by rw [hc]; rfl)
    (match a.session with | none => [] | some s => s.encode) counter
  change sl a.encode 0 33 = pk at hk
  change odometer a.encode = n at ho
  change put a.encode 36 _ = _ at hp
  generalize hP : natLE 8 slot ++ natLE 4 counter ++ (r ++ s) ++ [v] ++ pfx = P
  have hlen : P.length = 77 + pfx.length := by rw [← hP]; simp [hr, hs]; omega
  have f1 : rd P 0 8 = slot := by
    have := rd_full 8 slot (by simpa using hslot) [] (natLE 4 counter ++ (r ++ s) ++ [v] ++ pfx) (i := 0) rfl
    rw [← hP]; simpa [List.append_assoc] using this
  have f2 : rd P 8 4 = counter := by
    have := rd_full 4 counter (by simpa using hcnt) (natLE 8 slot) ((r ++ s) ++ [v] ++ pfx) (i := 8) (by simp)
    rw [← hP]; simpa [List.append_assoc] using this
  have f3 : sl P 12 77 = (r ++ s) ++ [v] := by
    have := sl_mid (natLE 8 slot ++ natLE 4 counter) (r ++ s ++ [v]) pfx (i := 12) (j := 77) (by simp) (by simp [hr, hs])
    rw [← hP]; simpa [List.append_assoc] using this
  have f4 : P.drop 77 = pfx := by
    rw [← hP]
    have e : (natLE 8 slot ++ natLE 4 counter ++ (r ++ s) ++ [v]).length = 77 := by simp [hr, hs]
    rw [← e, List.drop_left]
  have f5 : sl ((r ++ s) ++ [v]) 0 64 = r ++ s := by
    rw [sl_left _ _ _ _ (by simp [hr, hs])]
    have e : (r ++ s).length = 64 := by simp [hr, hs]
    rw [← e, sl_full]
  have f6 : ((r ++ s) ++ [v]).getD 64 0 = v := by
    have e : (r ++ s).length = 64 := by simp [hr, hs]
    simp [List.getD, hr, hs]
  have f7 : sl (r ++ s) 0 32 = r := by rw [sl_left _ _ _ _ (by omega), ← hr, sl_full]
  have f8 : sl (r ++ s) 32 64 = s := by
    rw [sl_right _ _ _ _ (by omega), hr]; simp only [Nat.sub_self, Nat.reduceSub]; rw [← hs, sl_full]
  rw [authenticate_secp256k1 hc]
  unfold k1Authenticate
  rw [if_neg (by omega)]
  simp only
  rw [f2, ho]
  by_cases hcn : counter = (n + 1) % 2 ^ 32
  · rw [if_neg (by simpa using hcn)]
    unfold k1Core
    rw [f1, f3, f4, f5, f6, hk]
    by_cases hfr : fresh slot env.slot
    · rw [if_neg (by simpa using hfr)]
      unfold fresh at hfr
      by_cases hm : metas.length > 64
      · rw [if_pos hm]; simp only [error_bind, reduceCtorEq, false_iff]; intro h; omega
      · rw [if_neg hm]
        have hlow : lowS (r ++ s) = true ↔ beNat r < secpN ∧ beNat s ≤ secpN / 2 := by
          unfold lowS
          rw [f7, f8]
          simp only [Bool.and_eq_true, decide_eq_true_eq]
          constructor
          · intro h; exact ⟨h.1.1, h.2⟩
          · intro h; exact ⟨⟨h.1, Nat.lt_of_le_of_lt h.2 (by decide)⟩, h.2⟩
        by_cases hl : lowS (r ++ s) = true
        · rw [if_neg (by simp [hl])]
          have hl' := hlow.mp hl
          simp only
          have hh : k1Hash env data metas slot counter pfx = env.keccak (pfx ++ hexEncode (env.sha256
            (data ++ accountRecords metas ++ natLE 8 slot ++ natLE 4 counter))) := rfl
          rw [hh]
          cases hrec : env.recover (env.keccak (pfx ++ hexEncode (env.sha256
            (data ++ accountRecords metas ++ natLE 8 slot ++ natLE 4 counter)))) (if v = 27 then 0 else 1) (r ++ s) with
          | none => simp
          | some key =>
            simp only [Option.some.injEq, exists_eq_left']
            by_cases hkey : compressKey key = pk
            · rw [if_pos hkey, ok_bind, hp]
              have e : Cred.withOdometer a.cred counter = .secp256k1 pk pad counter := by rw [hc]; rfl
              rw [e]
              change Except.ok (Auth.encode { a with cred := .secp256k1 pk pad counter }) = _ ↔ _
              constructor
              · intro h; cases h; exact ⟨rfl, hcn, by omega, by omega, hl'.1, hl'.2, hkey⟩
              · rintro ⟨rfl, _⟩; rfl
            · rw [if_neg hkey]; simp [hkey]
        · have hl0 : lowS (r ++ s) = false := by simpa using hl
          rw [if_pos hl0]
          simp only [error_bind, reduceCtorEq, false_iff]
          rintro ⟨_, _, _, _, h1, h2, _⟩
          exact hl (hlow.mpr ⟨h1, h2⟩)
    · rw [if_pos hfr]
      simp only [error_bind, reduceCtorEq, false_iff]
      rintro ⟨_, _, h, _⟩
      exact hfr (by unfold fresh; omega)
  · rw [if_pos (by simpa using hcn)]
    simp only [reduceCtorEq, false_iff]
    rintro ⟨_, h, _⟩
    exact hcn h

/-- Every payload a Secp256k1 role accepts has the shape used in `C31_secp256k1`. -/
theorem C31_secp256k1_shape (env : Env) (a : Auth) (pk pad : Bytes) (n : Nat) (metas : List Meta) (sysvar payload data b : Bytes)
    (hc : a.cred = .secp256k1 pk pad n) (h : authenticate env a.ty a.encode metas sysvar payload data = .ok b) :
    ∃ slot counter r s v pfx, slot < 2 ^ 64 ∧ counter < 2 ^ 32 ∧ r.length = 32 ∧ s.length = 32 ∧
      payload = natLE 8 slot ++ natLE 4 counter ++ (r ++ s) ++ [v] ++ pfx := by
  rw [authenticate_secp256k1 hc] at h
  unfold k1Authenticate at h
  split at h
  · cases h
  · rename_i hl
    refine ⟨rd payload 0 8, rd payload 8 4, sl payload 12 44, sl payload 44 76, payload.getD 76 0, payload.drop 77, ?_, ?_, ?_, ?_, ?_⟩
    · simpa using rd_lt payload 0 8
    · simpa using rd_lt payload 8 4
    · rw [sl_length_of_le (by omega)]
    · rw [sl_length_of_le (by omega)]
    · rw [natLE_sl _ _ _ (by omega), natLE_sl _ _ _ (by omega), getD_sl _ _ (by omega), ← List.append_assoc,
        ← sl_split _ _ _ _ (by omega) (by omega), ← sl_split _ _ _ _ (by omega) (by omega),
        ← sl_split _ _ _ _ (by omega) (by omega), ← sl_split _ _ _ _ (by omega) (by omega)]
      simp [sl]

/-- The stored form of a public key is its SEC1 compression: 2 for an even and 3 for an odd y coordinate (big endian), then the x coordinate. -/
theorem C31_compressed (x y : Bytes) (hx : x.length = 32) (hy : y.length = 32) :
    compressKey (x ++ y) = (if beNat y % 2 = 0 then 2 else 3) :: x := by
  have h1 : sl (x ++ y) 0 32 = x := by rw [← hx]; simp [sl]
  have h2 : beNat y % 2 = ((x ++ y).getD 63 0).toNat % 2 := by
    have e : (x ++ y).getD 63 0 = y.reverse.headD 0 := by
      rw [List.getD_eq_getElem?_getD, List.getElem?_append_right (by omega), hx, List.headD_eq_head?_getD, List.head?_reverse,
        List.getLast?_eq_getElem?, hy]
    rw [e]
    unfold beNat
    cases y.reverse with
    | nil => rfl
    | cons b bs => simp only [leNat, List.headD_cons]; omega
  unfold compressKey
  rw [h1, h2]

example : compressKey (List.replicate 32 7 ++ List.replicate 31 5 ++ [9]) = 3 :: List.replicate 32 7 := by decide

/-- Signatures are not malleable: when `(r, s)` is accepted, the other signature `(r, order - s)` for the same message is refused by every
Secp256k1 role. -/
theorem C31_not_malleable (env env' : Env) (a a' : Auth) (pk pad pk' pad' : Bytes) (n n' : Nat) (metas metas' : List Meta)
    (sysvar data b sysvar' data' b' : Bytes) (slot counter slot' counter' : Nat) (r s s' : Bytes) (v v' : UInt8) (pfx pfx' : Bytes)
    (hw : a.WF) (hc : a.cred = .secp256k1 pk pad n) (hslot : slot < 2 ^ 64) (hcnt : counter < 2 ^ 32)
    (hw' : a'.WF) (hc' : a'.cred = .secp256k1 pk' pad' n') (hslot' : slot' < 2 ^ 64) (hcnt' : counter' < 2 ^ 32)
    (hr : r.length = 32) (hs : s.length = 32) (hs' : s'.length = 32) (hneg : beNat s' = secpN - beNat s)
    (h : authenticate env a.ty a.encode metas sysvar (natLE 8 slot ++ natLE 4 counter ++ (r ++ s) ++ [v] ++ pfx) data = .ok b) :
    authenticate env' a'.ty a'.encode metas' sysvar' (natLE 8 slot' ++ natLE 4 counter' ++ (r ++ s') ++ [v'] ++ pfx') data' ≠ .ok b' := by
  have h1 := (C31_secp256k1 env a pk pad n metas sysvar data b slot counter r s v pfx hw hc hslot hcnt hr hs).mp h
  intro h'
  have h2 := (C31_secp256k1 env' a' pk' pad' n' metas' sysvar' data' b' slot' counter' r s' v' pfx' hw' hc' hslot' hcnt' hr hs').mp h'
  have e1 := h1.2.2.2.2.2.1
  have e2 := h2.2.2.2.2.2.1
  rw [hneg] at e2
  unfold secpN at e1 e2
  omega

/-- C29 for Secp256k1: a stated slot in the future or more than 60 slots in the past is refused. -/
theorem C29_secp256k1_age (env : Env) (a : Auth) (pk pad : Bytes) (n : Nat) (metas : List Meta) (sysvar payload data b : Bytes)
    (hw : a.WF) (hc : a.cred = .secp256k1 pk pad n)
    (hold : env.slot < rd payload 0 8 ∨ rd payload 0 8 + 60 < env.slot) :
    authenticate env a.ty a.encode metas sysvar payload data ≠ .ok b := by
  intro h
  obtain ⟨slot, counter, r, s, v, pfx, h1, h2, h3, h4, rfl⟩ := C31_secp256k1_shape env a pk pad n metas sysvar payload data b hc h
  have := (C31_secp256k1 env a pk pad n metas sysvar data b slot counter r s v pfx hw hc h1 h2 h3 h4).mp h
  have f1 : rd (natLE 8 slot ++ natLE 4 counter ++ (r ++ s) ++ [v] ++ pfx) 0 8 = slot := by
    have := rd_full 8 slot (by simpa using h1) [] (natLE 4 counter ++ (r ++ s) ++ [v] ++ pfx) (i := 0) rfl
    simpa [List.append_assoc] using this
  rw [f1] at hold
  omega

/-! ### Secp256r1 -/

theorem verifyR1Data_layout {d key msg : Bytes} (h : verifyR1Data d key msg = .ok ()) : R1Layout d key msg := by
  unfold verifyR1Data at h
  by_cases h0 : d.length < 16
  · simp only [if_pos h0] at h; cases h
  by_cases h1 : (d.getD 0 0).toNat ≠ 1
  · simp only [if_neg h0, if_pos h1] at h; cases h
  by_cases hb : d.length < 113 + 32
  · simp only [if_neg h0, if_neg h1, if_pos hb] at h; cases h
  by_cases h2 : rd d 4 2 ≠ 0xFFFF
  · simp only [if_neg h0, if_neg h1, if_neg hb, if_pos h2] at h; cases h
  by_cases h3 : rd d 8 2 ≠ 0xFFFF
  · simp only [if_neg h0, if_neg h1, if_neg hb, if_neg h2, if_pos h3] at h; cases h
  by_cases h4 : rd d 14 2 ≠ 0xFFFF
  · simp only [if_neg h0, if_neg h1, if_neg hb, if_neg h2, if_neg h3, if_pos h4] at h; cases h
  by_cases h5 : rd d 6 2 ≠ 16
  · simp only [if_neg h0, if_neg h1, if_neg hb, if_neg h2, if_neg h3, if_neg h4, if_pos h5] at h; cases h
  by_cases h6 : rd d 10 2 ≠ 113
  · simp only [if_neg h0, if_neg h1, if_neg hb, if_neg h2, if_neg h3, if_neg h4, if_neg h5, if_pos h6] at h; cases h
  by_cases h7 : rd d 12 2 ≠ msg.length
  · simp only [if_neg h0, if_neg h1, if_neg hb, if_neg h2, if_neg h3, if_neg h4, if_neg h5, if_neg h6, if_pos h7] at h; cases h
  simp only [if_neg h0, if_neg h1, if_neg hb, if_neg h2, if_neg h3, if_neg h4, if_neg h5, if_neg h6, if_neg h7] at h
  obtain ⟨m, hm, h⟩ := bind_ok_iff.mp h
  obtain ⟨_, _, hm⟩ := slice_eq_ok hm
  subst hm
  by_cases h8 : sl d 16 49 ≠ key
  · rw [if_pos h8] at h; cases h
  rw [if_neg h8] at h
  by_cases h9 : sl d 113 (113 + msg.length) ≠ msg
  · rw [if_pos h9] at h; cases h
  refine ⟨?_, Decidable.of_not_not h2, Decidable.of_not_not h3, Decidable.of_not_not h4, ?_, ?_⟩
  · have h1 := Decidable.of_not_not h1
    match d, h0, h1 with
    | [], h0, _ => exact absurd (by decide) h0
    | x :: xs, _, h1 => exact congrArg some (UInt8.toNat_inj.mp h1)
  · rw [Decidable.of_not_not h5]; exact Decidable.of_not_not h8
  · rw [Decidable.of_not_not h6, Decidable.of_not_not h7]; exact Decidable.of_not_not h9

/-- The message a Secp256r1 role requires to have been signed: the hash itself, or a WebAuthn message built from it. -/
theorem r1Core_ok {env : Env} {key data : Bytes} {slot : Nat} {metas : List Meta} {ixs : List TxIx} {cur : Nat} {idx counter : Nat} {extra : Bytes}
    (hx : TxOk ixs cur) (h : r1Core env key data slot metas (sysvarEncode ixs cur) idx counter extra = .ok ()) :
    (slot ≤ env.slot ∧ env.slot ≤ slot + 60) ∧ metas.length ≤ 64 ∧
    ∃ msg ix i, r1Message env (env.keccak (signedMessage data metas slot counter)) extra = .ok msg ∧
      i + 1 = cur ∧ ixs[i]? = some ix ∧ ix.program = secp256r1Id ∧ R1Layout ix.data key msg := by
  unfold r1Core at h
  split at h
  · cases h
  · rename_i hf
    have hf : fresh slot env.slot := Decidable.of_not_not hf
    obtain ⟨hash, hh, h'⟩ := bind_ok_iff.mp h
    obtain ⟨msg, hm, h''⟩ := bind_ok_iff.mp h'
    obtain ⟨m, _, h3⟩ := bind_ok_iff.mp h''
    clear h h' h''
    revert h3; intro h
    split at h
    · cases h
    · rw [sysCurrent_enc hx, ok_bind] at h
      split at h
      · cases h
      · rename_i hc0
        unfold r1Hash at hh
        split at hh
        · cases hh
        · rename_i hml
          injection hh with hh
          subst hh
          have hlt : cur - 1 < ixs.length := by have := hx.inTx; omega
          have hsplit : ixs = ixs.take (cur - 1) ++ ixs[cur - 1] :: ixs.drop (cur - 1 + 1) := by
            rw [List.getElem_cons_drop, List.take_append_drop]
          have htl : (ixs.take (cur - 1)).length = cur - 1 := by simp; omega
          have hx' : TxOk (ixs.take (cur - 1) ++ ixs[cur - 1] :: ixs.drop (cur - 1 + 1)) cur := by rw [← hsplit]; exact hx
          obtain ⟨pre, post, he, ho, _⟩ := sysIxOff_enc hx'
          rw [htl, ← hsplit] at ho
          rw [← hsplit] at he
          rw [ho, ok_bind] at h
          obtain ⟨g1, g2, g3⟩ := ix_fields hx'.ix pre post
          rw [he, g1, ok_bind] at h
          split at h
          · cases h
          · rename_i hp
            rw [g2, ok_bind] at h
            simp only at h
            rw [g3, ok_bind] at h
            unfold fresh at hf
            refine ⟨by omega, by omega, msg, ixs[cur - 1], cur - 1, hm, by omega, ?_, by simpa using hp, verifyR1Data_layout h⟩
            exact List.getElem?_eq_getElem hlt

/-- Secp256r1 roles: an authentication is accepted only if the instruction just before in the transaction is a call of the
secp256r1 precompile whose offsets designate the stored key and the expected message; the expected message comes from the hash of the signed
message (payload, accounts, slot, counter), the slot is at most 60 slots old, the counter is the next one. -/
theorem C31_secp256r1 (env : Env) (a : Auth) (pk pad : Bytes) (n : Nat) (metas : List Meta) (ixs : List TxIx) (cur : Nat) (payload data b : Bytes)
    (hw : a.WF) (hc : a.cred = .secp256r1 pk pad n) (hx : TxOk ixs cur)
    (h : authenticate env a.ty a.encode metas (sysvarEncode ixs cur) payload data = .ok b) :
    b = ({ a with cred := .secp256r1 pk pad ((n + 1) % 2 ^ 32) } : Auth).encode ∧
    17 ≤ payload.length ∧ rd payload 8 4 = (n + 1) % 2 ^ 32 ∧
    (rd payload 0 8 ≤ env.slot ∧ env.slot ≤ rd payload 0 8 + 60) ∧ metas.length ≤ 64 ∧
    ∃ msg ix i, r1Message env (env.keccak (data ++ accountRecords metas ++ natLE 8 (rd payload 0 8) ++ natLE 4 (rd payload 8 4)))
        (payload.drop 17) = .ok msg ∧
      i + 1 = cur ∧ ixs[i]? = some ix ∧ ix.program = secp256r1Id ∧ R1Layout ix.data pk msg := by
  have hstep := C28_step a pk n ⟨env, metas, sysvarEncode ixs cur, payload, data⟩ b hw (by rw [hc]; rfl) h
  obtain ⟨hk, _, _⟩ := Cred.secp_fields hw.cred (pk := pk) (n := n) (by rw [hc]; rfl)
    (match a.session with | none => [] | some s => s.encode) 0
  change sl a.encode 0 33 = pk at hk
  rw [authenticate_secp256r1 hc] at h
  unfold r1Authenticate at h
  split at h
  · cases h
  · rename_i hl
    simp only at h
    split at h
    · cases h
    · obtain ⟨_, h1, _⟩ := bind_ok_iff.mp h
      rw [hk] at h1
      obtain ⟨g1, g2, g3⟩ := r1Core_ok hx h1
      refine ⟨?_, by omega, hstep.1, g1, g2, g3⟩
      rw [hstep.2, hc]
      rfl

/-- C29 for Secp256r1. -/
theorem C29_secp256r1_age (env : Env) (a : Auth) (pk pad : Bytes) (n : Nat) (metas : List Meta) (ixs : List TxIx) (cur : Nat) (payload data b : Bytes)
    (hw : a.WF) (hc : a.cred = .secp256r1 pk pad n) (hx : TxOk ixs cur)
    (hold : env.slot < rd payload 0 8 ∨ rd payload 0 8 + 60 < env.slot) :
    authenticate env a.ty a.encode metas (sysvarEncode ixs cur) payload data ≠ .ok b := by
  intro h
  have := (C31_secp256r1 env a pk pad n metas ixs cur payload data b hw hc hx h).2.2.2.1
  omega

/-! ### Program execution -/

private theorem exec_accepts (env : Env) (a : Auth) (program : Key) (plen : UInt8) (pad buf : Bytes) (metas : List Meta) (ixs : List TxIx) (cur : Nat)
    (payload data b : Bytes) (hw : a.WF) (hc : a.cred = .exec program plen pad buf) (hx : TxOk ixs cur)
    (h : authenticate env a.ty a.encode metas (sysvarEncode ixs cur) payload data = .ok b) :
    b = a.encode ∧ ∃ i ix config wallet, i < cur ∧ ixs[i]? = some ix ∧ metas[0]? = some config ∧ metas[1]? = some wallet ∧
      ix.program = program ∧ plen.toNat ≤ ix.data.length ∧ ix.data.take plen.toNat = buf.take plen.toNat ∧ (2 ≤ ix.data.length → 2 ≤ rd ix.data 0 2) ∧
      ((∃ m0 m1 rest, ix.accounts = m0 :: m1 :: rest ∧ m0.key = config.key ∧ m1.key = wallet.key) ∨
        config.key.take 31 = program.drop 1 ∨ wallet.key.take 31 = program.drop 1) := by
  rw [authenticate_exec hc] at h
  obtain ⟨_, h', hb⟩ := bind_ok_iff.mp h
  clear h
  cases hb
  revert h'; intro h
  refine ⟨rfl, ?_⟩
  have hwc := hw.cred
  rw [hc] at hwc
  obtain ⟨hpl, hpadl, hbl⟩ := hwc
  obtain ⟨rest, hrest⟩ : ∃ rest, a.encode = program ++ [plen] ++ pad ++ buf ++ rest :=
    ⟨_, by unfold Auth.encode; rw [hc]; rfl⟩
  have f1 : sl a.encode 0 32 = program := by
    rw [hrest]; simp only [List.append_assoc]
    rw [sl_left _ _ _ _ (by omega), ← hpl, sl_full]
  have f2 : a.encode.getD 32 0 = plen := by
    rw [hrest]; simp [List.getD, hpl]
  have f3 : sl a.encode 40 80 = buf := by
    rw [hrest]
    have := sl_mid (program ++ [plen] ++ pad) buf rest (i := 40) (j := 80) (by simp [hpl, hpadl]) (by simp [hpl, hpadl, hbl])
    simpa [List.append_assoc] using this
  unfold execAuthenticate at h
  split at h
  · cases h
  · rw [f1, f2, f3] at h
    generalize (if payload.length = 2 then some (payload.getD 1 0).toNat else none) = target at h
    unfold programExecAuth at h
    obtain ⟨m, _, h⟩ := bind_ok_iff.mp h
    split at h
    · cases h
    · obtain ⟨config, hcfg, h⟩ := bind_ok_iff.mp h
      obtain ⟨wallet, hwal, h⟩ := bind_ok_iff.mp h
      rw [sysCurrent_enc hx, ok_bind] at h
      obtain ⟨i, hi, h⟩ := bind_ok_iff.mp h
      have hcur : i < cur := by
        unfold execTarget at hi
        simp only at hi
        split at hi
        · split at hi
          · cases hi
          · cases hi; omega
        · split at hi
          · cases hi
          · cases hi; omega
      have hlt : i < ixs.length := by have := hx.inTx; omega
      have hsplit : ixs = ixs.take i ++ ixs[i] :: ixs.drop (i + 1) := by
        rw [List.getElem_cons_drop, List.take_append_drop]
      have htl : (ixs.take i).length = i := by simp; omega
      have hx' : TxOk (ixs.take i ++ ixs[i] :: ixs.drop (i + 1)) cur := by rw [← hsplit]; exact hx
      obtain ⟨pre, post, he, ho, hpost⟩ := sysIxOff_enc hx'
      rw [htl, ← hsplit] at ho
      rw [← hsplit] at he
      rw [ho, ok_bind] at h
      have hix := hx'.ix
      obtain ⟨g1, g2, g3⟩ := ix_fields hix pre post
      rw [he, g2, ok_bind] at h
      simp only at h
      obtain ⟨na, hna, h⟩ := bind_ok_iff.mp h
      split at h
      · cases h
      · rename_i hna2
        rw [g1, ok_bind] at h
        split at h
        · cases h
        · rename_i hprog
          have hprog : ixs[i].program = program := Decidable.of_not_not hprog
          rw [g3, ok_bind] at h
          split at h
          · cases h
          · rename_i hdl
            obtain ⟨want, hwant, h⟩ := bind_ok_iff.mp h
            obtain ⟨_, hp40, rfl⟩ := slice_eq_ok hwant
            split at h
            · cases h
            · rename_i hpre
              have hpre := Decidable.of_not_not hpre
              obtain ⟨a0, ha0, h⟩ := bind_ok_iff.mp h
              obtain ⟨a1, ha1, h⟩ := bind_ok_iff.mp h
              split at h
              · cases h
              · rename_i hq0
                split at h
                · cases h
                · rename_i hq1
                  have hq0 : a0 = config.key := Decidable.of_not_not hq0
                  have hq1 : a1 = wallet.key := Decidable.of_not_not hq1
                  have hgc : metas[0]? = some config := by
                    unfold getOr at hcfg; split at hcfg
                    · rename_i h; cases hcfg; exact h
                    · cases hcfg
                  have hgw : metas[1]? = some wallet := by
                    unfold getOr at hwal; split at hwal
                    · rename_i h; cases hwal; exact h
                    · cases hwal
                  refine ⟨i, ixs[i], config, wallet, hcur, List.getElem?_eq_getElem hlt, hgc, hgw, hprog, by omega, ?_, ?_, ?_⟩
                  · simpa [sl] using hpre
                  · intro h2d
                    rw [ix_data_u16 hix pre post h2d] at hna
                    cases hna
                    omega
                  · match hacc : ixs[i].accounts with
                    | m0 :: m1 :: rest =>
                      left
                      have e0 := ix_meta hix pre post (j := 0) (m := m0) (by rw [hacc]; rfl)
                      have e1 := ix_meta hix pre post (j := 1) (m := m1) (by rw [hacc]; rfl)
                      rw [e0] at ha0; rw [e1] at ha1
                      cases ha0; cases ha1
                      exact ⟨m0, m1, rest, rfl, hq0, hq1⟩
                    | [] =>
                      right; left
                      unfold sysMetaKey at ha0
                      unfold slU at ha0
                      split at ha0
                      · cases ha0
                        rw [← hq0, ← hprog]
                        have hpl' : ixs[i].program.length = 32 := hix.program
                        have e := sl_append3 pre ixs[i].encode post 3 35 (by omega)
                          (by simp [TxIx.encode, hacc, hpl']; omega)
                        have e' : sl (pre ++ (ixs[i].encode ++ post)) (pre.length + 2 + 33 * 0 + 1) (pre.length + 2 + 33 * 0 + 33) =
                            sl ixs[i].encode 3 35 := e
                        rw [e']
                        have e2 : ixs[i].encode = natLE 2 0 ++ (ixs[i].program ++ (natLE 2 ixs[i].data.length ++ ixs[i].data)) := by
                          simp [TxIx.encode, hacc]
                        rw [e2]
                        unfold sl
                        rw [List.take_take]
                        have e3 : (natLE 2 0 ++ (ixs[i].program ++ (natLE 2 ixs[i].data.length ++ ixs[i].data))).drop 3 =
                            ixs[i].program.drop 1 ++ (natLE 2 ixs[i].data.length ++ ixs[i].data) := by
                          rw [List.drop_append]
                          simp only [natLE_length]
                          rw [List.drop_eq_nil_of_le (by simp), List.nil_append, List.drop_append_of_le_length (by omega)]
                        rw [e3]
                        have e4 : min 31 (35 - 3) = (ixs[i].program.drop 1).length := by simp [hpl']
                        rw [e4, List.take_left]
                      · cases ha0
                    | [m0] =>
                      right; right
                      unfold sysMetaKey at ha1
                      unfold slU at ha1
                      split at ha1
                      · cases ha1
                        rw [← hq1, ← hprog]
                        have hpl' : ixs[i].program.length = 32 := hix.program
                        have hmk : m0.key.length = 32 := hix.accounts m0 (by rw [hacc]; simp)
                        have e := sl_append3 pre ixs[i].encode post 36 68 (by omega)
                          (by simp [TxIx.encode, hacc, hpl', hmk]; omega)
                        have e' : sl (pre ++ (ixs[i].encode ++ post)) (pre.length + 2 + 33 * 1 + 1) (pre.length + 2 + 33 * 1 + 33) =
                            sl ixs[i].encode 36 68 := e
                        rw [e']
                        have e2 : ixs[i].encode = (natLE 2 1 ++ (UInt8.ofNat ((if m0.signer then 1 else 0) + (if m0.writable then 2 else 0)) :: m0.key)) ++
                            (ixs[i].program ++ (natLE 2 ixs[i].data.length ++ ixs[i].data)) := by
                          simp [TxIx.encode, hacc]
                        rw [e2]
                        unfold sl
                        rw [List.take_take]
                        have hl35 : (natLE 2 1 ++ (UInt8.ofNat ((if m0.signer then 1 else 0) + (if m0.writable then 2 else 0)) :: m0.key)).length = 35 := by
                          simp [hmk]
                        rw [List.drop_append, hl35, List.drop_eq_nil_of_le (by omega), List.nil_append,
                          List.drop_append_of_le_length (by omega)]
                        have e4 : min 31 (68 - 36) = (ixs[i].program.drop (36 - 35)).length := by simp [hpl']
                        rw [e4, List.take_left]
                      · cases ha1

/-- Program-exec roles: accepted only if an earlier instruction of the same transaction was executed by the stored program, its data starts
with the stored prefix, and its first two accounts are the wallet's configuration account and address (the first two accounts of the
instruction being authorised).  The code does not check that the earlier instruction has two accounts; with fewer, it compares
other bytes, which can only match when 31 bytes of the program id coincide with one of the two addresses. -/
theorem C31_program_exec (env : Env) (a : Auth) (program : Key) (plen : UInt8) (pad buf : Bytes) (metas : List Meta) (ixs : List TxIx) (cur : Nat)
    (payload data b : Bytes) (hw : a.WF) (hc : a.cred = .exec program plen pad buf) (hx : TxOk ixs cur)
    (h : authenticate env a.ty a.encode metas (sysvarEncode ixs cur) payload data = .ok b) :
    b = a.encode ∧ ∃ i ix config wallet, i < cur ∧ ixs[i]? = some ix ∧ metas[0]? = some config ∧ metas[1]? = some wallet ∧
      ix.program = program ∧ plen.toNat ≤ ix.data.length ∧ ix.data.take plen.toNat = buf.take plen.toNat ∧
      ((∃ m0 m1 rest, ix.accounts = m0 :: m1 :: rest ∧ m0.key = config.key ∧ m1.key = wallet.key) ∨
        config.key.take 31 = program.drop 1 ∨ wallet.key.take 31 = program.drop 1) := by
  obtain ⟨h1, i, ix, config, wallet, h2, h3, h4, h5, h6, h7, h8, _, h9⟩ :=
    exec_accepts env a program plen pad buf metas ixs cur payload data b hw hc hx h
  exact ⟨h1, i, ix, config, wallet, h2, h3, h4, h5, h6, h7, h8, h9⟩

/-! Worked cases: a transaction whose first instruction is a precompile call (or a call by the stored program) and whose second one is being
executed. -/
section
private def pkR : Bytes := 3 :: List.replicate 32 8
private def r1Auth : Auth := ⟨.secp256r1 pkR (zeros 3) 0, none⟩
private def envR : Env := ⟨20, fun n => (n + 128) * 6960, fun _ => none, fun b => b.take 32, fun b => b.take 32, fun _ _ _ => none, 1⟩
private def swigK : Key := List.replicate 32 1
private def walletK : Key := List.replicate 32 2
private def metasR : List Meta := [⟨swigK, false, true⟩, ⟨walletK, false, true⟩, ⟨instructionsSysvarId, false, false⟩]
private def dataR : Bytes := List.replicate 40 5
/-- One signature, all offsets pointing into the instruction: key at 16, signature at 49, message of 32 bytes at 113. -/
private def precompile : TxIx :=
  ⟨secp256r1Id, [], [1, 0] ++ natLE 2 49 ++ natLE 2 0xFFFF ++ natLE 2 16 ++ natLE 2 0xFFFF ++ natLE 2 113 ++ natLE 2 32 ++ natLE 2 0xFFFF ++
    pkR ++ List.replicate 64 9 ++ List.replicate 32 5⟩
private def swigIx : TxIx := ⟨swigId, metasR, [11, 0]⟩

set_option maxRecDepth 8000 in
example : authenticate envR r1Auth.ty r1Auth.encode metasR (sysvarEncode [precompile, swigIx] 1)
    (natLE 8 10 ++ natLE 4 1 ++ [2] ++ zeros 4) dataR = .ok (⟨.secp256r1 pkR (zeros 3) 1, none⟩ : Auth).encode := by decide

private def prog : Key := List.replicate 32 77
private def execAuth : Auth := ⟨.exec prog 3 (zeros 7) ([5, 6, 7] ++ zeros 37), none⟩
private def called : TxIx := ⟨prog, [⟨swigK, false, true⟩, ⟨walletK, false, true⟩], [5, 6, 7, 8]⟩

set_option maxRecDepth 8000 in
example : authenticate envR execAuth.ty execAuth.encode metasR (sysvarEncode [called, swigIx] 1) [2] dataR = .ok execAuth.encode := by decide
set_option maxRecDepth 8000 in
example : TxOk [called, swigIx] 1 := ⟨by decide, by decide, by decide⟩
end

/-! ## C62: program-exec roles are usable

Full claim: whenever the referenced earlier instruction was executed by the stored program, starts with the stored prefix and has the two
wallet accounts first, authentication succeeds.  It is false of the code, which reads the "number of accounts" from the first two bytes
of the instruction data. -/

/-- Disagreement: a role whose prefix starts with the bytes `0 0` or `1 0` never authenticates, in any transaction. -/
theorem C62_some_prefixes_never_work (env : Env) (a : Auth) (program : Key) (plen : UInt8) (pad buf : Bytes) (metas : List Meta) (ixs : List TxIx)
    (cur : Nat) (payload data b : Bytes) (hw : a.WF) (hc : a.cred = .exec program plen pad buf) (hx : TxOk ixs cur)
    (hlen : 2 ≤ plen.toNat) (hsmall : rd buf 0 2 < 2) :
    authenticate env a.ty a.encode metas (sysvarEncode ixs cur) payload data ≠ .ok b := by
  intro h
  obtain ⟨_, i, ix, config, wallet, _, _, _, _, _, h7, h8, h9, _⟩ :=
    exec_accepts env a program plen pad buf metas ixs cur payload data b hw hc hx h
  have h2 : 2 ≤ ix.data.length := by omega
  have h3 := h9 h2
  have e : rd ix.data 0 2 = rd buf 0 2 := by
    have e1 : ∀ l : Bytes, sl l 0 2 = (l.take plen.toNat).take 2 := by
      intro l; simp only [sl, List.drop_zero, List.take_take]; congr 1; omega
    unfold rd
    simp only [Nat.zero_add]
    rw [e1, e1 buf, h8]
  omega

/-- Part that holds: the claim with the extra condition that the first two data bytes, read as a number, are at least 2. -/
theorem C62_usable_partial (env : Env) (a : Auth) (program : Key) (plen : UInt8) (pad buf : Bytes) (metas : List Meta) (ixs : List TxIx)
    (cur : Nat) (s t : UInt8) (data : Bytes) (ix : TxIx) (config wallet m0 m1 sys : Meta) (rest : List Meta)
    (hw : a.WF) (hc : a.cred = .exec program plen pad buf) (hx : TxOk ixs cur)
    (hsys : metas[s.toNat]? = some sys) (hsysK : sys.key = instructionsSysvarId)
    (hcfg : metas[0]? = some config) (hwal : metas[1]? = some wallet)
    (hcur : t.toNat < cur) (hix : ixs[t.toNat]? = some ix) (hprog : ix.program = program)
    (hacc : ix.accounts = m0 :: m1 :: rest) (h0 : m0.key = config.key) (h1 : m1.key = wallet.key)
    (hplen : plen.toNat ≤ 40) (hdl : plen.toNat ≤ ix.data.length) (hpre : ix.data.take plen.toNat = buf.take plen.toNat)
    (hbug : 2 ≤ ix.data.length ∧ 2 ≤ rd ix.data 0 2) :
    authenticate env a.ty a.encode metas (sysvarEncode ixs cur) [s, t] data = .ok a.encode := by
  rw [authenticate_exec hc]
  have hwc := hw.cred
  rw [hc] at hwc
  obtain ⟨hpl, hpadl, hbl⟩ := hwc
  obtain ⟨rest', hrest⟩ : ∃ rest, a.encode = program ++ [plen] ++ pad ++ buf ++ rest :=
    ⟨_, by unfold Auth.encode; rw [hc]; rfl⟩
  have f1 : sl a.encode 0 32 = program := by
    rw [hrest]; simp only [List.append_assoc]
    rw [sl_left _ _ _ _ (by omega), ← hpl, sl_full]
  have f2 : a.encode.getD 32 0 = plen := by
    rw [hrest]; simp [List.getD, hpl]
  have f3 : sl a.encode 40 80 = buf := by
    rw [hrest]
    have := sl_mid (program ++ [plen] ++ pad) buf rest' (i := 40) (j := 80) (by simp [hpl, hpadl]) (by simp [hpl, hpadl, hbl])
    simpa [List.append_assoc] using this
  obtain ⟨hlt, hix'⟩ := List.getElem?_eq_some_iff.mp hix
  have hsplit : ixs = ixs.take t.toNat ++ ix :: ixs.drop (t.toNat + 1) := by
    rw [← hix', List.getElem_cons_drop, List.take_append_drop]
  have htl : (ixs.take t.toNat).length = t.toNat := by simp; omega
  have hx' : TxOk (ixs.take t.toNat ++ ix :: ixs.drop (t.toNat + 1)) cur := by rw [← hsplit]; exact hx
  obtain ⟨pre, post, he, ho, _⟩ := sysIxOff_enc hx'
  rw [htl, ← hsplit] at ho
  rw [← hsplit] at he
  have hok := hx'.ix
  obtain ⟨g1, g2, g3⟩ := ix_fields hok pre post
  have e0 := ix_meta hok pre post (j := 0) (m := m0) (by rw [hacc]; rfl)
  have e1 := ix_meta hok pre post (j := 1) (m := m1) (by rw [hacc]; rfl)
  have e2 := ix_data_u16 hok pre post hbug.1
  have key : execAuthenticate a.encode metas (sysvarEncode ixs cur) [s, t] = .ok () := by
    unfold execAuthenticate
    rw [if_neg (by simp), f1, f2, f3]
    unfold programExecAuth
    have q0 : getOr metas (List.getD [s, t] 0 0).toNat E.au_invalidAuthorityPayload = .ok sys := by
      simp [getOr, hsys]
    have q1 : getOr metas 0 E.au_invalidAuthorityPayload = .ok config := by simp [getOr, hcfg]
    have q2 : getOr metas 1 E.au_invalidAuthorityPayload = .ok wallet := by simp [getOr, hwal]
    have q3 : execTarget cur (if List.length [s, t] = 2 then some (List.getD [s, t] 1 0).toNat else none) = .ok t.toNat := by
      have : ¬ (t.toNat ≥ cur) := by omega
      simp [execTarget, this]
    rw [q0, ok_bind, if_neg (by simpa using hsysK), q1, ok_bind, q2, ok_bind, sysCurrent_enc hx, ok_bind, q3, ok_bind, ho, ok_bind,
      he, g2, ok_bind]
    simp only
    rw [e2, ok_bind, if_neg (by omega), g1, ok_bind, if_neg (by simpa using hprog), g3, ok_bind, if_neg (by omega),
      slice_ok (by omega) (by omega), ok_bind, if_neg (by simpa [sl] using hpre), e0, ok_bind, e1, ok_bind,
      if_neg (by simpa using h0), if_neg (by simpa using h1)]
  rw [key, ok_bind]

section
private def prog2 : Key := List.replicate 32 77
private def badExec : Auth := ⟨.exec prog2 3 (zeros 7) ([1, 0, 7] ++ zeros 37), none⟩
example : badExec.WF ∧ rd ([1, 0, 7] ++ zeros 37) 0 2 < 2 := ⟨⟨⟨by decide, by decide, by decide⟩, by intro s h; cases h⟩, by decide⟩
end

/-! ## C30: what the signed message binds -/

private theorem accountRecord_length (m : Meta) (h : m.key.length = 32) : (accountRecord m).length = 40 := by
  simp [accountRecord, h]

private theorem accountRecords_length (ms : List Meta) (h : ∀ m ∈ ms, m.key.length = 32) : (accountRecords ms).length = 40 * ms.length := by
  induction ms with
  | nil => rfl
  | cons m ms ih =>
    simp only [accountRecords, List.flatMap_cons, List.length_append, List.length_cons] at *
    rw [accountRecord_length m (h m (by simp)), ih (fun x hx => h x (by simp [hx]))]
    omega

private theorem accountRecord_inj (m m' : Meta) (h : m.key.length = 32) (h' : m'.key.length = 32) (e : accountRecord m = accountRecord m') :
    m = m' := by
  unfold accountRecord at e
  simp only [List.append_assoc] at e
  obtain ⟨e1, e2⟩ := List.append_inj e (by omega)
  simp only [List.cons_append, List.nil_append, List.cons.injEq, and_true] at e2
  obtain ⟨e3, e4⟩ := e2
  cases m with | mk k s w => cases m' with | mk k' s' w' =>
    simp only at e1 e3 e4
    subst e1
    cases s <;> cases s' <;> cases w <;> cases w' <;> simp at e3 e4 ⊢

private theorem accountRecords_inj : ∀ (ms ms' : List Meta), (∀ m ∈ ms, m.key.length = 32) → (∀ m ∈ ms', m.key.length = 32) →
    accountRecords ms = accountRecords ms' → ms = ms'
  | [], [], _, _, _ => rfl
  | [], m' :: ms', _, h', e => by
    have := congrArg List.length e
    rw [accountRecords_length [] (by simp), accountRecords_length _ h'] at this
    simp at this
  | m :: ms, [], h, _, e => by
    have := congrArg List.length e
    rw [accountRecords_length [] (by simp), accountRecords_length _ h] at this
    simp at this
  | m :: ms, m' :: ms', h, h', e => by
    simp only [accountRecords, List.flatMap_cons] at e
    obtain ⟨e1, e2⟩ := List.append_inj e (by rw [accountRecord_length m (h m (by simp)), accountRecord_length m' (h' m' (by simp))])
    rw [accountRecord_inj m m' (h m (by simp)) (h' m' (by simp)) e1,
      accountRecords_inj ms ms' (fun x hx => h x (by simp [hx])) (fun x hx => h' x (by simp [hx])) e2]

/-- The message determines slot and counter, and the concatenation of payload and account records. -/
theorem C30_slot_and_counter (d d' : Bytes) (ms ms' : List Meta) (slot slot' counter counter' : Nat)
    (hs : slot < 2 ^ 64) (hs' : slot' < 2 ^ 64) (hn : counter < 2 ^ 32) (hn' : counter' < 2 ^ 32)
    (h : signedMessage d ms slot counter = signedMessage d' ms' slot' counter') :
    slot = slot' ∧ counter = counter' ∧ d ++ accountRecords ms = d' ++ accountRecords ms' := by
  unfold signedMessage at h
  obtain ⟨h1, h2⟩ := List.append_inj' h (by simp)
  obtain ⟨h3, h4⟩ := List.append_inj' h1 (by simp)
  exact ⟨natLE_inj (by simpa using hs) (by simpa using hs') h4, natLE_inj (by simpa using hn) (by simpa using hn') h2, h3⟩

/-- Part of C30 that holds for all payloads: between requests with the same number of accounts everything is bound. -/
theorem C30_binds_partial (d d' : Bytes) (ms ms' : List Meta) (slot slot' counter counter' : Nat)
    (hs : slot < 2 ^ 64) (hs' : slot' < 2 ^ 64) (hn : counter < 2 ^ 32) (hn' : counter' < 2 ^ 32)
    (hk : ∀ m ∈ ms, m.key.length = 32) (hk' : ∀ m ∈ ms', m.key.length = 32) (hlen : ms.length = ms'.length)
    (h : signedMessage d ms slot counter = signedMessage d' ms' slot' counter') :
    d = d' ∧ ms = ms' ∧ slot = slot' ∧ counter = counter' := by
  obtain ⟨h1, h2, h3⟩ := C30_slot_and_counter d d' ms ms' slot slot' counter counter' hs hs' hn hn' h
  obtain ⟨h4, h5⟩ := List.append_inj' h3 (by rw [accountRecords_length _ hk, accountRecords_length _ hk', hlen])
  exact ⟨h4, accountRecords_inj _ _ hk hk' h5, h1, h2⟩

/-- The whole of C30, for payloads of a self-delimiting format (no payload of the format is a proper prefix of another). -/
theorem C30_binds_self_delimiting (S : Bytes → Prop) (hS : ∀ p q, S p → S q → p <+: q → p = q)
    (d d' : Bytes) (ms ms' : List Meta) (slot slot' counter counter' : Nat) (hd : S d) (hd' : S d')
    (hs : slot < 2 ^ 64) (hs' : slot' < 2 ^ 64) (hn : counter < 2 ^ 32) (hn' : counter' < 2 ^ 32)
    (hk : ∀ m ∈ ms, m.key.length = 32) (hk' : ∀ m ∈ ms', m.key.length = 32)
    (h : signedMessage d ms slot counter = signedMessage d' ms' slot' counter') :
    d = d' ∧ ms = ms' ∧ slot = slot' ∧ counter = counter' := by
  obtain ⟨h1, h2, h3⟩ := C30_slot_and_counter d d' ms ms' slot slot' counter counter' hs hs' hn hn' h
  have hdd : d = d' := by
    rcases List.prefix_or_prefix_of_prefix (List.prefix_append d (accountRecords ms)) (h3 ▸ List.prefix_append d' (accountRecords ms')) with p | p
    · exact hS d d' hd hd' p
    · exact (hS d' d hd' hd p).symm
  subst hdd
  exact ⟨rfl, accountRecords_inj _ _ hk hk' (List.append_cancel_left h3), h1, h2⟩

/-- Disagreement: without such a format the claim is false.  An account record moved into the payload gives the same message, so one
signature is accepted for two different requests. -/
theorem C30_ambiguous : ∃ (d d' : Bytes) (ms ms' : List Meta) (slot counter : Nat),
    (∀ m ∈ ms, m.key.length = 32) ∧ (∀ m ∈ ms', m.key.length = 32) ∧ d ≠ d' ∧ ms ≠ ms' ∧
    signedMessage d ms slot counter = signedMessage d' ms' slot counter :=
  ⟨[1], [1] ++ accountRecord ⟨List.replicate 32 2, false, true⟩,
    [⟨List.replicate 32 2, false, true⟩, ⟨List.replicate 32 3, true, true⟩], [⟨List.replicate 32 3, true, true⟩], 5, 6,
    by decide, by decide, by decide, by decide, by decide⟩

/-- In general: the first account of a request can be moved into the payload. -/
theorem C30_ambiguous_always (env : Env) (auth payload d : Bytes) (m : Meta) (ms : List Meta) (hl : ms.length < 64) :
    k1Authenticate env auth (m :: ms) payload d = k1Authenticate env auth ms payload (d ++ accountRecord m) := by
  have e : ∀ s c, signedMessage d (m :: ms) s c = signedMessage (d ++ accountRecord m) ms s c := by
    intro s c; simp [signedMessage, accountRecords]
  have h1 : ¬ (m :: ms).length > 64 := by simp; omega
  have h2 : ¬ ms.length > 64 := by omega
  unfold k1Authenticate k1Core k1Hash
  simp only [e, if_neg h1, if_neg h2]

end Verif
