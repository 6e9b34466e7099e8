import Verif.Spec.Ops
import Verif.Proofs.Layout
import Verif.Proofs.Roles
import Verif.Proofs.Auth

/-! The stored credential of a new role is the one described by `initialAuth`. -/

namespace Verif

theorem compressKey_length (b : Bytes) (h : 32 ≤ b.length) : (compressKey b).length = 33 := by
  unfold compressKey
  simp [sl_length]
  omega

theorem sl_zeros_part {old : Bytes} {n i j : Nat} (hz : sl old n old.length = zeros (old.length - n)) (h1 : n ≤ i) (h2 : i ≤ j)
    (h3 : j ≤ old.length) : sl old i j = zeros (j - i) := by
  have e : sl old i j = sl (sl old n old.length) (i - n) (j - n) := by
    rw [sl_sl _ _ _ _ _ (by omega)]
    congr 1 <;> omega
  rw [e, hz]
  unfold sl zeros
  rw [List.drop_replicate, List.take_replicate]
  congr 1
  omega

theorem natLE8_rd (c : Bytes) (i : Nat) (h : i + 8 ≤ c.length) : natLE 8 (rd c i 8) = sl c i (i + 8) := natLE_sl c i 8 h

theorem natLE_zero (k : Nat) : natLE k 0 = zeros k := by
  apply leNat_inj (by simp)
  rw [leNat_zeros, leNat_natLE]
  simp

theorem natLE8_zero : natLE 8 0 = zeros 8 := natLE_zero 8
theorem natLE4_zero : natLE 4 0 = zeros 4 := natLE_zero 4

/-- Storing a new credential over a region whose bytes from 24 on are zero. -/
theorem setAuthority_initial {ty al : Nat} {create old : Bytes} (hal : authLen ty = some al) (hold : old.length = al)
    (hz : sl old 24 al = zeros (al - 24)) (b : Bytes) :
    setAuthority ty create old = .ok b ↔ ∃ a, initialAuth ty create = some a ∧ a.encode = b := by
  subst hold
  have z : ∀ i j, 24 ≤ i → i ≤ j → j ≤ old.length → sl old i j = zeros (j - i) := fun i j => sl_zeros_part hz
  rcases authLen_cases hal with ⟨rfl, hn⟩ | ⟨rfl, hn⟩ | ⟨rfl, hn⟩ | ⟨rfl, hn⟩ | ⟨rfl, hn⟩ | ⟨rfl, hn⟩ | ⟨rfl, hn⟩ | ⟨rfl, hn⟩
  · rw [setAuthority1]
    show _ ↔ ∃ a, (if create.length = 32 then some _ else none) = some a ∧ _
    by_cases h : create.length = 32
    · simp [h, Auth.encode, Cred.encode]
    · simp [h]
  · rw [setAuthority2]
    show _ ↔ ∃ a, (if create.length = 72 then some _ else none) = some a ∧ _
    by_cases h : create.length = 72
    · rw [if_neg (by omega), if_pos h, z 72 80 (by omega) (by omega) (by omega)]
      have e : create = sl create 0 32 ++ (sl create 32 64 ++ sl create 64 72) := by
        rw [← sl_split _ _ _ _ (by omega) (by omega), ← sl_split _ _ _ _ (by omega) (by omega), ← h, sl_full]
      simp only [Auth.encode, Cred.encode, Session.encode, natLE8_rd create 64 (by omega), natLE8_zero, Option.some.injEq,
        exists_eq_left', Except.ok.injEq]
      rw [show sl create 0 32 ++ (sl create 32 64 ++ sl create 64 (64 + 8) ++ zeros 8) =
        (sl create 0 32 ++ (sl create 32 64 ++ sl create 64 72)) ++ zeros 8 by simp, ← e]
    · simp [h]
  · rw [setAuthority3]
    show _ ↔ ∃ a, (if create.length = 33 then some _ else if create.length = 64 then some _ else none) = some a ∧ _
    have z1 := z 33 36 (by omega) (by omega) (by omega)
    rw [z1]
    by_cases h : create.length = 33
    · simp [h, Auth.encode, Cred.encode, natLE4_zero]
    · by_cases h' : create.length = 64
      · simp [h', Auth.encode, Cred.encode, natLE4_zero]
      · simp [h, h']
  · rw [setAuthority4]
    show _ ↔ ∃ a, (if create.length = 104 then some _ else none) = some a ∧ _
    rw [z 33 36 (by omega) (by omega) (by omega), z 80 88 (by omega) (by omega) (by omega)]
    by_cases h : create.length = 104
    · rw [if_neg (by omega), if_pos h]
      simp only [Auth.encode, Cred.encode, Session.encode, natLE8_rd create 96 (by omega), natLE8_zero, natLE4_zero,
        Option.some.injEq, exists_eq_left', Except.ok.injEq]
      rw [sl_split create 64 96 104 (by omega) (by omega)]
      simp
    · simp [h]
  · rw [setAuthority5]
    show _ ↔ ∃ a, (if create.length = 33 then some _ else none) = some a ∧ _
    rw [z 33 36 (by omega) (by omega) (by omega)]
    by_cases h : create.length = 33
    · simp [h, Auth.encode, Cred.encode, natLE4_zero]
    · simp [h]
  · rw [setAuthority6]
    show _ ↔ ∃ a, (if create.length = 80 then some _ else none) = some a ∧ _
    rw [z 33 36 (by omega) (by omega) (by omega), z 80 88 (by omega) (by omega) (by omega)]
    by_cases h : create.length = 80
    · rw [if_neg (by omega), if_pos h]
      simp only [Auth.encode, Cred.encode, Session.encode, natLE8_rd create 72 (by omega), natLE8_zero, natLE4_zero,
        Option.some.injEq, exists_eq_left', Except.ok.injEq]
      rw [sl_split create 40 72 80 (by omega) (by omega)]
      simp
    · simp [h]
  · rw [setAuthority7]
    show _ ↔ ∃ a, (if create.length = 80 ∧ (create.getD 32 0).toNat ≤ 40 ∧ sl create 0 32 ≠ swigId then some _ else none) = some a ∧ _
    by_cases h : create.length = 80
    · by_cases h' : (create.getD 32 0).toNat ≤ 40
      · by_cases h'' : sl create 0 32 = swigId
        · rw [if_neg (by omega), if_neg (by omega), if_pos h'', if_neg (fun c => c.2.2 h'')]; simp
        · rw [if_neg (by omega), if_neg (by omega), if_neg h'', if_pos ⟨h, h', h''⟩,
            z 33 40 (by omega) (by omega) (by omega), z (40 + (create.getD 32 0).toNat) 80 (by omega) (by omega) (by omega)]
          simp only [Auth.encode, Cred.encode, Option.some.injEq, exists_eq_left', Except.ok.injEq]
          rw [sl_split create 0 32 33 (by omega) (by omega), ← getD_sl create 32 (by omega)]
          have e : 80 - (40 + (create.getD 32 0).toNat) = 40 - (create.getD 32 0).toNat := by omega
          rw [e]
          simp
      · rw [if_neg (by omega), if_pos (by omega), if_neg (fun c => h' c.2.1)]; simp
    · rw [if_pos h, if_neg (fun c => h c.1)]; simp
  · rw [setAuthority8]
    show _ ↔ ∃ a, (if create.length = 128 ∧ (create.getD 32 0).toNat ≤ 40 ∧ sl create 0 32 ≠ swigId then some _ else none) = some a ∧ _
    by_cases h : create.length = 128
    · by_cases h' : (create.getD 32 0).toNat ≤ 40
      · by_cases h'' : sl create 0 32 = swigId
        · rw [if_neg (by omega), if_neg (by omega), if_pos h'', if_neg (fun c => c.2.2 h'')]; simp
        · rw [if_neg (by omega), if_neg (by omega), if_neg h'', if_pos ⟨h, h', h''⟩, z 33 40 (by omega) (by omega) (by omega)]
          simp only [Auth.encode, Cred.encode, Session.encode, natLE8_rd create 112 (by omega), natLE8_zero, Option.some.injEq,
            exists_eq_left', Except.ok.injEq]
          rw [sl_split create 0 32 33 (by omega) (by omega), ← getD_sl create 32 (by omega),
            sl_split create 40 80 120 (by omega) (by omega), sl_split create 80 112 120 (by omega) (by omega)]
          simp
      · rw [if_neg (by omega), if_pos (by omega), if_neg (fun c => h' c.2.1)]; simp
    · rw [if_pos h, if_neg (fun c => h c.1)]; simp

/-- A created credential is well formed and of the requested type. -/
theorem initialAuth_wf {ty : Nat} {c : Bytes} {a : Auth} (h : initialAuth ty c = some a) : a.WF ∧ a.ty = ty := by
  have hz : zeros 3 = [0, 0, 0] := rfl
  unfold initialAuth at h
  split at h
  · split at h <;> cases h
    subst_vars
    exact ⟨⟨by assumption, by simp⟩, rfl⟩
  · split at h
    · split at h <;> cases h
      rename_i hl
      subst_vars
      have := rd_lt c 64 8
      exact ⟨⟨by simp [Cred.WF, sl_length, hl], fun s hs => by cases hs; exact ⟨by simp [sl_length, hl], by simpa using this, by simp⟩⟩, rfl⟩
    · split at h
      · split at h
        · cases h; rename_i hl; subst_vars
          exact ⟨⟨⟨hl, by simp, by simp⟩, by simp⟩, rfl⟩
        · split at h <;> cases h
          rename_i hl; subst_vars
          exact ⟨⟨⟨compressKey_length _ (by omega), by simp, by simp⟩, by simp⟩, rfl⟩
      · split at h
        · split at h <;> cases h
          rename_i hl; subst_vars
          have := rd_lt c 96 8
          refine ⟨⟨⟨?_, by simp, by simp⟩, fun s hs => by cases hs; exact ⟨by simp [sl_length, hl], by simpa using this, by simp⟩⟩, rfl⟩
          split
          · simp [sl_length, hl]
          · exact compressKey_length _ (by simp [sl_length, hl])
        · split at h
          · split at h <;> cases h
            rename_i hl; subst_vars
            exact ⟨⟨⟨hl, by simp, by simp⟩, by simp⟩, rfl⟩
          · split at h
            · split at h <;> cases h
              rename_i hl; subst_vars
              have := rd_lt c 72 8
              exact ⟨⟨⟨by simp [sl_length, hl], by simp, by simp⟩,
                fun s hs => by cases hs; exact ⟨by simp [sl_length, hl], by simpa using this, by simp⟩⟩, rfl⟩
            · split at h
              · split at h <;> cases h
                rename_i hl; subst_vars
                exact ⟨⟨⟨by simp [sl_length, hl.1], by simp, by simp [sl_length, hl.1]; omega⟩, by simp⟩, rfl⟩
              · split at h
                · split at h <;> cases h
                  rename_i hl; subst_vars
                  have := rd_lt c 112 8
                  exact ⟨⟨⟨by simp [sl_length, hl.1], by simp, by simp [sl_length, hl.1]⟩,
                    fun s hs => by cases hs; exact ⟨by simp [sl_length, hl.1], by simpa using this, by simp⟩⟩, rfl⟩
                · cases h

theorem initialAuth_length {ty : Nat} {c : Bytes} {a : Auth} (h : initialAuth ty c = some a) :
    authLen ty = some a.encode.length := by
  obtain ⟨h1, h2⟩ := initialAuth_wf h
  rw [← h2]; exact Auth.encode_length h1

end Verif
