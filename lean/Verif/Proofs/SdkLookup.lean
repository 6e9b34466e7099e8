import Verif.Spec.SdkClient
import Verif.Proofs.Auth
import Verif.Proofs.Layout
import Verif.Proofs.NewCred

/-! Lemmas about finding the role of a credential. -/

namespace Verif

theorem Auth.Named.long {a : Auth} {cred : Bytes} (h : a.Named cred) (hw : a.WF) : 32 ≤ cred.length := by
  have hc := hw.cred
  cases a with
  | mk c s =>
    cases c with
    | ed25519 pk => rw [show cred = pk from h]; exact Nat.le_of_eq (show pk.length = 32 from hc).symm
    | secp256k1 pk pad n =>
      rcases h with h | h
      · have : pk.length = 33 := hc.1
        rw [h]; omega
      · omega
    | secp256r1 pk pad n =>
      have : pk.length = 33 := hc.1
      rw [show cred = pk from h]; omega
    | exec p n pad buf =>
      have h1 : p.length = 32 := hc.1
      cases s with
      | none => have : cred.length = 80 := h.1; omega
      | some q => rw [show cred = p ++ [n] ++ buf.take n.toNat from h]; simp; omega

theorem ok_decide {p q : Prop} [Decidable p] [Decidable q] (h : p ↔ q) : (.ok (decide p) : R Bool) = .ok (decide q) := by
  rw [decide_eq_decide.mpr h]

theorem sl_take (b : Bytes) (n : Nat) : sl b 0 n = b.take n := by simp [sl]

/-- `match_data` decides whether the bytes name the stored authority. -/
theorem matchData_named {r : Role} {a : Auth} (h : r.Stores a) (hf : a.PrefixFits) (cred : Bytes) :
    Sdk.matchData r.authType r.auth cred = .ok (decide (a.Named cred)) := by
  obtain ⟨hw, ht, he⟩ := h
  have hc := hw.cred
  rw [← ht, ← he]
  cases a with
  | mk c s =>
    cases c with
    | ed25519 pk =>
      have hk : pk.length = 32 := hc
      have e : sl (Auth.encode ⟨.ed25519 pk, s⟩) 0 32 = pk := by
        show sl (pk ++ _) 0 32 = pk
        rw [sl_left _ _ _ _ (by omega), ← hk, sl_full]
      have t : Auth.ty ⟨.ed25519 pk, s⟩ = 1 ∨ Auth.ty ⟨.ed25519 pk, s⟩ = 2 := by cases s <;> simp [Auth.ty]
      simp only [Sdk.matchData, T.ed25519, T.ed25519Session]
      rw [if_pos t, e]
      exact ok_decide ⟨fun h => h.symm, fun h => Eq.symm h⟩
    | secp256k1 pk pad n =>
      have hk : pk.length = 33 := hc.1
      have e : sl (Auth.encode ⟨.secp256k1 pk pad n, s⟩) 0 33 = pk := by
        show sl (pk ++ pad ++ natLE 4 n ++ _) 0 33 = pk
        rw [List.append_assoc, List.append_assoc, sl_left _ _ _ _ (by omega), ← hk, sl_full]
      have t : Auth.ty ⟨.secp256k1 pk pad n, s⟩ = 3 ∨ Auth.ty ⟨.secp256k1 pk pad n, s⟩ = 4 := by cases s <;> simp [Auth.ty]
      simp only [Sdk.matchData, T.ed25519, T.ed25519Session, T.secp256k1, T.secp256k1Session]
      rw [if_neg (by omega), if_pos t, e]
      by_cases h33 : cred.length = 33
      · rw [if_pos h33]
        have : (pk = cred) ↔ (Auth.Named ⟨.secp256k1 pk pad n, s⟩ cred) := by
          simp only [Auth.Named]
          constructor
          · intro h; exact Or.inl h.symm
          · rintro (h | h)
            · exact h.symm
            · omega
        simp only [this]
      · rw [if_neg h33]
        have hne : cred ≠ pk := by rintro rfl; exact h33 hk
        by_cases h64 : cred.length = 64
        · rw [if_pos h64]
          simp only [Auth.Named, hne, h64, true_and, false_or, eq_comm]
        · rw [if_neg h64]
          simp [Auth.Named, hne, h64]
    | secp256r1 pk pad n =>
      have hk : pk.length = 33 := hc.1
      have e : sl (Auth.encode ⟨.secp256r1 pk pad n, s⟩) 0 33 = pk := by
        show sl (pk ++ pad ++ natLE 4 n ++ _) 0 33 = pk
        rw [List.append_assoc, List.append_assoc, sl_left _ _ _ _ (by omega), ← hk, sl_full]
      have t : Auth.ty ⟨.secp256r1 pk pad n, s⟩ = 5 ∨ Auth.ty ⟨.secp256r1 pk pad n, s⟩ = 6 := by cases s <;> simp [Auth.ty]
      simp only [Sdk.matchData, T.ed25519, T.ed25519Session, T.secp256k1, T.secp256k1Session, T.secp256r1, T.secp256r1Session]
      rw [if_neg (by omega), if_neg (by omega), if_pos t, e]
      by_cases h33 : cred.length = 33
      · rw [if_pos h33]
        exact ok_decide ⟨fun h => h.symm, fun h => Eq.symm h⟩
      · rw [if_neg h33]
        have hne : cred ≠ pk := by rintro rfl; exact h33 hk
        simp [Auth.Named, hne]
    | exec p n pad buf =>
      have h1 : p.length = 32 := hc.1
      have h2 : pad.length = 7 := hc.2.1
      have h3 : buf.length = 40 := hc.2.2
      have h4 : n.toNat ≤ 40 := hf p n pad buf rfl
      have e1 : sl (Auth.encode ⟨.exec p n pad buf, s⟩) 0 32 = p := by
        show sl (p ++ [n] ++ pad ++ buf ++ _) 0 32 = p
        rw [List.append_assoc, List.append_assoc, List.append_assoc, sl_left _ _ _ _ (by omega), ← h1, sl_full]
      have e2 : (Auth.encode ⟨.exec p n pad buf, s⟩).getD 32 0 = n := by
        show (p ++ [n] ++ pad ++ buf ++ _).getD 32 0 = n
        simp [List.getD, h1]
      have e3 : sl (Auth.encode ⟨.exec p n pad buf, s⟩) 40 80 = buf := by
        show sl (p ++ [n] ++ pad ++ buf ++ _) 40 80 = buf
        rw [List.append_assoc (p ++ [n] ++ pad)]
        exact sl_mid _ _ _ (by simp; omega) (by simp; omega)
      have b1 : slice buf 0 n.toNat = .ok (buf.take n.toNat) := by
        rw [slice_ok (Nat.zero_le _) (by omega), sl_take]
      cases s with
      | none =>
        have t : Auth.ty ⟨.exec p n pad buf, none⟩ = 7 := rfl
        simp only [Sdk.matchData, T.ed25519, T.ed25519Session, T.secp256k1, T.secp256k1Session, T.secp256r1, T.secp256r1Session,
          T.programExec]
        rw [if_neg (by omega), if_neg (by omega), if_neg (by omega), if_pos t, e1, e2, e3, sl_take]
        by_cases h80 : cred.length = 80
        · rw [if_neg (fun h => h h80)]
          by_cases hp : p = cred.take 32
          · rw [if_neg (fun h => h hp), b1, ok_bind, slice_ok (by omega) (by omega), ok_bind]
            have : sl cred 40 (40 + n.toNat) = (cred.drop 40).take n.toNat := by simp [sl]
            rw [this]
            simp only [Auth.Named, h80, hp.symm, true_and, eq_comm]
          · rw [if_pos hp]
            have : ¬ cred.take 32 = p := fun h => hp h.symm
            simp [Auth.Named, this]
        · rw [if_pos h80]
          simp [Auth.Named, h80]
      | some q =>
        have t : Auth.ty ⟨.exec p n pad buf, some q⟩ = 8 := rfl
        simp only [Sdk.matchData, T.ed25519, T.ed25519Session, T.secp256k1, T.secp256k1Session, T.secp256r1, T.secp256r1Session,
          T.programExec]
        rw [if_neg (by omega), if_neg (by omega), if_neg (by omega), if_neg (by omega), e1, e2, e3, sl_take]
        have named : Auth.Named ⟨.exec p n pad buf, some q⟩ cred ↔ cred = p ++ [n] ++ buf.take n.toNat := Iff.rfl
        have len : (p ++ [n] ++ buf.take n.toNat).length = 33 + n.toNat := by simp [h1, h3, h4]; omega
        by_cases g1 : cred.length < 33
        · rw [if_pos g1]
          have : ¬ Auth.Named ⟨.exec p n pad buf, some q⟩ cred := by
            rw [named]; rintro rfl; omega
          simp [this]
        rw [if_neg g1]
        by_cases g2 : cred.getD 32 0 = n
        · rw [if_neg (fun h => h g2), g2]
          by_cases g3 : cred.length = 33 + n.toNat
          · rw [if_neg (fun h => h g3)]
            have split : cred = cred.take 32 ++ [n] ++ cred.drop 33 := by
              have h5 : cred.drop 32 = cred.getD 32 0 :: cred.drop 33 := by
                rw [List.drop_eq_getElem_cons (by omega)]
                simp [List.getD, show 32 < cred.length by omega]
              rw [g2] at h5
              have h6 := List.take_append_drop 32 cred
              rw [h5] at h6
              simpa using h6.symm
            by_cases g4 : p = cred.take 32
            · rw [if_neg (fun h => h g4), b1, ok_bind, slice_ok (by omega) (by omega), ok_bind]
              have e5 : sl cred 33 (33 + n.toNat) = cred.drop 33 := by
                rw [← g3]
                simp only [sl]
                rw [List.take_of_length_le (by simp)]
              rw [e5]
              have : (buf.take n.toNat = cred.drop 33) ↔ Auth.Named ⟨.exec p n pad buf, some q⟩ cred := by
                rw [named]
                constructor
                · intro h; rw [h, g4]; exact split
                · intro h
                  rw [h, List.append_assoc, ← List.append_assoc, List.drop_append_of_le_length (by simp [h1])]
                  simp [h1]
              simp only [this]
            · rw [if_pos g4]
              have : ¬ Auth.Named ⟨.exec p n pad buf, some q⟩ cred := by
                rw [named]; intro h; apply g4; rw [h, List.append_assoc, List.take_append_of_le_length (by omega)]
                rw [List.take_of_length_le (by omega)]
              simp [this]
          · rw [if_pos g3]
            have : ¬ Auth.Named ⟨.exec p n pad buf, some q⟩ cred := by
              rw [named]; intro h; apply g3; rw [h]; exact len
            simp [this]
        · rw [if_pos g2]
          have : ¬ Auth.Named ⟨.exec p n pad buf, some q⟩ cred := by
            rw [named]; intro h; apply g2; rw [h]
            simp [List.getD, h1]
          simp [this]

/-- The authority a role stores. -/
theorem Role.WF.stores {r : Role} (h : r.WF) : ∃ a, r.Stores a := by
  obtain ⟨a, h1, h2, h3⟩ := Auth.decode r.authType r.auth h.auth
  exact ⟨a, h1, h2, h3⟩

theorem matchLong_named {r : Role} {a : Auth} (h : r.Stores a) (hf : a.PrefixFits) (cred : Bytes) :
    Sdk.matchLong r.authType r.auth cred = .ok (decide (a.Named cred)) := by
  unfold Sdk.matchLong
  by_cases hl : cred.length ≥ 32
  · rw [if_pos hl, matchData_named h hf]
  · rw [if_neg hl]
    have : ¬ a.Named cred := fun hn => hl (hn.long h.wf)
    simp [this]

theorem lookupGo_enc (cred : Bytes) : ∀ (rs : List Role) (pre : Bytes), RolesOk pre.length rs → (∀ r ∈ rs, r.PrefixFits) →
    (∃ r before after, rs = before ++ r :: after ∧ (∃ a, r.Stores a ∧ a.Named cred) ∧
      (∀ x ∈ before, ∀ a, x.Stores a → ¬ a.Named cred) ∧
      Sdk.lookupGo (pre ++ encRoles pre.length rs) cred rs.length pre.length = .ok (some r.id))
    ∨ ((∀ x ∈ rs, ∀ a, x.Stores a → ¬ a.Named cred) ∧
      Sdk.lookupGo (pre ++ encRoles pre.length rs) cred rs.length pre.length = .ok none) := by
  intro rs
  induction rs with
  | nil => intro pre _ _; right; exact ⟨by simp, by simp [Sdk.lookupGo]⟩
  | cons r rs ih =>
    intro pre h hf
    obtain ⟨h1, h2, h3, h4⟩ := h.head
    obtain ⟨f1, f2, _, f4, f5⟩ := encRole_fields pre (encRoles (pre.length + r.size) rs ++ []) r h1 h2 h3
    have hsl : sl (pre ++ (encRole pre.length r ++ (encRoles (pre.length + r.size) rs ++ []))) (pre.length + 16)
        (pre.length + 16 + r.auth.length) = r.auth := by
      have e : pre ++ (encRole pre.length r ++ (encRoles (pre.length + r.size) rs ++ [])) =
          (pre ++ encPos r.authType r.auth.length r.actions.length r.id (pre.length + r.size)) ++
            (r.auth ++ (encActs 0 r.actions ++ (encRoles (pre.length + r.size) rs ++ []))) := by simp [encRole]
      rw [e]
      exact sl_mid _ _ _ (by simp [encPos]) (by simp [encPos])
    rw [← roles_step', List.append_nil] at f1 f2 f4 f5 hsl
    have hlen : (pre ++ encRoles pre.length (r :: rs)).length = pre.length + (r.size + rolesSize rs) := by simp
    have hs : r.size = 16 + r.auth.length + actsSize r.actions := rfl
    obtain ⟨a, ha⟩ := h1.stores
    have hm := matchLong_named ha (hf r (by simp) a ha) cred
    have hty : authTypeOf r.authType = .ok r.authType := by
      have := authLen_types h1.auth
      unfold authTypeOf
      rw [if_pos (by omega)]
    have step : Sdk.lookupGo (pre ++ encRoles pre.length (r :: rs)) cred (rs.length + 1) pre.length =
        if a.Named cred then .ok (some r.id)
        else Sdk.lookupGo (pre ++ encRoles pre.length (r :: rs)) cred rs.length (pre.length + r.size) := by
      rw [Sdk.lookupGo, f1, f2, f4, f5, hlen, if_neg (by omega), hty, ok_bind, if_neg (by omega), if_neg (by simp [h1.auth]), hsl, hm, ok_bind]
      simp
    have uniq : ∀ a', r.Stores a' → (a'.Named cred ↔ a.Named cred) := by
      intro a' ha'
      have := matchLong_named ha' (hf r (by simp) a' ha') cred
      rw [hm] at this
      have e := Except.ok.inj this
      exact (decide_eq_decide.mp e).symm
    rw [List.length_cons, step]
    by_cases hn : a.Named cred
    · left
      exact ⟨r, [], rs, rfl, ⟨a, ha, hn⟩, by simp, by rw [if_pos hn]⟩
    · rw [if_neg hn]
      have e : pre.length + r.size = (pre ++ encRole pre.length r).length := by simp
      have hstep : pre ++ encRoles pre.length (r :: rs) =
          (pre ++ encRole pre.length r) ++ encRoles (pre ++ encRole pre.length r).length rs := by
        have := roles_step pre [] r rs
        simpa using this
      have hno : ∀ a', r.Stores a' → ¬ a'.Named cred := fun a' ha' h' => hn ((uniq a' ha').mp h')
      rw [hstep, e]
      rcases ih (pre ++ encRole pre.length r) (by simpa using h4) (fun x hx => hf x (by simp [hx])) with
        ⟨r', before, after, g1, g2, g3, g4⟩ | ⟨g1, g2⟩
      · left
        refine ⟨r', r :: before, after, by simp [g1], g2, ?_, g4⟩
        intro x hx; simp at hx; rcases hx with rfl | hx
        · exact hno
        · exact g3 x hx
      · right
        refine ⟨?_, g2⟩
        intro x hx; simp at hx; rcases hx with rfl | hx
        · exact hno
        · exact g1 x hx

theorem lookupRoleId_encode {w : Wallet} (hw : w.WF) (hf : ∀ r ∈ w.roles, r.PrefixFits) (cred : Bytes) :
    (∃ r before after, w.roles = before ++ r :: after ∧ (∃ a, r.Stores a ∧ a.Named cred) ∧
      (∀ x ∈ before, ∀ a, x.Stores a → ¬ a.Named cred) ∧ Sdk.lookupRoleId w.encode cred = .ok (some r.id))
    ∨ ((∀ x ∈ w.roles, ∀ a, x.Stores a → ¬ a.Named cred) ∧ Sdk.lookupRoleId w.encode cred = .ok none) := by
  have hl := Wallet.encode_length hw
  have h48 := Header.encode_length hw.header
  have e1 : sl w.encode 48 (48 + rolesSize w.roles) = encRoles 0 w.roles := by
    unfold Wallet.encode
    exact sl_mid _ _ _ h48.symm (by simp [h48])
  have e : Sdk.lookupRoleId w.encode cred = Sdk.lookupGo (encRoles 0 w.roles) cred w.roles.length 0 := by
    unfold Sdk.lookupRoleId
    rw [if_neg (by omega), rolesEndOffset_encode hw, ok_bind, e1, Wallet.encode_header hw]
    rfl
  rw [e]
  simpa using lookupGo_enc cred w.roles [] hw.rolesOk hf

end Verif
