import Verif.Proofs.ClientBuild
import Verif.Proofs.LiveSub

/-! What the program reads from the client's requests for closing and for V2 sub-accounts. -/

namespace Verif.Client

theorem UInt8.toNat_lt256 (b : UInt8) : b.toNat < 256 := b.toNat_lt

theorem findPdaGo_canonical {env : Env} {seeds : List Bytes} {bump : UInt8} {k : Key} (h : Canonical env seeds bump k) :
    ∀ n, bump.toNat ≤ n → n ≤ 255 → findPdaGo env seeds n = some (k, bump) := by
  intro n
  induction n with
  | zero =>
    intro h1 _
    have : bump = 0 := by apply UInt8.toNat_inj.mp; simpa using h1
    exact absurd this h.2.1
  | succ n ih =>
    intro h1 h2
    unfold findPdaGo
    by_cases he : bump.toNat = n + 1
    · have : UInt8.ofNat (n + 1) = bump := by rw [← he]; simp
      rw [this, h.1]
    · have hb : env.pda (seeds ++ [[UInt8.ofNat (n + 1)]]) = none := by
        apply h.2.2
        rw [UInt8.lt_iff_toNat_lt]
        have : (UInt8.ofNat (n + 1)).toNat = n + 1 := by simp; omega
        omega
      rw [hb]
      exact ih (by omega) (by omega)

theorem findPda_canonical {env : Env} {seeds : List Bytes} {bump : UInt8} {k : Key} (h : Canonical env seeds bump k) :
    findPda env seeds = .ok (k, bump) := by
  unfold findPda
  rw [findPdaGo_canonical h 255 (by have := bump.toNat_lt; omega) (Nat.le_refl _)]
  rfl

theorem SubAt.len {env : Env} {m : Mem} {w : Wallet} {state sub : Key} {id : Nat} {en : Bool} {sb ab : UInt8} (hw : w.WF)
    (h : SubAt env m w state sub id en sb ab) : (m state).data.length = 72 := by
  rw [h.data]
  simp [hw.idLen, h.subLen]

theorem SubAt.fields {env : Env} {m : Mem} {w : Wallet} {state sub : Key} {id : Nat} {en : Bool} {sb ab : UInt8} (hw : w.WF)
    (h : SubAt env m w state sub id en sb ab) : (m state).data.getD 0 0 = 2 ∧ (m state).data.getD 1 0 = sb ∧ (m state).data.getD 2 0 = ab ∧
      (m state).data.getD 3 0 = (if en then 1 else 0) ∧ rd (m state).data 4 4 = id ∧ sl (m state).data 8 40 = w.id ∧
      sl (m state).data 40 72 = sub := by
  rw [h.data]
  have h1 := hw.idLen
  have h2 := h.subLen
  refine ⟨rfl, rfl, rfl, rfl, ?_, ?_, ?_⟩
  · have := rd_full 4 id (by have := h.idLt; simpa using this) [2, sb, ab, if en then 1 else 0] (w.id ++ sub) (i := 4) rfl
    simpa using this
  · have := sl_mid ([2, sb, ab, if en then 1 else 0] ++ natLE 4 id) w.id sub (i := 8) (j := 40) (by simp) (by simp [h1])
    simpa using this
  · have := sl_mid ([2, sb, ab, if en then 1 else 0] ++ natLE 4 id ++ w.id) sub [] (i := 40) (j := 72) (by simp [h1]) (by simp [h1, h2])
    simpa using this

theorem SubAt.ok {env : Env} {m : Mem} {w : Wallet} {state sub : Key} {id : Nat} {sb ab : UInt8} (hw : w.WF)
    (h : SubAt env m w state sub id true sb ab) : StateOk env (m state).data state sub w.id id := by
  obtain ⟨f0, f1, f2, f3, f4, f5, f6⟩ := h.fields hw
  exact ⟨h.len hw, f0, by rw [f3]; rfl, f4, f5, f6, by rw [f1]; exact h.statePda⟩

theorem SubAt.ne {env : Env} {m : Mem} {w : Wallet} {swig state sub : Key} {id : Nat} {en : Bool} {sb ab : UInt8}
    (hd : (m swig).data = w.encode) (h : SubAt env m w state sub id en sb ab) : state ≠ swig := by
  rintro rfl
  have := h.data
  rw [hd] at this
  have h0 : w.encode.getD 0 0 = 2 := by rw [this]; rfl
  rw [Wallet.encode_disc] at h0
  exact absurd h0 (by decide)

end Verif.Client
