import Verif.Spec.SdkRuns
import Verif.Proofs.SdkClient
import Verif.Props.Lifetime
import Verif.Props.ClientRefused

/-! How the counter of a role and the counter of a wallet object of the SDK move. -/

namespace Verif
open Sdk Client

/-- One accepted request acting as a plain secp role moves its counter by one, if called programs do not use the role themselves and others
do not use it afterwards. -/
theorem one_use {k : Key} {id : Nat} {a b : Mem} {w : Wallet} {r : Role} {env : Env} {cpi : Cpi} {swig : Meta} {rest : List Meta} {ix : Bytes}
    (ho : Open a k w) (hr : w.role? id = some r) (ht : r.authType = 3 ∨ r.authType = 5)
    (hk : swig.key = k) (hid : actingRole ix = id) (hn : ¬ Rekeys ix id) (hf : Fine env cpi a (swig :: rest) ix)
    (hc : ∀ x ix y, (x k).owner = swigId → cpi x ix = .ok y → Steps (Others id) k x y)
    (e : process env cpi a (swig :: rest) ix = .ok b) :
    IsClosed b k ∨ ∃ w', Open b k w' ∧ (w'.role? id = none ∨ ∃ r', w'.role? id = some r' ∧ r'.authType = r.authType ∧
      rd r'.auth 36 4 = (rd r.auth 36 4 + 1) % 2 ^ 32) := by
  subst hk
  obtain ⟨n5, q1⟩ := request_counter ho hf e (by rw [hid]; exact hr) ht
  have hm : ∀ ix, Others id ix → ∀ kd, Does ix kd → kd ≠ .replaced id ∧ kd ≠ .used id := by
    rintro ix ⟨h0, h1⟩ kd h2
    refine ⟨?_, ?_⟩
    · rintro rfl; exact h1 ⟨h2.1, h2.2.symm⟩
    · rintro rfl; exact h0 h2.2.symm
  have hb : Has swig.key (Hist (fun kd => kd ≠ .replaced id ∧ kd ≠ .used id) (w.used id)) b := by
    refine process_own' ho.owner ho.wf ho.data ?_ ?_ ?_ hf ?_ e
    · rintro (g | ⟨g1, g2⟩)
      · exact (n5 g).elim
      · exact (hn ⟨g1, g2.trans hid⟩).elim
    · intro _ _
      rw [hid]
      exact .refl
    · intro kd hkd h2
      refine ⟨?_, ?_⟩
      · rintro rfl; exact hn ⟨h2.1, h2.2.symm⟩
      · rintro rfl; cases hkd
    · intro x ix y hx hy
      exact steps_hist hm (hc x ix y hx.1 hy) hx
  obtain ⟨hown, hh⟩ := hb
  rcases hh with ⟨w', hw', ⟨ks, h1, h2⟩, hd⟩ | hd
  · refine .inr ⟨w', ⟨hown, hw', hd⟩, ?_⟩
    have htr : Trace w (.used id :: ks) w' := (Trace.snoc .nil (.used id)).append h1
    have hno : Kind.replaced id ∉ Kind.used id :: ks := by
      intro g
      rcases List.mem_cons.mp g with g | g
      · cases g
      · exact (h2 _ g).1 rfl
    have h0 : ks.count (.used id) = 0 := List.count_eq_zero.mpr fun g => (h2 _ g).2 rfl
    obtain ⟨hmem, hid'⟩ := role?_mem hr
    have hl := plain_len ho.wf hr ht
    have ev : ∀ x : Bytes, x.length = 40 → rd x 36 4 = leNat (x.drop 36) := by
      intro x hx
      unfold rd sl
      rw [List.take_of_length_le (by simp [hx])]
    rcases (htr.counts hr (hid' ▸ ho.wf.idsLt r hmem) ht hl hno).2 with g | ⟨r', g1, g2, g3⟩
    · exact .inl g
    · refine .inr ⟨r', g1, g2, ?_⟩
      rw [List.count_cons_self, h0] at g3
      rw [ev _ (by rw [g3]; simp [advanced, hl]), g3, (advanced_split (auth := r.auth) (by omega) _).2, ev _ hl]
  · exact .inl ⟨hown, hd.2⟩

/-- The stored credential of a session role changes only when a session is started for it and when its key is replaced. -/
theorem session_credential {k : Key} {id : Nat} {m m' : Mem} {w : Wallet} {r : Role} (ho : Open m k w) (hr : w.role? id = some r)
    (hs : sessionBased r.authType = true)
    (h : Steps (fun ix => ¬ (rd ix 0 2 = 5 ∧ actingRole ix = id) ∧ ¬ Rekeys ix id) k m m') :
    IsClosed m' k ∨ ∃ w', Open m' k w' ∧
      (w'.role? id = none ∨ ∃ r', w'.role? id = some r' ∧ r'.authType = r.authType ∧ r'.auth = r.auth) := by
  rcases C01_refines ho h with hc | ⟨w', ho', hch⟩
  · exact .inl hc
  · obtain ⟨hm, hid⟩ := role?_mem hr
    have hlt : id < w.roleCounter := hid ▸ ho.wf.idsLt r hm
    have hkeep : ∀ kd r1 r2, (∃ ix, (¬ (rd ix 0 2 = 5 ∧ actingRole ix = id) ∧ ¬ Rekeys ix id) ∧ Does ix kd) → Effect kd id r1 r2 →
        (r1.authType = r.authType ∧ r1.auth = r.auth) → r2.authType = r.authType ∧ r2.auth = r.auth := by
      rintro kd r1 r2 ⟨ix, ⟨h0, h1⟩, h2⟩ he ⟨e1, e2⟩
      refine ⟨he.authType.trans e1, ?_⟩
      rcases he.auth with ⟨_, g⟩ | ⟨rfl, _⟩ | rfl | g
      · rw [g, e1, e2]
        unfold usedCred
        rw [if_neg]
        rintro (g | g) <;> rw [g] at hs <;> cases hs
      · exact (h0 ⟨h2.1, h2.2.symm⟩).elim
      · exact (h1 ⟨h2.1, h2.2.symm⟩).elim
      · exact g.2.trans e2
    rcases hch.role hr hlt (Q := fun x => x.authType = r.authType ∧ x.auth = r.auth) ⟨rfl, rfl⟩ hkeep with ⟨r', h1, h2⟩ | ⟨_, h2⟩
    · exact .inr ⟨w', ho', .inr ⟨r', h1, h2⟩⟩
    · exact .inr ⟨w', ho', .inl h2⟩

namespace Sdk

/-- Every instruction of a request is for the configuration account of the object. -/
theorem build_first {env : Env} {o : Obj} {c : Caller} {q : Req} {bs : List Built} {b : Built} (h : o.build env c q = some bs) (hb : b ∈ bs) :
    ∃ l, b.accounts.map Meta.key = o.swig :: l := by
  have man : ∀ D, ∃ l, (manageBy env o.swig o.payer D c).accounts.map Meta.key = o.swig :: l := by
    intro D
    cases c with
    | _ => exact ⟨_, rfl⟩
  cases q with
  | addAuthority ty cred ps =>
    cases h
    simp only [List.mem_singleton] at hb
    subst hb
    exact man _
  | removeAuthority target =>
    cases h
    simp only [List.mem_singleton] at hb
    subst hb
    cases c with
    | _ => exact ⟨_, rfl⟩
  | updateAuthority target u =>
    cases h
    simp only [List.mem_singleton] at hb
    subst hb
    exact man _
  | createSession key n =>
    cases h
    simp only [List.mem_singleton] at hb
    subst hb
    cases c with
    | _ => exact ⟨_, rfl⟩
  | setRentClaimer k =>
    simp only [Obj.build, Option.map_eq_some_iff] at h
    obtain ⟨b', h', rfl⟩ := h
    simp only [List.mem_singleton] at hb
    subst hb
    cases c with
    | exec x t => cases h'
    | _ => cases h'; exact ⟨_, rfl⟩
  | signV2 inner =>
    cases h
    have key : ∃ i, b = Client.signV2 env o.swig o.wallet o.payer o.role i [o.payer] c := by
      unfold Obj.signs at hb
      split at hb
      · simp only [List.mem_singleton] at hb; exact ⟨_, hb⟩
      · obtain ⟨i, _, rfl⟩ := List.mem_map.mp hb; exact ⟨i, rfl⟩
    obtain ⟨i, rfl⟩ := key
    have mark : ∀ l : List Meta, (markSigners [o.payer] l).map Meta.key = l.map Meta.key := by
      intro l
      unfold markSigners
      rw [List.map_map]
      congr 1
      funext a
      simp only [Function.comp]
      split <;> rfl
    have first : ∀ (own : List Key) (x : Meta) (xs : List Meta) (js : List FullIx), x.key = o.swig →
        ∃ l, (compactInstructions own (x :: xs) js).1.map Meta.key = o.swig :: l := by
      intro own x xs js hx
      obtain ⟨l, hl⟩ := compact_keys own (x :: xs) js
      exact ⟨_, by rw [hl]; simp [hx]; rfl⟩
    cases c with
    | ed25519 k =>
      obtain ⟨l, hl⟩ := first [o.swig] (w o.swig) [w o.wallet, ros k] [i] rfl
      exact ⟨l, (mark _).trans hl⟩
    | secp256k1 f sl n =>
      obtain ⟨l, hl⟩ := first [o.swig] (w o.swig) [w o.wallet, ro systemId] [i] rfl
      exact ⟨l, (mark _).trans hl⟩
    | secp256r1 f pk sl n =>
      obtain ⟨l, hl⟩ := first [o.swig] (w o.swig) [w o.wallet, ro systemId, ro instructionsSysvarId] [i] rfl
      exact ⟨l, (mark _).trans hl⟩
    | exec p t =>
      obtain ⟨l, hl⟩ := first [o.swig] (w o.swig) [w o.wallet, ws o.payer] [i] rfl
      refine ⟨l ++ [instructionsSysvarId], ?_⟩
      show List.map Meta.key ((compactInstructions [o.swig] [w o.swig, w o.wallet, ws o.payer] [i]).1 ++ [ro instructionsSysvarId]) = _
      rw [List.map_append, hl]
      rfl
  | createSubV1 sub bump =>
    cases h
    simp only [List.mem_singleton] at hb
    subst hb
    cases c with
    | _ => exact ⟨_, rfl⟩
  | signSubV1 sub inner =>
    cases h
    simp only [List.mem_singleton] at hb
    subst hb
    cases c with
    | ed25519 k => exact (compact_keys [o.swig, sub] [ro o.swig, w sub, ro systemId, ros k] inner).elim fun l hl => ⟨_, hl⟩
    | secp256k1 f sl n => exact (compact_keys [o.swig, sub] [ro o.swig, w sub, ro systemId] inner).elim fun l hl => ⟨_, hl⟩
    | secp256r1 f pk sl n =>
      exact (compact_keys [o.swig, sub] [ro o.swig, w sub, ro systemId, ro instructionsSysvarId] inner).elim fun l hl => ⟨_, hl⟩
    | exec p t =>
      exact (compact_keys [o.swig, sub] [ro o.swig, ros o.subPayer, w sub, ro systemId, ro instructionsSysvarId] inner).elim fun l hl => ⟨_, hl⟩
  | withdrawSubV1 sub amount =>
    cases h
    simp only [List.mem_singleton] at hb
    subst hb
    cases c with
    | _ => exact ⟨_, rfl⟩
  | withdrawSubTokenV1 sub t amount =>
    cases h
    simp only [List.mem_singleton] at hb
    subst hb
    cases c with
    | _ => exact ⟨_, rfl⟩
  | toggleSubV1 sub role authRole enabled =>
    cases h
    simp only [List.mem_singleton] at hb
    subst hb
    cases c with
    | _ => exact ⟨_, rfl⟩
  | createSubV2 state sub sb ab =>
    simp only [Obj.build, Option.map_eq_some_iff] at h
    obtain ⟨b', h', rfl⟩ := h
    simp only [List.mem_singleton] at hb
    subst hb
    cases c with
    | exec x t => cases h'
    | _ => cases h'; exact ⟨_, rfl⟩
  | signSubV2 state sub id inner =>
    simp only [Obj.build, Option.map_eq_some_iff] at h
    obtain ⟨b', h', rfl⟩ := h
    simp only [List.mem_singleton] at hb
    subst hb
    cases c with
    | exec x t => cases h'
    | ed25519 k => cases h'; exact (compact_keys [o.swig, sub] [w o.swig, ro state, w sub, ro systemId, ros k] inner).elim fun l hl => ⟨_, hl⟩
    | secp256k1 f sl n => cases h'; exact (compact_keys [o.swig, sub] [w o.swig, ro state, w sub, ro systemId] inner).elim fun l hl => ⟨_, hl⟩
    | secp256r1 f pk sl n =>
      cases h'
      exact (compact_keys [o.swig, sub] [w o.swig, ro state, w sub, ro systemId, ro instructionsSysvarId] inner).elim fun l hl => ⟨_, hl⟩
  | withdrawSubV2 state sub t id amount =>
    simp only [Obj.build, Option.map_eq_some_iff] at h
    obtain ⟨b', h', rfl⟩ := h
    simp only [List.mem_singleton] at hb
    subst hb
    cases c with
    | exec x t => cases h'
    | _ => cases h'; exact ⟨_, rfl⟩
  | toggleSubV2 state id enabled =>
    simp only [Obj.build, Option.map_eq_some_iff] at h
    obtain ⟨b', h', rfl⟩ := h
    simp only [List.mem_singleton] at hb
    subst hb
    cases c with
    | exec x t => cases h'
    | _ => cases h'; exact ⟨_, rfl⟩

theorem instructions_build {env : Env} {o : Obj} {slot : Option Nat} {q : Req} {bs : List Built} (h : o.instructions env slot q = some bs) :
    ∃ c, q.caller o.holder slot = some c ∧ o.build env c q = some bs := by
  unfold Obj.instructions at h
  split at h
  · exact Option.bind_eq_some_iff.mp h
  · cases h

/-- The callers of plain secp holders state the counter of the holder plus one. -/
theorem caller_secp {o : Obj} {slot : Option Nat} {q : Req} {c : Caller} (hp : o.holder.plainSecp = true) (h : q.caller o.holder slot = some c) :
    ∃ n s, o.holder.odometer = some n ∧
      ((o.holder.ty = 3 ∧ ∃ f, c = .secp256k1 f s ((n + 1) % 2 ^ 32) ∧ (o.holder.SignsWell → ∀ x, (f x).length = 65)) ∨
        (o.holder.ty = 5 ∧ ∃ f k, c = .secp256r1 f k s ((n + 1) % 2 ^ 32))) := by
  have key : o.holder.caller slot = some c := by
    cases ho : o.holder with
    | secp256k1 k f n => rw [ho] at h; cases q <;> exact h
    | secp256r1 k f n => rw [ho] at h; cases q <;> exact h
    | _ => rw [ho] at hp; cases hp
  cases ho : o.holder with
  | secp256k1 k f n =>
    rw [ho] at key
    obtain ⟨s, rfl, rfl⟩ := Option.map_eq_some_iff.mp key
    exact ⟨n, s, rfl, .inl ⟨rfl, f, rfl, fun h => h⟩⟩
  | secp256r1 k f n =>
    rw [ho] at key
    obtain ⟨s, rfl, rfl⟩ := Option.map_eq_some_iff.mp key
    exact ⟨n, s, rfl, .inr ⟨rfl, f, k, rfl⟩⟩
  | _ => rw [ho] at hp; cases hp

/-- The counter stated by a payload. -/
theorem pays_counter {c : Caller} {p : Bytes} (h : Pays c p) :
    (∀ f s n, c = .secp256k1 f s n → (∀ x, (f x).length = 65) → n < 2 ^ 32 → 77 ≤ p.length → rd p 8 4 = n) ∧
      (∀ f k s n, c = .secp256r1 f k s n → n < 2 ^ 32 → rd p 8 4 = n) := by
  refine ⟨?_, ?_⟩
  · rintro f s n rfl hl hn hp
    cases h with
    | k1 _ _ _ m => simp [Client.rd_skip, Client.rd_here, hn]
    | k1Old _ _ _ m => simp [hl] at hp
  · rintro f k s n rfl hn
    cases h with
    | r1 => simp [Client.rd_skip, Client.rd_here, hn]
    | r1Old => simp [Client.rd_skip, Client.rd_here, hn]

end Sdk

end Verif
