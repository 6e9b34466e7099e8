import Verif.Proofs.SdkCounter
import Verif.Props.Roles
import Verif.Props.SdkLookup

/-!
# The counter of a wallet object

Property C84: whether the next request of a wallet object of the Rust SDK states the counter the program expects.  Vocabulary:
Spec/SdkRuns.lean.
-/

namespace Verif
open Sdk Client

/-! ## Lemmas -/

section
variable {m m' : Mem} {o : Obj} {w : Wallet} {r : Role} {q : Req} {bs : List Built} {b : Built} {env env' : Env} {cpi : Cpi} {metas : List Meta}
  {slot : Option Nat}

private theorem request_parts (hrole : o.role < 2 ^ 32) (hq : q.Sized) (hi : o.instructions env slot q = some bs) (hb : b ∈ bs)
    (hsz : b.data.length ≤ 1232) (hk : metas.map Meta.key = b.accounts.map Meta.key) :
    ∃ c p swig rest, q.caller o.holder slot = some c ∧ Pays c p ∧ b.data.drop (credentialAt b.data) = p ∧ rd b.data 0 2 = q.number ∧
      actingRole b.data = q.acting o.role ∧ metas = swig :: rest ∧ swig.key = o.swig := by
  obtain ⟨c, hc, hbuild⟩ := instructions_build hi
  obtain ⟨D, p, h1, h2, h3⟩ := build_split hbuild hb hsz hrole hq
  obtain ⟨l, hl⟩ := build_first hbuild hb
  rw [hl] at hk
  obtain ⟨f1, f2, f3⟩ := h3 p
  match metas, hk with
  | x :: xs, hk =>
    simp only [List.map_cons, List.cons.injEq] at hk
    exact ⟨c, p, x, xs, hc, h2, by rw [h1, f1]; simp, by rw [h1]; exact f3, by rw [h1]; exact f2, rfl, hk.1⟩

private theorem role_lt {id : Nat} (ho : w.WF) (hr : w.role? id = some r) : id < 2 ^ 32 := by
  obtain ⟨h1, h2⟩ := role?_mem hr
  have := ho.idsLt r h1
  have := ho.counter
  omega

/-- What an accepted request of a plain secp holder has stated as its counter. -/
private theorem stated (ho : Open m o.swig w) (hp : o.holder.plainSecp = true) (hl : o.holder.SignsWell) (hr : w.role? o.role = some r)
    (ht : r.authType = o.holder.ty) (hq : q.Sized) (ha : q.acting o.role = o.role) (hi : o.instructions env slot q = some bs) (hb : b ∈ bs)
    (hsz : b.data.length ≤ 1232) (hk : metas.map Meta.key = b.accounts.map Meta.key) (hf : Fine env' cpi m metas b.data)
    (e : process env' cpi m metas b.data = .ok m') :
    ∃ n, o.holder.odometer = some n ∧ (n + 1) % 2 ^ 32 = (rd r.auth 36 4 + 1) % 2 ^ 32 := by
  obtain ⟨c, p, swig, rest, hc, hpay, hd, _, hact, rfl, hsw⟩ := request_parts (role_lt ho.wf hr) hq hi hb hsz hk
  rw [← hsw] at ho
  rw [ha] at hact
  obtain ⟨n, s, hn, hcase⟩ := caller_secp hp hc
  refine ⟨n, hn, ?_⟩
  have htt : r.authType = 3 ∨ r.authType = 5 := by rw [ht]; rcases hcase with h | h; exacts [.inl h.1, .inr h.1]
  obtain ⟨h5, hcnt⟩ := request_counter ho hf e (by rw [hact]; exact hr) htt
  rw [hd] at hcnt
  rw [← hcnt]
  have hlt : (n + 1) % 2 ^ 32 < 2 ^ 32 := Nat.mod_lt _ (by decide)
  rcases hcase with ⟨h3, f, rfl, hlen⟩ | ⟨_, f, k, rfl⟩
  · refine ((pays_counter hpay).1 f s _ rfl (hlen hl) hlt ?_).symm
    rcases process_acts ho (hf.runtime _ _ rfl).keys (hf.room _ _ _ rfl ho) e with ⟨_, r', h1⟩ | ⟨g, _⟩
    · have hrr : r' = r := by have := h1.1; rw [hact, hr] at this; exact (Option.some.inj this).symm
      subst hrr
      refine Nat.le_of_not_lt fun hlt' => short_k1 h1 (ht.trans h3) ?_
      rw [hd]; exact hlt'
    · exact absurd g h5
  · exact ((pays_counter hpay).2 f k s _ rfl hlt).symm

private theorem not_rekeys (hrole : o.role < 2 ^ 32) (hq : q.Sized) (hi : o.instructions env slot q = some bs) (hb : b ∈ bs)
    (hsz : b.data.length ≤ 1232) (hk : metas.map Meta.key = b.accounts.map Meta.key) (id : Nat) : ¬ Rekeys b.data id := by
  obtain ⟨_, _, _, _, _, _, _, h, _⟩ := request_parts hrole hq hi hb hsz hk
  rintro ⟨h16, _⟩
  rw [h] at h16
  cases q <;> cases h16

end

/-! ## Statements -/

section
variable {m m' : Mem} {o : Obj} {w : Wallet} {r : Role} {q : Req} {b : Built}

/-- A wallet object whose counter is not the one stored for its role is useless: whatever it asks for, the program refuses. -/
theorem C84_out_of_step {env env' : Env} {cpi : Cpi} {metas : List Meta} {slot : Option Nat} {bs : List Built} {n : Nat}
    (ho : Open m o.swig w) (hp : o.holder.plainSecp = true) (hl : o.holder.SignsWell) (hr : w.role? o.role = some r)
    (ht : r.authType = o.holder.ty) (hn : o.holder.odometer = some n) (hlt : n < 2 ^ 32) (hne : n ≠ rd r.auth 36 4)
    (hq : q.Sized) (ha : q.acting o.role = o.role) (hi : o.instructions env slot q = some bs) (hb : b ∈ bs) (hsz : b.data.length ≤ 1232)
    (hk : metas.map Meta.key = b.accounts.map Meta.key) (hf : Fine env' cpi m metas b.data) :
    ∀ m', process env' cpi m metas b.data ≠ .ok m' := by
  intro m' e
  obtain ⟨n', hn', h⟩ := stated ho hp hl hr ht hq ha hi hb hsz hk hf e
  cases hn.symm.trans hn'
  have := rd_lt r.auth 36 4
  omega

/-- What others do does not disturb a wallet object. -/
theorem C84_others (ho : Open m o.swig w) (hs : InStep o w) (h : Steps (Others o.role) o.swig m m') :
    IsClosed m' o.swig ∨ ∃ w', Open m' o.swig w' ∧ (w'.role? o.role = none ∨ InStep o w') := by
  obtain ⟨r, hr, ht, hn⟩ := hs
  rcases C73_credential ho hr h with hc | ⟨w', ho', g | ⟨r', g1, g2, g3⟩⟩
  · exact .inl hc
  · exact .inr ⟨w', ho', .inl g⟩
  · exact .inr ⟨w', ho', .inr ⟨r', g1, g2.trans ht, by rw [g3]; exact hn⟩⟩

/-- The counter of the role after one instruction of a plain secp object. -/
private theorem sent_counter {bs : List Built} {env env' : Env} {cpi : Cpi} {metas : List Meta} {slot : Option Nat} (ho : Open m o.swig w)
    (hp : o.holder.plainSecp = true) (hr : w.role? o.role = some r) (ht : r.authType = o.holder.ty) (hq : q.Sized)
    (ha : q.acting o.role = o.role) (hi : o.instructions env slot q = some bs) (hb : b ∈ bs) (hsz : b.data.length ≤ 1232)
    (hk : metas.map Meta.key = b.accounts.map Meta.key) (hf : Fine env' cpi m metas b.data)
    (hc : ∀ x ix y, (x o.swig).owner = swigId → cpi x ix = .ok y → Steps (Others o.role) o.swig x y)
    (e : process env' cpi m metas b.data = .ok m') :
    IsClosed m' o.swig ∨ ∃ w', Open m' o.swig w' ∧ (w'.role? o.role = none ∨ ∃ r', w'.role? o.role = some r' ∧ r'.authType = o.holder.ty ∧
      rd r'.auth 36 4 = (rd r.auth 36 4 + 1) % 2 ^ 32) := by
  obtain ⟨c, p, swig, rest, _, _, _, _, hact, rfl, hsw⟩ := request_parts (role_lt ho.wf hr) hq hi hb hsz hk
  rw [ha] at hact
  have htt : r.authType = 3 ∨ r.authType = 5 := by
    rw [ht]
    cases hh : o.holder with
    | secp256k1 => exact .inl rfl
    | secp256r1 => exact .inr rfl
    | _ => rw [hh] at hp; cases hp
  rcases one_use ho hr htt hsw hact (not_rekeys (role_lt ho.wf hr) hq hi hb hsz hk _) hf hc e with
    g | ⟨w', g1, g | ⟨r', g2, g3, g4⟩⟩
  · exact .inl g
  · exact .inr ⟨w', g1, .inl g⟩
  · exact .inr ⟨w', g1, .inr ⟨r', g2, g3.trans ht, g4⟩⟩

private theorem carried_counter (ho : Open m o.swig w) (hp : o.holder.plainSecp = true) (hr : w.role? o.role = some r)
    (ht : r.authType = o.holder.ty) (h : Carried o q b m m') :
    IsClosed m' o.swig ∨ ∃ w', Open m' o.swig w' ∧ (w'.role? o.role = none ∨ ∃ r', w'.role? o.role = some r' ∧ r'.authType = o.holder.ty ∧
      rd r'.auth 36 4 = (rd r.auth 36 4 + 1) % 2 ^ 32) := by
  obtain ⟨env, slot, hi⟩ := h.built
  obtain ⟨env', cpi, metas, hk, hf, hc, e⟩ := h.runs
  exact sent_counter ho hp hr ht h.sized h.own hi (by simp) h.small hk hf hc e

/-- After a request that the program has carried out, and that the object counts, the object is in step again, and the call has returned
success; unless the role or the wallet is gone. -/
theorem C84_request_partial (ho : Open m o.swig w) (hp : o.holder.plainSecp = true) (hs : InStep o w) (hq : q.counts = true)
    (h : Carried o q b m m') :
    IsClosed m' o.swig ∨ ∃ w', Open m' o.swig w' ∧ (w'.role? o.role = none ∨
      ((o.settle (m' o.swig).data q).2 = true ∧ InStep (o.settle (m' o.swig).data q).1 w')) := by
  obtain ⟨r, hr, ht, hn⟩ := hs
  rcases carried_counter ho hp hr ht h with g | ⟨w', g1, g | ⟨r', g2, g3, g4⟩⟩
  · exact .inl g
  · exact .inr ⟨w', g1, .inl g⟩
  · refine .inr ⟨w', g1, .inr ?_⟩
    have hset : o.settle (m' o.swig).data q = o.counted := by
      have hget : ∃ v, getRole (m' o.swig).data o.role = .ok (some v) := by
        rw [g1.data]
        rcases getRole_wallet g1.wf o.role with ⟨f, _⟩ | ⟨_, v, _, f, _⟩
        · rw [g2] at f; cases f
        · exact ⟨v, f⟩
      obtain ⟨v, hv⟩ := hget
      cases q with
      | addAuthority => cases hq
      | createSession => cases hq
      | setRentClaimer => rfl
      | _ => simp only [Obj.settle, hv]
    rw [hset]
    have hcnt : ∃ h', o.holder.increment = some h' ∧ h'.ty = o.holder.ty ∧ h'.odometer = some ((rd r.auth 36 4 + 1) % 2 ^ 32) := by
      cases hh : o.holder with
      | secp256k1 k f n => rw [hh] at hn; cases hn; exact ⟨_, rfl, rfl, rfl⟩
      | secp256r1 k f n => rw [hh] at hn; cases hn; exact ⟨_, rfl, rfl, rfl⟩
      | _ => rw [hh] at hp; cases hp
    obtain ⟨h', e1, e2, e3⟩ := hcnt
    unfold Obj.counted
    rw [e1]
    exact ⟨rfl, r', g2, by rw [g3]; exact e2.symm, by rw [g4]; exact e3⟩

private theorem settle_frame (o : Obj) (data : Bytes) (q : Req) : (o.settle data q).1.swig = o.swig ∧ (o.settle data q).1.role = o.role ∧
    (o.holder.plainSecp = true → (o.settle data q).1.holder.plainSecp = true) := by
  have hc : o.counted.1.swig = o.swig ∧ o.counted.1.role = o.role ∧ (o.holder.plainSecp = true → o.counted.1.holder.plainSecp = true) := by
    unfold Obj.counted
    cases hh : o.holder with
    | secp256k1 => exact ⟨rfl, rfl, fun _ => rfl⟩
    | secp256r1 => exact ⟨rfl, rfl, fun _ => rfl⟩
    | ed25519 => exact ⟨rfl, rfl, fun h => by cases h⟩
    | ed25519Session => exact ⟨rfl, rfl, fun h => by cases h⟩
    | secp256k1Session => exact ⟨rfl, rfl, fun h => by cases h⟩
    | secp256r1Session => exact ⟨rfl, rfl, fun h => by cases h⟩
    | exec => exact ⟨rfl, rfl, fun h => by cases h⟩
  unfold Obj.settle
  split
  · exact ⟨rfl, rfl, id⟩
  · exact ⟨rfl, rfl, id⟩
  · exact hc
  · split
    · exact hc
    · exact ⟨rfl, rfl, id⟩

private theorem Steps.weaken {ok ok' : Bytes → Prop} (hw : ∀ ix, ok ix → ok' ix) {k : Key} {a b : Mem} (h : Steps ok k a b) :
    Steps ok' k a b := by
  induction h with
  | refl m => exact .refl m
  | trans _ _ i1 i2 => exact .trans i1 i2
  | outside h1 h2 => exact .outside h1 h2
  | request _ hok hf e hc => exact .request (fun a ix b ha hb => hc a ix b ha hb) (hw _ hok) hf e

private theorem Sdk.Carried.steps (h : Carried o q b m m') (hw : ∃ w r, Open m o.swig w ∧ w.role? o.role = some r) {ok : Bytes → Prop}
    (h1 : ∀ ix, Others o.role ix → ok ix) (h2 : ∀ ix, rd ix 0 2 = q.number → actingRole ix = o.role → ok ix) : Steps ok o.swig m m' := by
  obtain ⟨w, r, ho, hr⟩ := hw
  obtain ⟨env, slot, hi⟩ := h.built
  obtain ⟨env', cpi, metas, hk, hf, hc, e⟩ := h.runs
  obtain ⟨c, p, swig, rest, _, _, _, hnum, hact, rfl, hsw⟩ := request_parts (role_lt ho.wf hr) h.sized hi (by simp) h.small hk
  exact .request (fun a ix b ha hb => Steps.weaken h1 (hc a ix b ha hb)) (h2 _ hnum (hact.trans h.own)) hf e

private theorem open_not_closed {k : Key} (ho : Open m k w) (hc : IsClosed m k) : False := by
  have hd := ho.data
  rw [hc.data] at hd
  have := congrArg List.length hd
  rw [Wallet.encode_length ho.wf] at this
  simp at this
  omega

private theorem gone_later {w' : Wallet} {id : Nat} (hl : Later w w') (hid : id < w.roleCounter) (hg : w.role? id = none) :
    w'.role? id = none := by
  cases hr : w'.role? id with
  | none => rfl
  | some r' =>
    exfalso
    obtain ⟨h1, h2⟩ := role?_mem hr
    rcases hl.roles r' h1 with ⟨r, g1, g2, _⟩ | g
    · have hn := List.find?_eq_none.mp hg r g1
      simp at hn
      omega
    · omega

/-- The object is in step, or there is nothing left to be in step with. -/
private def Good (o : Obj) (m : Mem) : Prop :=
  IsClosed m o.swig ∨ ∃ w, Open m o.swig w ∧ o.role < w.roleCounter ∧ (w.role? o.role = none ∨ InStep o w)

private theorem lt_counter (ho : w.WF) {id : Nat} (hr : w.role? id = some r) : id < w.roleCounter := by
  obtain ⟨h1, h2⟩ := role?_mem hr
  exact h2 ▸ ho.idsLt r h1

private theorem refused_closed (hc : IsClosed m o.swig) {env : Env} {cpi : Cpi} {swig : Meta} {rest : List Meta} {ix : Bytes} (hk : swig.key = o.swig)
    (e : process env cpi m (swig :: rest) ix = .ok m') : False :=
  process_closed ⟨swig, rest, rfl, hk⟩ hc.owner hc.data e

private theorem refused_gone (ho : Open m o.swig w) (hg : w.role? o.role = none) {env : Env} {cpi : Cpi} {swig : Meta} {rest : List Meta} {ix : Bytes}
    (hk : swig.key = o.swig) (ha : actingRole ix = o.role) (hf : Fine env cpi m (swig :: rest) ix) (e : process env cpi m (swig :: rest) ix = .ok m') :
    False := by
  rw [← hk] at ho
  rcases process_acts ho (hf.runtime _ _ rfl).keys (hf.room _ _ _ rfl ho) e with ⟨_, r, h, _⟩ | ⟨_, r, _, _, h, _⟩ <;>
  · rw [ha, hg] at h; cases h

private theorem head_of (hrole : o.role < 2 ^ 32) (h : Carried o q b m m') : ∃ env cpi swig rest, swig.key = o.swig ∧
    actingRole b.data = o.role ∧ Fine env cpi m (swig :: rest) b.data ∧ process env cpi m (swig :: rest) b.data = .ok m' := by
  obtain ⟨env, slot, hi⟩ := h.built
  obtain ⟨env', cpi, metas, hk, hf, hc, e⟩ := h.runs
  obtain ⟨c, p, swig, rest, _, _, _, hnum, hact, rfl, hsw⟩ := request_parts hrole h.sized hi (by simp) h.small hk
  exact ⟨env', cpi, swig, rest, hsw, hact.trans h.own, hf, e⟩

private theorem good_runs {m m' : Mem} {o o' : Obj} (h : Runs m o m' o') : o.holder.plainSecp = true → o.role < 2 ^ 32 → Good o m →
    Good o' m' ∧ o'.swig = o.swig ∧ o'.role = o.role := by
  induction h with
  | done m o => exact fun _ _ hg => ⟨hg, rfl, rfl⟩
  | @others m m' m'' o o' hs _ ih =>
    intro hp hrole hg
    refine ih hp hrole ?_
    rcases hg with hc | ⟨w, ho, hid, hg⟩
    · exact .inl (steps_closed hs hc)
    · rcases C01_refines ho hs with hc | ⟨w', ho', hch⟩
      · exact .inl hc
      · refine .inr ⟨w', ho', Nat.lt_of_lt_of_le hid hch.later.counter, ?_⟩
        rcases hg with hg | hg
        · exact .inl (gone_later hch.later hid hg)
        · rcases C84_others ho hg hs with hc | ⟨w'', ho'', h⟩
          · exact (open_not_closed ho' hc).elim
          · cases Wallet.encode_inj ho'.wf ho''.wf (ho'.data.symm.trans ho''.data)
            exact h
  | @request m m' m'' o o' q b hq hcar _ ih =>
    intro hp hrole hg
    obtain ⟨f1, f2, f3⟩ := settle_frame o (m' o.swig).data q
    have hgood : Good (o.settle (m' o.swig).data q).1 m' := by
      unfold Good
      rw [f1, f2]
      rcases hg with hc | ⟨w, ho, hid, hg | hg⟩
      · obtain ⟨_, _, swig, rest, hk, _, _, e⟩ := head_of hrole hcar
        exact (refused_closed hc hk e).elim
      · obtain ⟨_, _, swig, rest, hk, ha, hf, e⟩ := head_of hrole hcar
        exact (refused_gone ho hg hk ha hf e).elim
      · obtain ⟨r, hr, _⟩ := id hg
        have hst := hcar.steps (ok := fun _ => True) ⟨w, r, ho, hr⟩ (fun _ _ => trivial) (fun _ _ _ => trivial)
        rcases C01_refines ho hst with hc | ⟨w', ho', hch⟩
        · exact .inl hc
        · refine .inr ⟨w', ho', Nat.lt_of_lt_of_le hid hch.later.counter, ?_⟩
          rcases C84_request_partial ho hp hg hq hcar with hc | ⟨w'', ho'', h⟩
          · exact (open_not_closed ho' hc).elim
          · cases Wallet.encode_inj ho'.wf ho''.wf (ho'.data.symm.trans ho''.data)
            exact h.imp id fun h => h.2
    obtain ⟨g1, g2, g3⟩ := ih (f3 hp) (by rw [f2]; exact hrole) hgood
    exact ⟨g1, g2.trans f1, g3.trans f2⟩

/-- A wallet object that starts in step stays in step, whatever requests it makes (of those it counts, sent as one instruction) and whatever
others do in between, as long as wallet and role exist. -/
theorem C84_runs_partial {o' : Obj} (ho : Open m o.swig w) (hp : o.holder.plainSecp = true) (hs : InStep o w) (h : Runs m o m' o') :
    IsClosed m' o'.swig ∨ ∃ w', Open m' o'.swig w' ∧ (w'.role? o'.role = none ∨ InStep o' w') := by
  obtain ⟨r, hr, _⟩ := id hs
  obtain ⟨g, _, _⟩ := good_runs h hp (role_lt ho.wf hr) (.inr ⟨w, ho, lt_counter ho.wf hr, .inr hs⟩)
  rcases g with hc | ⟨w', h1, _, h2⟩
  · exact .inl hc
  · exact .inr ⟨w', h1, h2⟩

private theorem adopt_inStep {id id' : Nat} {h h' : Holder} (hw : w.WF) (hp : h.plainSecp = true) (ha : openWallet.adopt w.encode id h = some (id', h'))
    (hr : w.role? id = some r) (ht : r.authType = h.ty) :
    id' = id ∧ h'.plainSecp = true ∧ r.authType = h'.ty ∧ h'.odometer = some (rd r.auth 36 4) := by
  rcases getRole_wallet hw id with ⟨g, _⟩ | ⟨r', v, g1, g2, _, g3, g4, _⟩
  · rw [hr] at g; cases g
  · cases hr.symm.trans g1
    unfold openWallet.adopt at ha
    rw [g2] at ha
    simp only [] at ha
    rw [g3, g4, ht] at ha
    cases h with
    | secp256k1 k f n =>
      rw [if_pos (Or.inl (show (Holder.secp256k1 k f n).ty = T.secp256k1 from rfl))] at ha
      cases ha
      exact ⟨rfl, rfl, ht, rfl⟩
    | secp256r1 k f n =>
      rw [if_pos (Or.inr (Or.inr (Or.inl (show (Holder.secp256r1 k f n).ty = T.secp256r1 from rfl))))] at ha
      cases ha
      exact ⟨rfl, rfl, ht, rfl⟩
    | _ => cases hp

/-- A wallet object is in step when it has just been opened with the holder of a role, -/
theorem C84_opened {id : Nat} {h h' : Holder} (hw : w.WF) (hp : h.plainSecp = true) (ho : openWallet w.encode h = some (id, h'))
    (hr : w.role? id = some r) (ht : r.authType = h.ty) (swig wallet payer : Key) (kp : Option Key) :
    InStep ⟨swig, wallet, id, h', payer, kp⟩ w := by
  unfold openWallet at ho
  obtain ⟨c, _, ho⟩ := Option.bind_eq_some_iff.mp ho
  split at ho
  · rename_i id' _
    have hid : id' = id := by
      unfold openWallet.adopt at ho
      split at ho
      · split at ho
        · obtain ⟨_, _, e⟩ := Option.map_eq_some_iff.mp ho
          exact (Prod.mk.inj e).1
        · exact (Prod.mk.inj (Option.some.inj ho)).1
      · cases ho
    subst hid
    obtain ⟨_, _, h1, h2⟩ := adopt_inStep hw hp ho hr ht
    exact ⟨r, hr, h1, h2⟩
  · cases ho

/-- and when it has just been switched to the holder of a role. -/
theorem C84_switched {id : Nat} {h : Holder} {o' : Obj} {kp : Option Key} (hw : w.WF) (hp : h.plainSecp = true)
    (hs : o.switch w.encode id h kp = some o') (hr : w.role? id = some r) (ht : r.authType = h.ty) : InStep o' w ∧ o'.role = id := by
  unfold Obj.switch at hs
  obtain ⟨⟨id', h'⟩, ha, rfl⟩ := Option.map_eq_some_iff.mp hs
  obtain ⟨rfl, _, h1, h2⟩ := adopt_inStep hw hp ha hr ht
  exact ⟨⟨r, hr, h1, h2⟩, rfl⟩

/-! ## What goes wrong -/

/-- A wallet object that has added an authority is useless from then on: whatever it asks for later is refused. -/
theorem C84_add_refuted {ty : Nat} {cred : Bytes} {ps : List Permission} {m'' m3 : Mem} {q' : Req} {b' : Built} {bs : List Built} {env env' : Env}
    {cpi : Cpi} {metas : List Meta} {slot : Option Nat}
    (ho : Open m o.swig w) (hp : o.holder.plainSecp = true) (hl : o.holder.SignsWell) (hs : InStep o w)
    (h : Carried o (.addAuthority ty cred ps) b m m') (hother : Steps (Others o.role) o.swig m' m'')
    (hq : q'.Sized) (ha : q'.acting o.role = o.role)
    (hi : (o.settle (m' o.swig).data (.addAuthority ty cred ps)).1.instructions env slot q' = some bs) (hb : b' ∈ bs)
    (hsz : b'.data.length ≤ 1232) (hk : metas.map Meta.key = b'.accounts.map Meta.key) (hf : Fine env' cpi m'' metas b'.data) :
    process env' cpi m'' metas b'.data ≠ .ok m3 := by
  obtain ⟨r, hr, ht, hn⟩ := hs
  intro e
  have hrole := role_lt ho.wf hr
  obtain ⟨_, _, swig, rest, _, _, _, _, hact, rfl, hsw⟩ := request_parts hrole hq hi hb hsz hk
  rcases carried_counter ho hp hr ht h with hc | ⟨w', ho', hg | ⟨r', hr', ht', hn'⟩⟩
  · exact refused_closed (steps_closed hother hc) hsw e
  · rcases C01_refines ho' hother with hc | ⟨w'', ho'', hch⟩
    · exact refused_closed hc hsw e
    · have hst := h.steps (ok := fun _ => True) ⟨w, r, ho, hr⟩ (fun _ _ => trivial) (fun _ _ _ => trivial)
      rcases C01_refines ho hst with hc | ⟨w1, ho1, hch1⟩
      · exact (open_not_closed ho' hc).elim
      · cases Wallet.encode_inj ho'.wf ho1.wf (ho'.data.symm.trans ho1.data)
        exact refused_gone ho'' (gone_later hch.later (Nat.lt_of_lt_of_le (lt_counter ho.wf hr) hch1.later.counter) hg) hsw (hact.trans ha) hf e
  · rcases C73_credential ho' hr' hother with hc | ⟨w'', ho'', hg | ⟨r'', g1, g2, g3⟩⟩
    · exact refused_closed hc hsw e
    · exact refused_gone ho'' hg hsw (hact.trans ha) hf e
    · have hlt := rd_lt r.auth 36 4
      exact C84_out_of_step ho'' hp hl g1 (g2.trans ht') hn hlt (by rw [g3, hn']; omega) hq ha hi hb hsz hk hf _ e

/-- Two instructions signed with one call: once the program has carried out one of them, it refuses the other, so that the transaction
fails. -/
theorem C84_two_signatures_refuted {bs : List Built} {b' : Built} {m3 : Mem} {env env1 env2 : Env} {cpi1 cpi2 : Cpi} {metas1 metas2 : List Meta}
    {slot : Option Nat} {inner : List FullIx} (ho : Open m o.swig w) (hp : o.holder.plainSecp = true) (hl : o.holder.SignsWell)
    (hs : InStep o w) (hi : o.instructions env slot (.signV2 inner) = some bs) (hb : b ∈ bs) (hb' : b' ∈ bs)
    (hsz : b.data.length ≤ 1232) (hsz' : b'.data.length ≤ 1232)
    (hk1 : metas1.map Meta.key = b.accounts.map Meta.key) (hf1 : Fine env1 cpi1 m metas1 b.data)
    (hc : ∀ x ix y, (x o.swig).owner = swigId → cpi1 x ix = .ok y → Steps (Others o.role) o.swig x y)
    (e : process env1 cpi1 m metas1 b.data = .ok m')
    (hk2 : metas2.map Meta.key = b'.accounts.map Meta.key) (hf2 : Fine env2 cpi2 m' metas2 b'.data) :
    process env2 cpi2 m' metas2 b'.data ≠ .ok m3 := by
  obtain ⟨r, hr, ht, hn⟩ := hs
  intro e2
  have hrole := role_lt ho.wf hr
  obtain ⟨_, _, swig, rest, _, _, _, _, hact, rfl, hsw⟩ := request_parts (q := .signV2 inner) hrole trivial hi hb' hsz' hk2
  rcases sent_counter (q := .signV2 inner) ho hp hr ht trivial rfl hi hb hsz hk1 hf1 hc e with hc | ⟨w', ho', hg | ⟨r', hr', ht', hn'⟩⟩
  · exact refused_closed hc hsw e2
  · exact refused_gone ho' hg hsw hact hf2 e2
  · have hlt := rd_lt r.auth 36 4
    exact C84_out_of_step (q := .signV2 inner) ho' hp hl hr' ht' hn hlt (by rw [hn']; omega) trivial rfl hi hb' hsz' hk2 hf2 _ e2

/-- What an accepted CreateSession request of a secp session holder has stated as its counter. -/
private theorem session_stated {env env' : Env} {cpi : Cpi} {metas : List Meta} {slot : Option Nat} {bs : List Built} {key : Key} {duration : Nat}
    (ho : Open m o.swig w) (hp : o.holder.secpSession = true) (hl : o.holder.SignsWell) (hr : w.role? o.role = some r)
    (ht : r.authType = o.holder.ty) (hq : key.length = 32) (hi : o.instructions env slot (.createSession key duration) = some bs) (hb : b ∈ bs)
    (hsz : b.data.length ≤ 1232) (hk : metas.map Meta.key = b.accounts.map Meta.key) (hf : Fine env' cpi m metas b.data)
    (e : process env' cpi m metas b.data = .ok m') :
    ∃ n, o.holder.odometer = some n ∧ (n + 1) % 2 ^ 32 = (rd r.auth 36 4 + 1) % 2 ^ 32 := by
  obtain ⟨c, p, swig, rest, hc, hpay, hd, hnum, hact, rfl, hsw⟩ := request_parts (role_lt ho.wf hr) (q := .createSession key duration) hq hi hb hsz hk
  rw [← hsw] at ho
  have hact : actingRole b.data = o.role := hact
  rcases process_acts ho (hf.runtime _ _ rfl).keys (hf.room _ _ _ rfl ho) e with ⟨g, _⟩ | ⟨_, r', a, s, h1, h2, h3, h4, h5, h6⟩
  · exact absurd hnum g
  · rw [hact, hr] at h1
    cases h1
    rw [hd] at h6
    have hlt : ∀ n, (n + 1) % 2 ^ 32 < 2 ^ 32 := fun n => Nat.mod_lt _ (by decide)
    have hc : o.holder.sessionCaller slot = some c := hc
    cases hh : o.holder with
    | secp256k1Session k sk mx f n =>
      rw [hh] at hc ht hl
      obtain ⟨sl, _, rfl⟩ := Option.map_eq_some_iff.mp hc
      refine ⟨n, rfl, ?_⟩
      have ht : r.authType = 4 := ht
      rw [ht] at h6
      unfold authenticate at h6
      rw [if_neg (by decide), if_pos (by decide)] at h6
      unfold k1Authenticate at h6
      split at h6
      · cases h6
      · rename_i hlen
        dsimp only at h6
        split at h6
        · cases h6
        · rename_i hcnt
          have hcnt := Decidable.of_not_not hcnt
          rw [← (pays_counter hpay).1 f sl _ rfl hl (hlt n) (by omega)]
          exact hcnt
    | secp256r1Session k sk mx f n =>
      rw [hh] at hc ht hl
      obtain ⟨sl, _, rfl⟩ := Option.map_eq_some_iff.mp hc
      refine ⟨n, rfl, ?_⟩
      have ht : r.authType = 6 := ht
      rw [ht] at h6
      unfold authenticate at h6
      rw [if_neg (by decide), if_neg (by decide), if_pos (by decide)] at h6
      unfold r1Authenticate at h6
      split at h6
      · cases h6
      · rename_i hlen
        dsimp only at h6
        split at h6
        · cases h6
        · rename_i hcnt
          have hcnt := Decidable.of_not_not hcnt
          rw [← (pays_counter hpay).2 f k sl _ rfl (hlt n)]
          exact hcnt
    | _ => rw [hh] at hp; cases hp

/-- Session roles: requests are signed with the session key and do not move the counter of the role, but the wallet object counts them.  After
any such request it cannot start a new session. -/
theorem C84_session_refuted {env env' : Env} {cpi : Cpi} {metas : List Meta} {slot : Option Nat} {bs : List Built} {b' : Built} {key : Key}
    {duration : Nat} {m3 : Mem} (ho : Open m o.swig w) (hp : o.holder.secpSession = true) (hl : o.holder.SignsWell) (hs : InStep o w)
    (hq : q.counts = true) (h : Carried o q b m m') (hkey : key.length = 32)
    (hi : (o.settle (m' o.swig).data q).1.instructions env slot (.createSession key duration) = some bs) (hb : b' ∈ bs)
    (hsz : b'.data.length ≤ 1232) (hk : metas.map Meta.key = b'.accounts.map Meta.key) (hf : Fine env' cpi m' metas b'.data) :
    process env' cpi m' metas b'.data ≠ .ok m3 := by
  obtain ⟨r, hr, ht, hn⟩ := hs
  intro e
  have hrole := role_lt ho.wf hr
  obtain ⟨f1, f2, _⟩ := settle_frame o (m' o.swig).data q
  obtain ⟨_, _, swig, rest, _, _, _, _, hact, rfl, hsw⟩ := request_parts (q := .createSession key duration) (by rw [f2]; exact hrole) hkey hi hb hsz hk
  rw [f1] at hsw
  have hact : actingRole b'.data = o.role := hact.trans f2
  have hsb : sessionBased r.authType = true := by
    rw [ht]
    cases hh : o.holder with
    | secp256k1Session => rfl
    | secp256r1Session => rfl
    | _ => rw [hh] at hp; cases hp
  have hst := h.steps (ok := fun ix => ¬ (rd ix 0 2 = 5 ∧ actingRole ix = o.role) ∧ ¬ Rekeys ix o.role) ⟨w, r, ho, hr⟩
    (fun ix hx => ⟨fun g => hx.1 g.2, hx.2⟩) (fun ix hx _ => ⟨fun g => by rw [hx] at g; revert hq g; cases q <;> simp [Req.counts, Req.number],
      fun g => by have := g.1; rw [hx] at this; revert this; cases q <;> simp [Req.number]⟩)
  rcases session_credential ho hr hsb hst with hc | ⟨w', ho', hg | ⟨r', hr', ht', hn'⟩⟩
  · exact refused_closed hc hsw e
  · exact refused_gone ho' hg hsw hact hf e
  · have hset : o.settle (m' o.swig).data q = o.counted := by
      have hget : ∃ v, getRole (m' o.swig).data o.role = .ok (some v) := by
        rw [ho'.data]
        rcases getRole_wallet ho'.wf o.role with ⟨f, _⟩ | ⟨_, v, _, f, _⟩
        · rw [hr'] at f; cases f
        · exact ⟨v, f⟩
      obtain ⟨v, hv⟩ := hget
      cases q with
      | addAuthority => cases hq
      | createSession => cases hq
      | setRentClaimer => rfl
      | _ => simp only [Obj.settle, hv]
    have hcnt : ∃ h', o.holder.increment = some h' ∧ h'.ty = o.holder.ty ∧ h'.odometer = some ((rd r.auth 36 4 + 1) % 2 ^ 32) ∧
        h'.secpSession = true ∧ h'.SignsWell := by
      cases hh : o.holder with
      | secp256k1Session k s x f n => rw [hh] at hn hl; cases hn; exact ⟨_, rfl, rfl, rfl, rfl, hl⟩
      | secp256r1Session k s x f n => rw [hh] at hn; cases hn; exact ⟨_, rfl, rfl, rfl, rfl, trivial⟩
      | _ => rw [hh] at hp; cases hp
    obtain ⟨h', e1, e2, e3, e4, e5⟩ := hcnt
    have hobj : (o.settle (m' o.swig).data q).1 = { o with holder := h' } := by
      rw [hset]; unfold Obj.counted; rw [e1]
    rw [hobj] at hi
    obtain ⟨n, g1, g2⟩ := session_stated (o := { o with holder := h' }) ho' e4 e5 hr' (ht'.trans (ht.trans e2.symm)) hkey hi hb hsz hk hf e
    cases e3.symm.trans g1
    rw [hn'] at g2
    have hlt := rd_lt r.auth 36 4
    omega

/-- Program-exec holders have no counter, and advancing it is an error: every request that is followed by it is reported as failed after the
program has carried it out. -/
theorem C84_exec_refuted {program : Key} {pfx : Bytes} {preceding : TxIx} (hh : o.holder = .exec program pfx preceding) (hq : q.counts = true)
    (h : Carried o q b m m') : (o.settle (m' o.swig).data q).2 = false := by
  have hc : o.counted.2 = false := by unfold Obj.counted; rw [hh]; rfl
  cases q with
  | addAuthority => cases hq
  | createSession => cases hq
  | setRentClaimer => exact hc
  | _ =>
    simp only [Obj.settle]
    split
    · exact hc
    · rfl

end

/-! ## Examples -/

section Examples
open Sample SampleClient

private def sampleEnv : Env := { env1 with sha256 := fun b => b }

/-- A wallet object for the secp256k1 role 2, whose stored counter is 7. -/
private def k1Obj : Obj := ⟨K 1, K 2, 2, .secp256k1 (zeros 64) sign1 7, K 10, none⟩

/-- The instruction of a request, if it is exactly one. -/
private def only (o : Obj) (q : Req) : Built := (((o.instructions sampleEnv (some 90) q).getD []).headD ⟨[], [], []⟩)

private theorem carried_of {o : Obj} {q : Req} {b : Built} {w : Wallet} (hw : w.WF) (hr : w.roles.length + 1 < 2 ^ 16 ∧ w.roleCounter + 1 < 2 ^ 32)
    (hs : o.swig = K 1) (hq : q.Sized) (ha : q.acting o.role = o.role) (hi : o.instructions sampleEnv (some 90) q = some [b])
    (hz : b.data.length ≤ 1232) {swig : Meta} {rest : List Meta} (hb : b.accounts = swig :: rest) (hk : swig.key = K 1) (hwr : swig.writable = true)
    (hl : ∀ a ∈ swig :: rest, a.key.length = 32) (he : Sample.ok (process sampleEnv demoCpi (mem w) b.accounts b.data) = true) :
    ∃ m', Carried o q b (mem w) m' := by
  obtain ⟨m', e⟩ := exists_of_ok he
  rw [hb] at e
  refine ⟨m', hq, ha, ⟨_, _, hi⟩, hz, ⟨sampleEnv, demoCpi, swig :: rest, by rw [hb], ?_, ?_, e⟩⟩
  · exact Sample.fine (fun _ => rfl) (by decide) (w := w) (by rw [hk]; exact ⟨rfl, hw, rfl⟩) (mem_typed _) hwr hl hr
  · intro x ix y hx e
    rw [hs] at hx ⊢
    exact .outside (demoCpi_outside hx e).1 (demoCpi_outside hx e).2

/-- C84_request_partial: role 2 removes role 4 with the object in step. -/
example : ∃ b m', Open (mem wallet1) k1Obj.swig wallet1 ∧ InStep k1Obj wallet1 ∧ k1Obj.holder.plainSecp = true ∧ k1Obj.holder.SignsWell ∧
    Carried k1Obj (.removeAuthority 4) b (mem wallet1) m' := by
  obtain ⟨m', h⟩ := carried_of (o := k1Obj) (q := .removeAuthority 4) (b := only k1Obj (.removeAuthority 4)) wallet1_wf (by decide) rfl trivial rfl rfl
    (by decide +kernel) (swig := ⟨K 1, false, true⟩) (rest := [⟨K 10, true, true⟩, ⟨systemId, false, false⟩]) rfl rfl rfl (by decide) (by decide +kernel)
  exact ⟨_, m', ⟨rfl, wallet1_wf, rfl⟩, ⟨role2, rfl, rfl, by decide +kernel⟩, rfl, fun _ => rfl, h⟩

/-- C84_opened and C84_switched: the role 2 of the wallet is found by its compressed key. -/
example : ((openWallet wallet1.encode (.secp256r1 pk2 (fun _ => zeros 64) 0)).map fun p => (p.1, p.2.odometer)) = some (3, some 41) ∧
    ((k1Obj.switch wallet1.encode 2 (.secp256k1 (zeros 64) sign1 0) none).map fun o => (o.role, o.holder.odometer)) = some (2, some 7) := by
  decide +kernel

/-- C84_runs_partial: that request is a run. -/
example : ∃ m', Runs (mem wallet1) k1Obj m' (k1Obj.settle (m' (K 1)).data (.removeAuthority 4)).1 := by
  obtain ⟨m', h⟩ := carried_of (o := k1Obj) (q := .removeAuthority 4) (b := only k1Obj (.removeAuthority 4)) wallet1_wf (by decide) rfl trivial rfl rfl
    (by decide +kernel) (swig := ⟨K 1, false, true⟩) (rest := [⟨K 10, true, true⟩, ⟨systemId, false, false⟩]) rfl rfl rfl (by decide) (by decide +kernel)
  exact ⟨m', .request rfl h (.done _ _)⟩

/-- C84_add_refuted and C84_out_of_step: role 2 adds a role; the object keeps the counter 7. -/
example : ∃ b m', InStep k1Obj wallet1 ∧ Carried k1Obj (.addAuthority 1 (0 :: K 33) [.manageAuthority]) b (mem wallet1) m' := by
  obtain ⟨m', h⟩ := carried_of (o := k1Obj) (q := .addAuthority 1 (0 :: K 33) [.manageAuthority])
    (b := only k1Obj (.addAuthority 1 (0 :: K 33) [.manageAuthority])) wallet1_wf (by decide) rfl trivial rfl rfl
    (by decide +kernel) (swig := ⟨K 1, false, true⟩) (rest := [⟨K 10, true, true⟩, ⟨systemId, false, false⟩]) rfl rfl rfl (by decide) (by decide +kernel)
  exact ⟨_, m', ⟨role2, rfl, rfl, by decide +kernel⟩, h⟩

/-- Two instructions: the first is carried out. -/
private def pay7 : FullIx := ⟨systemId, [⟨K 2, true, true⟩, ⟨K 11, false, true⟩], natLE 4 2 ++ natLE 8 7⟩

example : ∃ b b' m', k1Obj.instructions sampleEnv (some 90) (.signV2 [pay7, pay7]) = some [b, b'] ∧ b.data.length ≤ 1232 ∧
    Fine sampleEnv demoCpi (mem wallet1) b.accounts b.data ∧ process sampleEnv demoCpi (mem wallet1) b.accounts b.data = .ok m' := by
  obtain ⟨m', h⟩ := exists_of_ok (x := process sampleEnv demoCpi (mem wallet1) (only k1Obj (.signV2 [pay7, pay7])).accounts
    (only k1Obj (.signV2 [pay7, pay7])).data) (by decide +kernel)
  exact ⟨_, _, m', rfl, by decide +kernel, Sample.fine (fun _ => rfl) (by decide) (w := wallet1) ⟨rfl, wallet1_wf, rfl⟩ (mem_typed _)
    (by decide +kernel) (by decide +kernel) (by decide), h⟩

/-- A wallet object for a secp256k1 role with a session: the session key `K 12` has signed a removal. -/
private def sessionObj : Obj := ⟨K 1, K 2, 7, .secp256k1Session (zeros 64) (K 12) 1000 sign1 7, K 10, some (K 12)⟩

example : ∃ b m', InStep sessionObj SampleSdk.wallet ∧ sessionObj.holder.secpSession = true ∧ sessionObj.holder.SignsWell ∧
    Carried sessionObj (.removeAuthority 5) b (mem SampleSdk.wallet) m' := by
  obtain ⟨m', h⟩ := carried_of (o := sessionObj) (q := .removeAuthority 5) (b := only sessionObj (.removeAuthority 5)) SampleSdk.wallet_wf (by decide) rfl trivial rfl rfl
    (by decide +kernel) (swig := ⟨K 1, false, true⟩) (rest := [⟨K 10, true, true⟩, ⟨systemId, false, false⟩, ⟨K 12, true, false⟩]) rfl rfl rfl (by decide) (by decide +kernel)
  exact ⟨_, m', ⟨SampleSdk.k1Session, rfl, rfl, by decide +kernel⟩, rfl, fun _ => rfl, h⟩

/-- A wallet object for a program-exec role: the removal is carried out. -/
private def execObj : Obj := ⟨K 1, K 2, 4, .exec (K 30) [9, 9] ⟨K 30, [⟨K 1, false, true⟩, ⟨K 10, true, true⟩], [9, 9, 9]⟩, K 10, none⟩

example : ∃ b m m', Carried execObj (.removeAuthority 1) b m m' := by
  have ho : Open (memOf (only execObj (.removeAuthority 1))) (K 1) wallet1 := ⟨by decide +kernel, wallet1_wf, by decide +kernel⟩
  have hm : (memOf (only execObj (.removeAuthority 1))).Typed := by
    intro k
    unfold memOf
    split
    · exact ⟨rfl, by decide⟩
    · exact mem_typed _ k
  obtain ⟨m', e⟩ := exists_of_ok (x := process sampleEnv demoCpi (memOf (only execObj (.removeAuthority 1))) (only execObj (.removeAuthority 1)).accounts
    (only execObj (.removeAuthority 1)).data) (by decide +kernel)
  exact ⟨_, _, m', trivial, rfl, ⟨sampleEnv, some 90, rfl⟩, by decide +kernel, ⟨sampleEnv, demoCpi, _, rfl,
    Sample.fine (fun _ => rfl) (by decide) (w := wallet1) ho hm (by decide +kernel) (by decide +kernel) (by decide),
    fun x ix y hx e => .outside (demoCpi_outside hx e).1 (demoCpi_outside hx e).2, e⟩⟩

end Examples

end Verif
