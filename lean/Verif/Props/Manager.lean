import Verif.Props.Contain
import Verif.Props.ClientMore
import Verif.Props.Lifetime

/-!
# Property C104: a wallet always keeps a role that can manage it
-/

namespace Verif
open Client

/-- Some role of the wallet may manage its roles. -/
def Governed (w : Wallet) : Prop := ∃ id r, w.role? id = some r ∧ (r.holds P.all ∨ r.holds P.manageAuthority)

theorem role?_setActions (w : Wallet) (id j : Nat) (as : List Act) :
    (w.setActions id as).role? j = (w.role? j).map fun r => if r.id = id then { r with actions := as } else r :=
  mapRole_find w id j _ (fun _ => rfl)

section
variable {env : Env} {cpi : Cpi} {m m' : Mem} {metas : List Meta} {k payer : Key} {w : Wallet} {acting target : Nat} {r t : Role} {a : Auth} {ch : Client.Change}
  {c : Caller} {pre post : List TxIx}

/-- The last role that can manage the wallet takes this permission from itself: the program accepts this for every wallet, every kind of
credential and every list of new permissions without administrative ones.  From then on, whatever anybody does, nobody can manage the
wallet: it stays open, with no administrative permission in any of its roles. -/
theorem C104_refuted (hh : HashLength env) (hr : Ready env m k w acting r a metas (updateAuthority env k payer acting acting ch c) pre post)
    (hacts : ActsFor env a metas (updateAuthority env k payer acting acting ch c) pre c) (hperm : r.holds P.all ∨ r.holds P.manageAuthority)
    (hlast : Powerless w (· ≠ acting)) (hnew : ∀ x ∈ ch.result r.actions, x.ty ∉ administrative)
    (hin : ∀ x ∈ ch.acts, x.InRange) (hix : ∀ i ∈ ch.indices, i < 2 ^ 16) (hlen : ch.bytes.length < 2 ^ 16)
    (hfr : ∀ x ∈ ch.result r.actions, x.Fresh) (h1 : 1 ≤ (ch.result r.actions).length) (h255 : (ch.result r.actions).length ≤ 255)
    (hdup : NoV2Dup (ch.result r.actions))
    (hgrow : ch.op.growth (actsSize r.actions) > 0 → MayGrow w.encode.length (ch.op.growth (actsSize r.actions)) ∧
      Pays env m payer k (w.encode.length + ch.op.growth (actsSize r.actions))) :
    Governed w ∧ ∃ m', process env cpi m metas (updateAuthority env k payer acting acting ch c).data = .ok m' ∧
      ∀ m'', StepsBy (fun _ => True) k m' m'' → ∃ w'', Open m'' k w'' ∧ Powerless w'' (fun _ => True) ∧ ¬ Governed w'' := by
  refine ⟨⟨acting, r, hr.role, hperm⟩, ?_⟩
  obtain ⟨m', e1, e2, e3, e4⟩ := C70_update (cpi := cpi) hh hr hacts hperm hr.role hin hix hlen hfr h1 h255 hdup hgrow
  refine ⟨m', e1, fun m'' h => ?_⟩
  have ho : Open m' k ((w.used acting).setActions acting (ch.result r.actions)) := ⟨(e3 k).1.trans hr.owned, e4, e2⟩
  have hp : Powerless ((w.used acting).setActions acting (ch.result r.actions)) (fun _ => True) := by
    intro id _ x hx y hy
    rw [role?_setActions, Wallet.used_find] at hx
    cases hid : w.role? id with
    | none => simp [hid] at hx
    | some q =>
      have hqid := (role?_mem hid).2
      rw [hid] at hx
      simp only [Option.map_some, Option.some.injEq] at hx
      by_cases hc : id = acting
      · subst hc
        subst hx
        simp only [hqid, if_true] at hy
        exact hnew y hy
      · subst hx
        simp only [hqid, if_neg hc] at hy
        exact hlast id hc q hid y hy
  obtain ⟨w'', g1, _, g3⟩ := C100_contained ho hp h
  refine ⟨w'', g1, g3, ?_⟩
  rintro ⟨id, x, hx, hy⟩
  rcases hy with ⟨y, hy, h2⟩ | ⟨y, hy, h2⟩ <;> exact g3 id trivial x hx y hy (by rw [h2]; decide)

/-- The root is not protected either: every role that may manage roles can leave it with any permissions the program can store. -/
theorem C104_refuted_root (hh : HashLength env) (hr : Ready env m k w acting r a metas (updateAuthority env k payer acting 0 ch c) pre post)
    (hacts : ActsFor env a metas (updateAuthority env k payer acting 0 ch c) pre c) (hperm : r.holds P.manageAuthority) (hother : acting ≠ 0)
    (ht : w.role? 0 = some t) (hnew : ∀ x ∈ ch.result t.actions, x.ty ∉ administrative)
    (hin : ∀ x ∈ ch.acts, x.InRange) (hix : ∀ i ∈ ch.indices, i < 2 ^ 16) (hlen : ch.bytes.length < 2 ^ 16)
    (hfr : ∀ x ∈ ch.result t.actions, x.Fresh) (h1 : 1 ≤ (ch.result t.actions).length) (h255 : (ch.result t.actions).length ≤ 255)
    (hdup : NoV2Dup (ch.result t.actions))
    (hgrow : ch.op.growth (actsSize t.actions) > 0 → MayGrow w.encode.length (ch.op.growth (actsSize t.actions)) ∧
      Pays env m payer k (w.encode.length + ch.op.growth (actsSize t.actions))) :
    ∃ m' w', process env cpi m metas (updateAuthority env k payer acting 0 ch c).data = .ok m' ∧ Open m' k w' ∧
      w'.role? 0 = some { t with actions := ch.result t.actions } ∧ Powerless w' (· = 0) := by
  obtain ⟨m', e1, e2, e3, e4⟩ := C70_update (cpi := cpi) hh hr hacts (.inr hperm) ht hin hix hlen hfr h1 h255 hdup hgrow
  have hid := (role?_mem ht).2
  have hrole : ((w.used acting).setActions 0 (ch.result t.actions)).role? 0 = some { t with actions := ch.result t.actions } := by
    rw [role?_setActions, Wallet.used_find, ht]
    simp [hid, Ne.symm hother]
  refine ⟨m', _, e1, ⟨(e3 k).1.trans hr.owned, e4, e2⟩, hrole, ?_⟩
  rintro id rfl x hx
  rw [hrole] at hx
  cases hx
  exact hnew

/-- What holds: the root keeps the permission to manage, whatever happens, until a request updates it, or the wallet is closed. -/
theorem C104_partial (ho : Open m k w) (hr : w.role? 0 = some r) (hperm : r.holds P.all ∨ r.holds P.manageAuthority)
    (h : Steps (fun ix => ¬ (rd ix 0 2 = 3 ∧ rd ix 12 4 = 0)) k m m') : IsClosed m' k ∨ ∃ w', Open m' k w' ∧ Governed w' := by
  rcases C01_refines ho h with hc | ⟨w', ho', hch⟩
  · exact .inl hc
  · obtain ⟨hm, hid⟩ := role?_mem hr
    have hlt : 0 < w.roleCounter := hid ▸ ho.wf.idsLt r hm
    have hkeep : ∀ kd r1 r2, (∃ ix, ¬ (rd ix 0 2 = 3 ∧ rd ix 12 4 = 0) ∧ Does ix kd) → Effect kd 0 r1 r2 →
        (r1.holds P.all ∨ r1.holds P.manageAuthority) → r2.holds P.all ∨ r2.holds P.manageAuthority := by
      rintro kd r1 r2 ⟨ix, h1, h2⟩ he hq
      have up : ∀ ty, ty = P.all ∨ ty = P.manageAuthority → r1.holds ty → r2.holds ty := by
        rintro ty hty ⟨x, hx, rfl⟩
        rcases he.actions with g | rfl | ⟨_, g⟩ | ⟨_, g⟩
        · exact ⟨x, g ▸ hx, rfl⟩
        · exact (h1 ⟨h2.1, h2.2.symm⟩).elim
        · have : x.ty ∈ r2.actions.map Act.ty := g ▸ List.mem_map_of_mem hx
          obtain ⟨y, hy, e⟩ := List.mem_map.mp this
          exact ⟨y, hy, e⟩
        · have : x ∈ limitsOf r2.actions := by
            rw [g]
            refine List.mem_filter.mpr ⟨hx, ?_⟩
            rcases hty with e | e <;> rw [e] <;> decide
          exact ⟨x, (List.mem_filter.mp this).1, rfl⟩
      exact hq.imp (up _ (.inl rfl)) (up _ (.inr rfl))
    rcases hch.role hr hlt (Q := fun x => x.holds P.all ∨ x.holds P.manageAuthority) hperm hkeep with ⟨r', h1, h2⟩ | ⟨_, h2⟩
    · exact .inr ⟨w', ho', 0, r', h1, h2⟩
    · rcases C10_root_stays ho hr h with hc | ⟨w'', r', h3, h4, _⟩
      · exact .inl hc
      · rw [h3.unique ho', h2] at h4
        cases h4

end

section
open Sample SampleClient

/-- The request with which the owner of the sample wallet gives up the permission to manage it. -/
def giveUp : Built := updateAuthority env1 (K 1) (K 10) 0 0 (.replaceAll [.allButManageAuthority]) callerEd

/-- `C104_refuted` applies: the only manager keeps everything but the permission to manage. -/
example (cpi : Cpi) : Governed afterPay ∧ ∃ m', process env1 cpi (onLedger (mem afterPay) giveUp) giveUp.accounts giveUp.data = .ok m' ∧
    ∀ m'', StepsBy (fun _ => True) (K 1) m' m'' → ∃ w'', Open m'' (K 1) w'' ∧ Powerless w'' (fun _ => True) ∧ ¬ Governed w'' := by
  have hw : afterPay.WF := by decide +kernel
  have hready : Ready env1 (onLedger (mem afterPay) giveUp) (K 1) afterPay 0 root ⟨.ed25519 (K 10), none⟩ giveUp.accounts giveUp [] [] :=
    ready_on hw rfl rfl (by decide +kernel) (by decide +kernel) rfl ⟨⟨show (K 10).length = 32 from rfl, by intro s h; cases h⟩, rfl, by decide +kernel⟩ (by decide +kernel)
      (by decide +kernel) (by decide +kernel) (by decide +kernel)
  refine C104_refuted (cpi := cpi) (ch := .replaceAll [.allButManageAuthority]) hash1 hready (.inl ⟨rfl, rfl⟩) (by decide +kernel) ?_ (by decide +kernel) (by decide +kernel) (by decide +kernel)
    (by decide +kernel) (by decide +kernel) (by decide +kernel) (by decide +kernel) (by decide +kernel) (fun h => absurd h (by decide +kernel))
  intro id hid r hr x hx
  obtain ⟨hm, he⟩ := role?_mem hr
  have : ∀ q ∈ afterPay.roles, q.id ≠ 0 → ∀ x ∈ q.actions, x.ty ∉ administrative := by decide +kernel
  exact this r hm (by rw [he]; exact hid) x hx

/-- A wallet whose role 1 may manage roles. -/
def deputyWallet : Wallet := { wallet with roles := [root, ⟨1, 1, K 11, [⟨P.manageAuthority, []⟩]⟩] }

/-- The request with which that role takes all administrative permissions from the root. -/
def demote : Built := updateAuthority env1 (K 1) (K 10) 1 0 (.replaceAll [.programAll]) (.ed25519 (K 11))

/-- `C104_refuted_root` applies. -/
example (cpi : Cpi) : ∃ m' w', process env1 cpi (onLedger (mem deputyWallet) demote) demote.accounts demote.data = .ok m' ∧ Open m' (K 1) w' ∧
    w'.role? 0 = some { root with actions := [⟨P.programAll, []⟩] } ∧ Powerless w' (· = 0) := by
  have hready : Ready env1 (onLedger (mem deputyWallet) demote) (K 1) deputyWallet 1 ⟨1, 1, K 11, [⟨P.manageAuthority, []⟩]⟩ ⟨.ed25519 (K 11), none⟩
      demote.accounts demote [] [] :=
    ready_on (by decide +kernel) rfl rfl (by decide +kernel) (by decide +kernel) rfl
      ⟨⟨show (K 11).length = 32 from rfl, by intro s h; cases h⟩, rfl, by decide +kernel⟩ (by decide +kernel)
      (by decide +kernel) (by decide +kernel) (by decide +kernel)
  exact C104_refuted_root (cpi := cpi) (ch := .replaceAll [.programAll]) hash1 hready (.inl ⟨rfl, rfl⟩) (by decide +kernel) (by decide)
    (show deputyWallet.role? 0 = some root from rfl) (by decide +kernel) (by decide +kernel) (by decide +kernel) (by decide +kernel)
    (by decide +kernel) (by decide +kernel) (by decide +kernel) (by decide +kernel) (fun h => absurd h (by decide +kernel))

/-- The hypotheses of `C104_partial` hold: the root adds a role. -/
example : Open (mem afterPay) (K 1) afterPay ∧ afterPay.role? 0 = some root ∧ root.holds P.all ∧
    Steps (fun ix => ¬ (rd ix 0 2 = 3 ∧ rd ix 12 4 = 0)) (K 1) (mem afterPay) (mem afterAdd) :=
  ⟨⟨rfl, by decide +kernel, rfl⟩, rfl, by decide +kernel, addStep (by decide)⟩

end
end Verif
