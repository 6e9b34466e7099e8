import Verif.Proofs.SignV2

/-! Consequences of a settled SignV2 for single limits. -/

namespace Verif

theorem amounts_mem {cs : List Chg} {c : Chg} (h : c ∈ cs) {ty : Nat} {key : Bytes} (h1 : c.ty = ty)
    (h2 : repeatable ty = true → c.key = key) : c.amount ∈ amounts cs ty key := by
  unfold amounts
  exact List.mem_map.mpr ⟨c, List.mem_filter.mpr ⟨h, decide_eq_true ⟨h1, h2⟩⟩, rfl⟩

theorem payload?_len {as : List Act} (hw : ∀ a ∈ as, a.WF) {ty : Nat} {key d : Bytes} (h : payload? as ty key = some d) {n : Nat}
    (hn : actionLen ty = some n) : d.length = n := by
  unfold payload? at h
  obtain ⟨a, h1, rfl⟩ := Option.map_eq_some_iff.mp h
  have h2 := hw a (List.mem_of_find?_eq_some h1)
  have h3 : a.grants ty key := by have := List.find?_some h1; exact of_decide_eq_true this
  unfold Act.WF at h2
  rw [h3.1, hn] at h2
  exact (Option.some.inj h2).symm

theorem le_sum_of_mem {l : List Nat} {n : Nat} (h : n ∈ l) : n ≤ l.sum := by
  induction l with
  | nil => simp at h
  | cons a l ih =>
    rcases List.mem_cons.mp h with rfl | h
    · simp
    · have := ih h; simp; omega

theorem total_map (ns : List Nat) (slot : Nat) : Charge.total (ns.map fun n => ⟨n, slot⟩) = ns.sum := by
  unfold Charge.total
  rw [List.map_map]
  congr 1
  exact List.map_id' ns

theorem cfgMem_lamports (l : ActLoc) (w : Wallet) (id : Nat) (m : Mem) (as : List Act) (k : Key) :
    (cfgMem l w id m as k).lamports = (m k).lamports := by unfold cfgMem; simp

theorem cfgMem_owner (l : ActLoc) (w : Wallet) (id : Nat) (m : Mem) (as : List Act) (k : Key) :
    (cfgMem l w id m as k).owner = (m k).owner := by unfold cfgMem; simp

section
variable {env : Env} {cpi : Cpi} {m m' : Mem} {swig wallet : Meta} {rest : List Meta} {ix : Bytes} {w : Wallet} {r : Role}
  {ixs : List Inner} {m1 : Mem}

/-- The wallet after a restricted signing. -/
def signedWallet (w : Wallet) (id : Nat) (as : List Act) : Wallet := (w.used id).setActions id as

theorem SignRun.stored (s : SignRun env cpi m m' swig wallet rest ix w r ixs m1) {as : List Act} (hc : All2 Act.Charged r.actions as)
    (hm : m' = cfgMem s.loc (w.used (rd ix 4 4)) (rd ix 4 4) m1 as) :
    (m' swig.key).data = (signedWallet w (rd ix 4 4) as).encode ∧ (signedWallet w (rd ix 4 4) as).WF ∧
    (signedWallet w (rd ix 4 4) as).role? (rd ix 4 4) = some { r with auth := usedCred r.authType r.auth, actions := as } := by
  refine ⟨?_, s.placed.wf' hc, s.placed.role' as⟩
  rw [hm, ← s.locSwig]
  unfold cfgMem
  simp [signedWallet]

theorem SignRun.acts (s : SignRun env cpi m m' swig wallet rest ix w r ixs m1) : ∀ a ∈ r.actions, a.WF :=
  s.placed.roleWf.acts

/-- Lamports that left the wallet address have been counted. -/
theorem SignRun.spent (s : SignRun env cpi m m' swig wallet rest ix w r ixs m1) (ht : m.Typed) :
    (m wallet.key).lamports ≤ (m1 wallet.key).lamports + s.lim.total := by
  have := s.lim.spent
  rw [s.m1_eq] at this
  simp only [signCtx, Mem.setData_lamports] at this
  exact this (ht wallet.key).2

/-- Everything about a settled restricted signing: `total` lamports left the wallet address, `acc` are the other accounts with what they
spent, `as'` the actions of the role afterwards. -/
structure Out (env : Env) (cpi : Cpi) (m m' : Mem) (swig wallet : Meta) (rest : List Meta) (ix : Bytes) (w : Wallet) (r : Role)
    (ixs : List Inner) (m1 : Mem) (x : SignCtx) (cls : List Class) (hs : List (Option Bytes)) (total : Nat) (acc : List (Meta × Class))
    (as' : List Act) : Prop where
  env_eq : x.env = env
  wallet_eq : x.wallet = wallet.key
  locSwig : x.loc.swig = swig.key
  ixs_eq : x.ixs = ixs
  lamports : (m wallet.key).lamports - (m' wallet.key).lamports ≤ total
  gross : total = min (2 ^ 64 - 1) (walletLost env cpi m (swig :: wallet :: rest) swig wallet ix w ixs).sum
  other : ∀ k, k ≠ swig.key → m' k = m1 k
  lam : ∀ k, (m' k).lamports = (m1 k).lamports
  own : ∀ k, (m' k).owner = (m1 k).owner
  stored : StoredAs m' swig ix (signedWallet w (rd ix 4 4) as') { r with auth := usedCred r.authType r.auth, actions := as' }
  charged : All2 Act.Charged r.actions as'
  plays : Plays env.slot r.actions ((if total = 0 then [] else solSeg x r.actions total) ++
    acc.flatMap fun e => segOf x m1 r.actions e.1 e.2) as'
  sol : total ≠ 0 → SolOk x r.actions total
  ok : All2 (fun e hh => OkOf x m1 r.actions e.1 hh e.2) acc hs
  mono : All2 (fun e e' => e'.1 = e.1 ∧ Mono e.2 e'.2) ((wallet :: rest).zip (.wallet :: cls)) acc
  few : All2 (fun e e' => e'.1 = e.1 ∧ Few env cpi (swig :: wallet :: rest) wallet.key (walletSeeds swig.key ++ [[w.walletBump]])
    (m.setData swig.key (w.used (rd ix 4 4)).encode) ixs e.1 e.2 e'.2) ((wallet :: rest).zip (.wallet :: cls)) acc
  cur : (acc = (wallet :: rest).zip (.wallet :: cls) ∧ m1 = m.setData swig.key (w.used (rd ix 4 4)).encode) ∨
    ∀ e ∈ acc, e.1.writable = true → Cur x m1 e.1 e.2
  snaps : All2 (fun e h => ∃ j, snap x (m.setData swig.key (w.used (rd ix 4 4)).encode) j e.1 e.2 = .ok h)
    ((wallet :: rest).zip (.wallet :: cls)) hs
  seen : ∀ e ∈ (wallet :: rest).zip (.wallet :: cls), Seen m e.1 e.2 ∧ ((m e.1.key).owner = swigId → e.2 = .none)
  owner : (m swig.key).owner = swigId
  classified : ∃ c, classifyAll m (swig :: wallet :: rest) = .ok (c :: .wallet :: cls)
  config : (m1 swig.key).data = (w.used (rd ix 4 4)).encode
  rent : (m1 wallet.key).lamports ≥ env.rent (m1 wallet.key).data.length
  walletOwner : (m wallet.key).owner = systemId
  sameOwner : ConfigClash env m m1 swig ix w ∨ (m1 swig.key).owner = (m swig.key).owner
  find : ∀ ty key, (repeatable ty = true → key.length = keyLen ty) → x.loc.find m1 ty key = .ok (payload? r.actions ty key)

theorem RestrictedSign.acts (h : RestrictedSign env cpi m m' swig wallet rest ix w r) : ∀ a ∈ r.actions, a.WF :=
  (h.wf.roles r (role?_mem h.role).1).acts

theorem RestrictedSign.out (h : RestrictedSign env cpi m m' swig wallet rest ix w r) :
    ∃ ixs m1, AfterCalls env cpi m (swig :: wallet :: rest) swig wallet ix w ixs m1 ∧
      (ConfigClash env m m1 swig ix w ∨
      ∃ x cls hs total acc as', Out env cpi m m' swig wallet rest ix w r ixs m1 x cls hs total acc as') := by
  obtain ⟨ixs, m1, h1, ⟨s⟩⟩ := signed_restricted h.wf h.stored h.runtime.keys h.number h.role h.restricted h.runs
  refine ⟨ixs, m1, h1, ?_⟩
  have hsame := s.lim.same (setData_typed h.runtime.mem _ _) h.runtime.calls h.runtime.readonly
  rw [s.m1_eq] at hsame
  rcases s.settled h.runtime with h2 | ⟨as', h2, h3, h4, h5⟩
  · left
    unfold ConfigClash
    have e : (m.setData swig.key (w.used (rd ix 4 4)).encode) swig.key =
        ⟨(m swig.key).owner, (m swig.key).lamports, (w.used (rd ix 4 4)).encode⟩ := by simp [Mem.setData, Mem.set]
    rw [e] at h2
    exact h2
  · rcases hsame with h6 | h6
    · left
      unfold ConfigClash
      have e : (m.setData swig.key (w.used (rd ix 4 4)).encode) swig.key =
          ⟨(m swig.key).owner, (m swig.key).lamports, (w.used (rd ix 4 4)).encode⟩ := by simp [Mem.setData, Mem.set]
      rw [e] at h6
      exact h6
    have hc := (h3.payload s.acts).1
    obtain ⟨k1, k2, k3⟩ := s.stored hc h2
    have hcfg : (m1 swig.key).data = (w.used (rd ix 4 4)).encode := by rw [h6]; simp
    refine .inr ⟨signCtx env (swig :: wallet :: rest) swig.key wallet.key w.walletBump s.loc ixs r, s.cls, s.lim.hs, s.lim.total, s.lim.acc,
      as', ?_⟩
    refine ⟨rfl, rfl, s.locSwig, rfl, ?_, s.lim.gross, ?_, ?_, ?_, ⟨k2, k1, k3⟩, hc, h3, h4, h5, s.lim.mono, s.lim.few, ?_, s.lim.snaps, s.seen, s.owner, s.classified,
      hcfg, ?_, s.walletOwner, ?_, ?_⟩
    · have := s.spent h.runtime.mem
      have e : (m' wallet.key).lamports = (m1 wallet.key).lamports := by rw [h2, cfgMem_lamports]
      omega
    · intro k hk
      rw [h2]
      exact cfgMem_other _ _ _ _ _ (by rw [s.locSwig]; exact hk)
    · intro k; rw [h2, cfgMem_lamports]
    · intro k; rw [h2, cfgMem_owner]
    · have := s.lim.cur
      rw [s.m1_eq] at this
      rcases this with ⟨_, a, b⟩ | this
      · exact .inl ⟨a, b⟩
      · exact .inr this
    · have := s.lim.rent
      rw [s.m1_eq] at this
      exact this
    · have := s.lim.sameOwner (setData_typed h.runtime.mem _ _) h.runtime.calls h.runtime.readonly
      rw [s.m1_eq] at this
      rcases this with g | g
      · left
        unfold ConfigClash
        have e : (m.setData swig.key (w.used (rd ix 4 4)).encode) swig.key =
            ⟨(m swig.key).owner, (m swig.key).lamports, (w.used (rd ix 4 4)).encode⟩ := by simp [Mem.setData, Mem.set]
        rw [e] at g
        exact g
      · exact .inr (by simpa using g)
    · intro ty key hk
      have := s.placed.find (All2.refl' Act.Charged.refl _) m1 ty key hk
      rw [← s.placed.start (by rw [s.locSwig]; exact hcfg)] at this
      exact this

end

end Verif
