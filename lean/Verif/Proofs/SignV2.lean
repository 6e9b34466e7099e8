import Verif.Proofs.Classify
import Verif.Props.Compact
import Verif.Spec.Sign

/-! SignV2 on a stored wallet. -/

namespace Verif

theorem process_sign {env : Env} {cpi : Cpi} {m m' : Mem} {metas : List Meta} {ix : Bytes} (hix : rd ix 0 2 = 11)
    (h : process env cpi m metas ix = .ok m') :
    ∃ swig wallet x3 rest cls, metas = swig :: wallet :: x3 :: rest ∧ classifyAll m metas = .ok cls ∧
      signV2 env cpi m metas cls ix = .ok m' := by
  unfold process at h
  obtain ⟨_, _, h⟩ := bind_ok_iff.mp h
  obtain ⟨cls, h1, h⟩ := bind_ok_iff.mp h
  unfold dispatch at h
  split at h
  · cases h
  · rw [hix] at h
    simp only at h
    match metas, h1, h with
    | [], _, h => cases h
    | [_], _, h => cases h
    | [_, _], _, h => cases h
    | a :: b :: c :: rest, h1, h => exact ⟨a, b, c, rest, cls, rfl, h1, h⟩

/-- The place of the acting role in the wallet whose replay counter has been used. -/
theorem placed_used {w : Wallet} (hw : w.WF) {id : Nat} {r : Role} {before after : List Role} {swig : Key}
    (g1 : w.roles = before ++ r :: after) (g2 : r.id = id) (g3 : ∀ x ∈ before, x.id ≠ id) (g4 : ∀ x ∈ after, x.id ≠ id) :
    Placed ⟨swig, 48 + (rolesSize before + 16 + r.auth.length), (encActs 0 r.actions).length⟩ (w.used id) id
      { r with auth := usedCred r.authType r.auth } before after where
  wf := Wallet.used_wf hw id
  split := Wallet.used_split g1 g2 g3 g4
  rid := g2
  off := by
    have : (usedCred r.authType r.auth).length = r.auth.length := usedCred_length (hw.roles r (by simp [g1])).auth
    simp [this]
  len := by simp

theorem signV2_enc {env : Env} {cpi : Cpi} {m m' : Mem} {swig wallet x3 : Meta} {rest : List Meta} {cls : List Class} {ix : Bytes}
    {w : Wallet} (hw : w.WF) (hd : (m swig.key).data = w.encode)
    (h : signV2 env cpi m (swig :: wallet :: x3 :: rest) cls ix = .ok m') :
    ∃ (a : SignIx) (r : Role) (before after : List Role) (ixs : List Inner), parseSign ix = .ok a ∧ env.stackHeight = 1 ∧
      (cls.getD 0 .none).isSwig = true ∧ cls.getD 1 .none = .wallet ∧
      ActsAs env m (swig :: wallet :: x3 :: rest) w a.role a.authPayload a.payload r ∧
      decodeIxs (swig :: wallet :: x3 :: rest) wallet.key [] a.payload = .ok ixs ∧
      Placed ⟨swig.key, 48 + (rolesSize before + 16 + r.auth.length), (encActs 0 r.actions).length⟩ (w.used a.role) a.role
        { r with auth := usedCred r.authType r.auth } before after ∧
      signWith env cpi (m.setData swig.key (w.used a.role).encode) (swig :: wallet :: x3 :: rest) cls wallet.key
        (walletSeeds swig.key ++ [[w.walletBump]])
        ⟨swig.key, 48 + (rolesSize before + 16 + r.auth.length), (encActs 0 r.actions).length⟩ ixs = .ok m' := by
  simp only [signV2] at h
  obtain ⟨_, h1, h⟩ := bind_ok_iff.mp h
  obtain ⟨_, h2, h⟩ := bind_ok_iff.mp h
  obtain ⟨_, h3, h⟩ := bind_ok_iff.mp h
  obtain ⟨a, h4, h⟩ := bind_ok_iff.mp h
  rw [hd, openSwig_enc hw] at h
  simp only [ok_bind] at h
  obtain ⟨⟨p, v⟩, h5, h⟩ := bind_ok_iff.mp h
  obtain ⟨r, before, after, g1, g2, g3, g4, g5, rfl, g7, g8, _⟩ := actAs_view hw h5
  simp only at h
  obtain ⟨ixs, h6, h⟩ := bind_ok_iff.mp h
  rw [Wallet.parts_bytes, g7, g8] at h
  exact ⟨a, r, before, after, ixs, h4, require_ok_iff.mp h1, require_ok_iff.mp h2, require_ok_iff.mp h3, g5, h6,
    placed_used hw g1 g2 g3 g4, h⟩

theorem payload?_isSome_iff {as : List Act} {ty : Nat} (hr : repeatable ty = false) (key : Bytes) :
    (payload? as ty key).isSome = true ↔ ∃ a ∈ as, a.ty = ty := by
  unfold payload?
  rw [Option.isSome_map, List.find?_isSome]
  constructor
  · rintro ⟨a, h1, h2⟩; exact ⟨a, h1, (of_decide_eq_true h2).1⟩
  · rintro ⟨a, h1, h2⟩; exact ⟨a, h1, decide_eq_true ⟨h2, fun h => by rw [hr] at h; cases h⟩⟩

theorem inner_keys {metas : List Meta} {signer : Key} {b : Bytes} {ixs : List Inner} (hk : ∀ a ∈ metas, a.key.length = 32)
    (h : decodeIxs metas signer [] b = .ok ixs) : ∀ ix ∈ ixs, ∀ a ∈ ix.accounts, a.key.length = 32 := by
  intro ix hi a ha
  obtain ⟨o, ho, e, _⟩ := (C35_no_forged_signature h ix hi).1 a ha
  rw [← e]; exact hk o ho

theorem parseSign_ok {ix : Bytes} {a : SignIx} (h : parseSign ix = .ok a) :
    a.role = rd ix 4 4 ∧ a.payload = innerBytes ix ∧ a.authPayload = ix.drop (8 + rd ix 2 2) := by
  unfold parseSign at h
  split at h
  · cases h
  · dsimp only at h
    split at h
    · cases h
    · cases h; exact ⟨rfl, rfl, rfl⟩

/-- The context of a SignV2 of a restricted role. -/
def signCtx (env : Env) (metas : List Meta) (swig wallet : Key) (bump : UInt8) (loc : ActLoc) (ixs : List Inner) (r : Role) : SignCtx :=
  ⟨env, metas, swig, wallet, walletSeeds swig ++ [[bump]], loc, ixs, (payload? r.actions P.programAll []).isSome,
    !(payload? r.actions P.programAll []).isSome && (payload? r.actions P.programCurated []).isSome⟩

/-- Execution without limits, or with. -/
theorem signWith_ok {env : Env} {cpi : Cpi} {m m' : Mem} {metas : List Meta} {cls : List Class} {wallet : Key} {bump : UInt8}
    {loc : ActLoc} {ixs : List Inner} {w : Wallet} {id : Nat} {r : Role} {before after : List Role}
    (hp : Placed loc w id r before after) (hd : (m loc.swig).data = w.encode)
    (h : signWith env cpi m metas cls wallet (walletSeeds loc.swig ++ [[bump]]) loc ixs = .ok m') :
    (¬ Restricted r ∧ execAll env cpi metas wallet (walletSeeds loc.swig ++ [[bump]]) m ixs = .ok m') ∨
    (Restricted r ∧ signLimited (signCtx env metas loc.swig wallet bump loc ixs r) cpi m cls = .ok m') := by
  have hc : All2 Act.Charged r.actions r.actions := All2.refl' Act.Charged.refl _
  have hm := hp.start hd
  have has : ∀ ty, repeatable ty = false → loc.has m ty [] = .ok (payload? r.actions ty []).isSome := by
    intro ty hr
    have := hp.has hc m ty [] (fun h => by rw [hr] at h; cases h)
    rw [← hm] at this
    exact this
  unfold signWith unrestricted at h
  rw [has P.all rfl, has P.allButManageAuthority rfl] at h
  simp only [ok_bind] at h
  by_cases h1 : (payload? r.actions P.all []).isSome = true
  · rw [if_pos h1] at h
    simp only [ok_bind, if_true] at h
    refine .inl ⟨fun hr => ?_, h⟩
    obtain ⟨a, ha, e⟩ := (payload?_isSome_iff rfl []).mp h1
    exact (hr a ha).1 e
  · rw [if_neg h1] at h
    simp only [ok_bind] at h
    by_cases h2 : (payload? r.actions P.allButManageAuthority []).isSome = true
    · rw [if_pos h2] at h
      refine .inl ⟨fun hr => ?_, h⟩
      obtain ⟨a, ha, e⟩ := (payload?_isSome_iff rfl []).mp h2
      exact (hr a ha).2 e
    · rw [if_neg h2, has P.programAll rfl] at h
      simp only [ok_bind] at h
      refine .inr ⟨fun a ha => ⟨fun e => h1 ((payload?_isSome_iff rfl []).mpr ⟨a, ha, e⟩),
        fun e => h2 ((payload?_isSome_iff rfl []).mpr ⟨a, ha, e⟩)⟩, ?_⟩
      unfold signCurated at h
      rw [has P.programCurated rfl] at h
      unfold signCtx
      generalize (payload? r.actions P.programAll []).isSome = b at h ⊢
      cases b <;> simpa using h

/-! ## Typed ledgers -/

theorem directTransfer_typed {m : Mem} (ht : m.Typed) (a d : Key) (n : Nat) : (directTransfer m a d n).Typed := by
  intro k
  have := ht k
  unfold directTransfer
  constructor
  · simp [this.1]
  · simp only [Mem.setLamports, Mem.set]
    have h1 : ∀ a b, sub64 a b < 2 ^ 64 := fun a b => Nat.mod_lt _ (by decide)
    have h2 : ∀ a b, add64 a b < 2 ^ 64 := fun a b => Nat.mod_lt _ (by decide)
    split
    · exact h2 _ _
    · split
      · exact h1 _ _
      · exact this.2

theorem invokeSigned_cpi {env : Env} {cpi : Cpi} {m m' : Mem} {outer : List Meta} {ix : CpiIx} {seeds : List Bytes}
    (h : invokeSigned env cpi m outer ix seeds = .ok m') : cpi m ix = .ok m' := by
  unfold invokeSigned at h
  split at h
  · cases h
  · split at h
    · exact h
    · cases h

/-- An inner instruction is a call, or a direct transfer from the signing address. -/
theorem execInner_cases {env : Env} {cpi : Cpi} {m m' : Mem} {metas : List Meta} {signer : Key} {seeds : List Bytes} {ix : Inner}
    (h : execInner env cpi m metas signer seeds ix = .ok m') :
    invokeSigned env cpi m metas ix.cpi seeds = .ok m' ∨
    ∃ a d rest, ix.accounts = a :: d :: rest ∧ a.key = signer ∧ (m signer).owner ≠ systemId ∧
      m' = directTransfer m signer d.key (rd ix.data 4 8) := by
  unfold execInner at h
  split at h
  · split at h
    · cases h
    · rename_i a rest ha
      split at h
      · rename_i hs
        split at h
        · cases h
        · rename_i d rest
          cases h
          rw [← hs.1]
          exact .inr ⟨a, d, _, ha, rfl, hs.2, rfl⟩
      · exact .inl h
  · exact .inl h

theorem execInner_cpi {env : Env} {cpi : Cpi} {m m' : Mem} {metas : List Meta} {signer : Key} {seeds : List Bytes} {ix : Inner}
    (h : execInner env cpi m metas signer seeds ix = .ok m') :
    cpi m ix.cpi = .ok m' ∨ ∃ d n, m' = directTransfer m signer d n := by
  rcases execInner_cases h with h | ⟨_, d, _, _, _, _, h⟩
  · exact .inl (invokeSigned_cpi h)
  · exact .inr ⟨_, _, h⟩

theorem execAll_typed {env : Env} {cpi : Cpi} {metas : List Meta} {signer : Key} {seeds : List Bytes} (hc : cpi.Typed) :
    ∀ {ixs : List Inner} {m m' : Mem}, m.Typed → execAll env cpi metas signer seeds m ixs = .ok m' → m'.Typed := by
  intro ixs
  induction ixs with
  | nil => intro m m' h e; cases e; exact h
  | cons ix ixs ih =>
    intro m m' h e
    simp only [execAll] at e
    obtain ⟨m1, h1, e⟩ := bind_ok_iff.mp e
    refine ih ?_ e
    rcases execInner_cpi h1 with h1 | ⟨d, n, rfl⟩
    · exact hc _ _ _ h1 h
    · exact directTransfer_typed h _ _ _

theorem directTransfer_data (m : Mem) (a d : Key) (n : Nat) (k : Key) : (directTransfer m a d n k).data = (m k).data := by
  unfold directTransfer; simp

theorem directTransfer_owner (m : Mem) (a d : Key) (n : Nat) (k : Key) : (directTransfer m a d n k).owner = (m k).owner := by
  unfold directTransfer; simp

theorem execAll_keeps {env : Env} {cpi : Cpi} {metas : List Meta} {signer : Key} {seeds : List Bytes} {k : Key} (hc : cpi.Keeps k) :
    ∀ {ixs : List Inner} {m m' : Mem}, execAll env cpi metas signer seeds m ixs = .ok m' →
      (m' k).data = (m k).data ∧ (m' k).owner = (m k).owner := by
  intro ixs
  induction ixs with
  | nil => intro m m' e; cases e; exact ⟨rfl, rfl⟩
  | cons ix ixs ih =>
    intro m m' e
    simp only [execAll] at e
    obtain ⟨m1, h1, e⟩ := bind_ok_iff.mp e
    obtain ⟨i1, i2⟩ := ih e
    rw [i1, i2]
    rcases execInner_cpi h1 with h1 | ⟨d, n, rfl⟩
    · exact hc _ _ _ h1
    · exact ⟨directTransfer_data _ _ _ _ _, directTransfer_owner _ _ _ _ _⟩

theorem setData_typed {m : Mem} (h : m.Typed) (k : Key) (d : Bytes) : (m.setData k d).Typed := by
  intro x
  simp only [Mem.setData_owner, Mem.setData_lamports]
  exact h x

/-! ## Integrity hashes -/

theorem exceptGo_ok {d b : Bytes} {rs : List (Nat × Nat)} {pos : Nat} (h : exceptGo d pos rs = .ok b) :
    b = exceptBytes d pos rs := by
  induction rs generalizing pos b with
  | nil => cases h; rfl
  | cons e rs ih =>
    obtain ⟨s, e⟩ := e
    simp only [exceptGo] at h
    obtain ⟨a, h1, h⟩ := bind_ok_iff.mp h
    obtain ⟨b', h2, h⟩ := bind_ok_iff.mp h
    cases h
    rw [exceptBytes, ih h2]
    congr 1
    unfold segment at h1
    split at h1
    · unfold slice at h1
      split at h1
      · cases h1; rfl
      · cases h1
    · cases h1
      unfold sl
      rw [show s - pos = 0 by omega]
      simp

theorem hashExcept_ok {env : Env} {a : Acct} {rs : List (Nat × Nat)} {h : Bytes} (e : hashExcept env a rs = .ok h) :
    h = env.sha256 (a.owner ++ exceptBytes a.data 0 rs) := by
  unfold hashExcept at e
  obtain ⟨b, h1, e⟩ := bind_ok_iff.mp e
  cases e
  rw [exceptGo_ok h1]

/-- A writable account that passed the check: nothing outside the ranges changed, or a collision. -/
theorem recheck_same {x : SignCtx} {m m1 : Mem} {a : Meta} {h : Option Bytes} {rs : List (Nat × Nat)} (hw : a.writable = true)
    (hs : hashExcept x.env (m a.key) rs = .ok (h.getD [])) (hsome : h.isSome = true) (hr : recheck x m1 a h rs = .ok ()) :
    x.env.sha256 ((m a.key).owner ++ exceptBytes (m a.key).data 0 rs) =
      x.env.sha256 ((m1 a.key).owner ++ exceptBytes (m1 a.key).data 0 rs) := by
  unfold recheck at hr
  rw [if_neg (by simp [hw])] at hr
  obtain ⟨now, h1, hr⟩ := bind_ok_iff.mp hr
  obtain ⟨h', h2, hr⟩ := bind_ok_iff.mp hr
  have h3 := orErr_ok h2
  subst h3
  have h4 := require_ok_iff.mp hr
  rw [← hashExcept_ok hs, ← hashExcept_ok h1, ← h4]
  rfl

theorem snap_ok {x : SignCtx} {m : Mem} {i : Nat} {a : Meta} {c : Class} {h : Option Bytes} (hw : a.writable = true)
    {rs : List (Nat × Nat)} (hr : snapRanges x m a c = .ok (some rs)) (hs : snap x m i a c = .ok h) :
    hashExcept x.env (m a.key) rs = .ok (h.getD []) ∧ h.isSome = true := by
  unfold snap at hs
  rw [if_neg (by simp [hw]), hr] at hs
  simp only [ok_bind, snapHash] at hs
  obtain ⟨b, h1, hs⟩ := bind_ok_iff.mp hs
  split at hs
  · cases hs
  · cases hs; exact ⟨h1, rfl⟩

/-- The configuration account of a restricted signing is as it was before the calls, or there is a collision. -/
theorem Limited.same {x : SignCtx} {cpi : Cpi} {m m' : Mem} {swigM : Meta} {rest : List (Meta × Class)} {w : Wallet} {id : Nat}
    {r : Role} (l : Limited x cpi m m' swigM rest w id r) (hm : m.Typed) (hc : cpi.Typed)
    (hro : swigM.writable = false → cpi.Keeps swigM.key) :
    Clash x.env (m swigM.key) (l.m1 swigM.key) ∨ (l.m1 swigM.key).data = (m swigM.key).data := by
  cases hw : swigM.writable with
  | false => exact .inr (execAll_keeps (hro hw) l.exec).1
  | true =>
    obtain ⟨h0, ⟨j, lam, hj⟩, hr⟩ := l.config
    obtain ⟨h1, h2⟩ := snap_ok hw (rs := []) rfl hj
    have h3 := recheck_same hw h1 h2 hr
    simp only [exceptBytes, List.drop_zero] at h3
    by_cases he : (m swigM.key).owner ++ (m swigM.key).data = (l.m1 swigM.key).owner ++ (l.m1 swigM.key).data
    · refine .inr ?_
      have := (List.append_inj he (by rw [(hm swigM.key).1, (execAll_typed hc hm l.exec swigM.key).1])).2
      exact this.symm
    · exact .inl ⟨he, h3⟩

theorem Limited.sameOwner {x : SignCtx} {cpi : Cpi} {m m' : Mem} {swigM : Meta} {rest : List (Meta × Class)} {w : Wallet} {id : Nat}
    {r : Role} (l : Limited x cpi m m' swigM rest w id r) (hm : m.Typed) (hc : cpi.Typed)
    (hro : swigM.writable = false → cpi.Keeps swigM.key) :
    Clash x.env (m swigM.key) (l.m1 swigM.key) ∨ (l.m1 swigM.key).owner = (m swigM.key).owner := by
  cases hw : swigM.writable with
  | false => exact .inr (execAll_keeps (hro hw) l.exec).2
  | true =>
  obtain ⟨h0, ⟨j, lam, hj⟩, hr⟩ := l.config
  obtain ⟨h1, h2⟩ := snap_ok hw (rs := []) rfl hj
  have h3 := recheck_same hw h1 h2 hr
  simp only [exceptBytes, List.drop_zero] at h3
  by_cases he : (m swigM.key).owner ++ (m swigM.key).data = (l.m1 swigM.key).owner ++ (l.m1 swigM.key).data
  · exact .inr (List.append_inj he (by rw [(hm swigM.key).1, (execAll_typed hc hm l.exec swigM.key).1])).1.symm
  · exact .inl ⟨he, h3⟩

/-- A successful SignV2 of a restricted role: everything the handler has established. -/
structure SignRun (env : Env) (cpi : Cpi) (m m' : Mem) (swig wallet : Meta) (rest : List Meta) (ix : Bytes) (w : Wallet) (r : Role)
    (ixs : List Inner) (m1 : Mem) where
  loc : ActLoc
  before : List Role
  after : List Role
  cls : List Class
  locSwig : loc.swig = swig.key
  placed : Placed loc (w.used (rd ix 4 4)) (rd ix 4 4) { r with auth := usedCred r.authType r.auth } before after
  auth : ActsAs env m (swig :: wallet :: rest) w (rd ix 4 4) (ix.drop (8 + rd ix 2 2)) (innerBytes ix) r
  height : env.stackHeight = 1
  decoded : decodeIxs (swig :: wallet :: rest) wallet.key [] (innerBytes ix) = .ok ixs
  owner : (m swig.key).owner = swigId
  walletOwner : (m wallet.key).owner = systemId
  classified : ∃ c, classifyAll m (swig :: wallet :: rest) = .ok (c :: .wallet :: cls)
  seen : ∀ e ∈ (wallet :: rest).zip (.wallet :: cls), Seen m e.1 e.2 ∧ ((m e.1.key).owner = swigId → e.2 = .none)
  lim : Limited (signCtx env (swig :: wallet :: rest) swig.key wallet.key w.walletBump loc ixs r) cpi
    (m.setData swig.key (w.used (rd ix 4 4)).encode) m' swig ((wallet :: rest).zip (.wallet :: cls)) (w.used (rd ix 4 4)) (rd ix 4 4)
    { r with auth := usedCred r.authType r.auth }
  m1_eq : lim.m1 = m1
  keys32 : Keys32 (signCtx env (swig :: wallet :: rest) swig.key wallet.key w.walletBump loc ixs r)

theorem signed_restricted {env : Env} {cpi : Cpi} {m m' : Mem} {swig wallet : Meta} {rest : List Meta} {ix : Bytes} {w : Wallet} {r : Role}
    (hw : w.WF) (hd : (m swig.key).data = w.encode) (hk : ∀ a ∈ swig :: wallet :: rest, a.key.length = 32) (hix : rd ix 0 2 = 11)
    (hr : w.role? (rd ix 4 4) = some r) (hres : Restricted r) (h : process env cpi m (swig :: wallet :: rest) ix = .ok m') :
    ∃ ixs m1, AfterCalls env cpi m (swig :: wallet :: rest) swig wallet ix w ixs m1 ∧
      Nonempty (SignRun env cpi m m' swig wallet rest ix w r ixs m1) := by
  obtain ⟨swig', wallet', x3, rest', cls, e, hcls, h⟩ := process_sign hix h
  cases e
  obtain ⟨a, r', before, after, ixs, h1, h2, h3, h4, h5, h6, h7, h8⟩ := signV2_enc hw hd h
  obtain ⟨a1, a2, a3⟩ := parseSign_ok h1
  rw [a1] at h5 h7 h8
  rw [a2] at h5 h6
  rw [a3] at h5
  have : r' = r := by have := h5.1; rw [hr] at this; exact (Option.some.inj this).symm
  subst this
  obtain ⟨c, cs, k1, k2, k3, k4⟩ := classifyAll_rest hcls
  subst k1
  have hc := classify_first k2 h3
  cases cs with
  | nil => simp at k3
  | cons c2 cs =>
  have hc2 : c2 = .wallet := h4
  subst hc2
  have hk32 : Keys32 (signCtx env (swig :: wallet :: x3 :: rest') swig.key wallet.key w.walletBump
      ⟨swig.key, 48 + (rolesSize before + 16 + r'.auth.length), (encActs 0 r'.actions).length⟩ ixs r') := inner_keys hk h6
  rcases signWith_ok h7 (by simp) h8 with ⟨hn, _⟩ | ⟨_, hl⟩
  · exact absurd hres hn
  · have hw0 := (k4 (wallet, .wallet) (by simp)).1
    rw [hc.1] at hl
    obtain ⟨lim⟩ := signLimited_ok (x := signCtx env (swig :: wallet :: x3 :: rest') swig.key wallet.key w.walletBump
      ⟨swig.key, 48 + (rolesSize before + 16 + r'.auth.length), (encActs 0 r'.actions).length⟩ ixs r') h7 hk32 rfl hl
    refine ⟨ixs, lim.m1, ⟨h6, lim.exec⟩, ⟨⟨_, before, after, cs, rfl, h7, h5, h2, h6, hc.2.1, ?_, ⟨_, hcls⟩, k4, lim, rfl, hk32⟩⟩⟩
    cases hw0 with
    | wallet h => exact h

/-- What has been charged, unless a hash collision hides a change of the configuration account. -/
theorem SignRun.settled {env : Env} {cpi : Cpi} {m m' : Mem} {swig wallet : Meta} {rest : List Meta} {ix : Bytes} {w : Wallet} {r : Role}
    {ixs : List Inner} {m1 : Mem} (s : SignRun env cpi m m' swig wallet rest ix w r ixs m1)
    (rt : Runtime env cpi m swig (swig :: wallet :: rest)) :
    Clash env ((m.setData swig.key (w.used (rd ix 4 4)).encode) swig.key) (m1 swig.key) ∨
    ∃ as', m' = cfgMem s.loc (w.used (rd ix 4 4)) (rd ix 4 4) m1 as' ∧
      Plays env.slot r.actions ((if s.lim.total = 0 then [] else
          solSeg (signCtx env (swig :: wallet :: rest) swig.key wallet.key w.walletBump s.loc ixs r) r.actions s.lim.total) ++
        s.lim.acc.flatMap fun e => segOf (signCtx env (swig :: wallet :: rest) swig.key wallet.key w.walletBump s.loc ixs r) m1 r.actions
          e.1 e.2) as' ∧
      (s.lim.total ≠ 0 → SolOk (signCtx env (swig :: wallet :: rest) swig.key wallet.key w.walletBump s.loc ixs r) r.actions s.lim.total) ∧
      All2 (fun e hh => OkOf (signCtx env (swig :: wallet :: rest) swig.key wallet.key w.walletBump s.loc ixs r) m1 r.actions e.1 hh e.2)
        s.lim.acc s.lim.hs := by
  have h := s.lim.same (setData_typed rt.mem _ _) rt.calls rt.readonly
  rw [s.m1_eq] at h
  rcases h with h | h
  · exact .inl h
  · right
    have hd : (s.lim.m1 s.loc.swig).data = (w.used (rd ix 4 4)).encode := by
      rw [s.locSwig, s.m1_eq, h]; simp
    have := s.lim.settled hd ?_
    · rw [s.m1_eq] at this; exact this
    · rintro ⟨a, c⟩ he
      obtain ⟨k1, k2⟩ := s.seen _ he
      simp only at k1 k2 ⊢
      refine ⟨by cases k1 <;> rfl, fun ht => ⟨?_, ?_⟩⟩
      · intro hk
        have : a.key = swig.key := hk.trans s.locSwig
        rw [this] at k2
        rw [k2 s.owner] at ht
        cases ht
      · exact rt.keys a (List.mem_cons_of_mem _ (List.of_mem_zip he).1)

end Verif
