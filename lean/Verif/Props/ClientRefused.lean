import Verif.Props.Client
import Verif.Props.Compact
import Verif.Proofs.Sub
import Verif.Proofs.Close

/-!
# Property C71: requests of the client library that the program always refuses
-/

namespace Verif
open Client

theorem process_dispatch {env : Env} {cpi : Cpi} {m m' : Mem} {metas : List Meta} {ix : Bytes} (h : process env cpi m metas ix = .ok m') :
    ∃ cls, dispatch env cpi m metas cls ix = .ok m' := by
  unfold process at h
  obtain ⟨_, _, h⟩ := bind_ok_iff.mp h
  obtain ⟨cls, _, h⟩ := bind_ok_iff.mp h
  exact ⟨cls, h⟩

/-- The number in front of the data selects the handler. -/
theorem rd_number {n : Nat} (hn : n < 2 ^ 16) (x : Bytes) : rd (natLE 2 n ++ x) 0 2 = n := rd_here 2 n x (by simpa using hn)

/-- A short payload does not authenticate a Secp256k1 role. -/
theorem short_k1 {env : Env} {m : Mem} {metas : List Meta} {w : Wallet} {id : Nat} {payload data : Bytes} {r : Role}
    (h : ActsAs env m metas w id payload data r) (hty : r.authType = T.secp256k1) (hl : payload.length < 77) : False := by
  have h := h.2
  unfold authRole at h
  rw [hty, if_neg (by decide)] at h
  unfold authenticate at h
  rw [if_neg (by decide), if_pos (by decide)] at h
  unfold k1Authenticate at h
  rw [if_pos hl] at h
  cases h

theorem short_r1 {env : Env} {m : Mem} {metas : List Meta} {w : Wallet} {id : Nat} {payload data : Bytes} {r : Role}
    (h : ActsAs env m metas w id payload data r) (hty : r.authType = T.secp256r1) (hl : payload.length < 17) : False := by
  have h := h.2
  unfold authRole at h
  rw [hty, if_neg (by decide)] at h
  unfold authenticate at h
  rw [if_neg (by decide), if_neg (by decide), if_pos (by decide)] at h
  unfold r1Authenticate at h
  rw [if_pos hl] at h
  cases h

/-! What the V1 sub-account handlers and the asset transfer say about the acting role, from the data of the builders. -/

section
variable {env : Env} {cpi : Cpi} {m m' : Mem} {metas : List Meta} {swig payer sub wallet : Key} {w : Wallet} {role : Nat} {payload : Bytes}
  (hw : w.WF) (hd : (m swig).data = w.encode) (hrole : role < 2 ^ 32)
include hw hd hrole

private theorem keys2 {a b : Key} {l : List Key} (h : metas.map Meta.key = a :: b :: l) :
    ∃ x y r, metas = x :: y :: r ∧ x.key = a ∧ y.key = b ∧ r.map Meta.key = l := by
  match metas, h with
  | x :: y :: r, h =>
    simp only [List.map_cons, List.cons.injEq] at h
    exact ⟨x, y, r, rfl, h.1, h.2.1, h.2.2⟩

theorem createSub_acts {bump : UInt8} {l : List Key} (hk : metas.map Meta.key = swig :: payer :: sub :: l) (hs : sub.length = 32)
    (h : process env cpi m metas (createSubData role bump ++ payload) = .ok m') :
    ∃ r, ActsAs env m metas w role payload (createSubData role bump) r := by
  obtain ⟨cls, h⟩ := process_dispatch h
  obtain ⟨x, y, rest, rfl, rfl, _, hk⟩ := keys2 hw hd hrole hk
  match rest, hk with
  | z :: rest, hk =>
  have hz : z.key = sub := by simpa using And.left (List.cons.inj hk)
  have hl : (createSubData role bump).length = 16 := by simp [createSubData]
  unfold dispatch at h
  rw [if_neg (by simp [hl]; omega), show rd (createSubData role bump ++ payload) 0 2 = 6 by
    simp only [createSubData, List.append_assoc]; exact rd_number (by decide) _] at h
  match rest, h with
  | [], h => cases h
  | s :: rest, h =>
    obtain ⟨r, _, _, _, h1, _⟩ := createSubV1_enc hw hd (by rw [hz]; exact hs) h
    have e4 : rd (createSubData role bump ++ payload) 4 4 = role := by
      have := rd_full 4 role (by simpa using hrole) (natLE 2 6 ++ zeros 2) ([bump] ++ zeros 7 ++ payload) (i := 4) (by simp)
      simpa [List.append_assoc, createSubData] using this
    rw [e4, ← hl, List.drop_left, List.take_left] at h1
    exact ⟨r, h1⟩

theorem withdrawSub_acts {amount : Nat} {l : List Key} (hk : metas.map Meta.key = swig :: payer :: sub :: l) (hs : sub.length = 32)
    (h : process env cpi m metas (withdrawSubData role amount ++ payload) = .ok m') :
    (∃ r, ActsAs env m metas w role payload (withdrawSubData role amount) r) ∧ ∃ a b l', l = a :: b :: l' ∧ (m b).owner = systemId := by
  obtain ⟨cls, h⟩ := process_dispatch h
  obtain ⟨x, y, rest, rfl, rfl, _, hk⟩ := keys2 hw hd hrole hk
  match rest, hk with
  | z :: rest, hk =>
  have hz : z.key = sub := by simpa using And.left (List.cons.inj hk)
  have hl : (withdrawSubData role amount).length = 16 := by simp [withdrawSubData]
  unfold dispatch at h
  rw [if_neg (by simp [hl]; omega), show rd (withdrawSubData role amount ++ payload) 0 2 = 7 by
    simp only [withdrawSubData, List.append_assoc]; exact rd_number (by decide) _] at h
  match rest, h, hk with
  | [], h, _ => cases h
  | [_], h, _ => cases h
  | [_, _], h, _ => cases h
  | s :: t :: u :: rest, h, hk =>
    obtain ⟨r, _, _, _, _, h1, _, _, h4, _⟩ := withdrawSubV1_enc hw hd (by rw [hz]; exact hs) h
    have e4 : rd (withdrawSubData role amount ++ payload) 4 4 = role := by
      have := rd_full 4 role (by simpa using hrole) (natLE 2 7 ++ zeros 2) (natLE 8 amount ++ payload) (i := 4) (by simp)
      simpa [List.append_assoc, withdrawSubData] using this
    rw [e4, ← hl, List.drop_left, List.take_left] at h1
    refine ⟨⟨r, h1⟩, s.key, t.key, (u :: rest).map Meta.key, ?_, h4⟩
    exact (List.cons.inj hk).2.symm

theorem toggleSub_acts {target : Nat} {enabled : Bool} {l : List Key} (hk : metas.map Meta.key = swig :: payer :: sub :: l)
    (hs : sub.length = 32) (ht : target < 2 ^ 32)
    (h : process env cpi m metas (toggleSubData target role enabled ++ payload) = .ok m') :
    ∃ r, ActsAs env m metas w role payload (toggleSubData target role enabled) r := by
  obtain ⟨cls, h⟩ := process_dispatch h
  obtain ⟨x, y, rest, rfl, rfl, _, hk⟩ := keys2 hw hd hrole hk
  match rest, hk with
  | z :: rest, hk =>
  have hz : z.key = sub := by simpa using And.left (List.cons.inj hk)
  have hl : (toggleSubData target role enabled).length = 16 := by simp [toggleSubData]
  unfold dispatch at h
  rw [if_neg (by simp [hl]; omega), show rd (toggleSubData target role enabled ++ payload) 0 2 = 10 by
    simp only [toggleSubData, List.append_assoc]; exact rd_number (by decide) _] at h
  obtain ⟨r, _, _, _, _, h1, _⟩ := toggleSubV1_enc hw hd (by rw [hz]; exact hs) h
  have e4 : rd (toggleSubData target role enabled ++ payload) 12 4 = role := by
    have := rd_full 4 role (by simpa using hrole) (natLE 2 10 ++ [if enabled then 1 else 0] ++ zeros 5 ++ natLE 4 target) payload (i := 12)
      (by simp)
    simpa [List.append_assoc, toggleSubData] using this
  rw [e4, ← hl, List.drop_left, List.take_left] at h1
  exact ⟨r, h1⟩

theorem transfer_acts {l : List Key} (hk : metas.map Meta.key = swig :: wallet :: l)
    (h : process env cpi m metas (roleData 13 0 role ++ payload) = .ok m') : ∃ r, ActsAs env m metas w role payload (roleData 13 0 role) r := by
  obtain ⟨cls, h⟩ := process_dispatch h
  obtain ⟨x, y, rest, rfl, rfl, _, hk⟩ := keys2 hw hd hrole hk
  have hl : (roleData 13 0 role).length = 8 := by simp [roleData]
  unfold dispatch at h
  rw [if_neg (by simp [hl]; omega), show rd (roleData 13 0 role ++ payload) 0 2 = 13 by
    simp only [roleData, List.append_assoc]; exact rd_number (by decide) _] at h
  match rest, h with
  | [], h => cases h
  | [_], h => cases h
  | s :: t :: rest, h =>
    obtain ⟨a, r, h1, _, h2, _⟩ := transferAssetsV1_enc hw hd h
    have e4 : rd (roleData 13 0 role ++ payload) 4 4 = role := by
      have := rd_full 4 role (by simpa using hrole) (natLE 2 13 ++ natLE 2 0) payload (i := 4) (by simp)
      simpa [List.append_assoc, roleData] using this
    unfold parseRoleIx at h1
    rw [if_neg (by simp [hl])] at h1
    cases h1
    rw [e4, ← hl, List.drop_left, List.take_left] at h2
    exact ⟨r, h2⟩

theorem subSign_acts {inner : Bytes} {l : List Key} (hk : metas.map Meta.key = swig :: sub :: l) (hs : sub.length = 32)
    (hlen : inner.length < 2 ^ 16) (h : process env cpi m metas (subSignData role inner ++ payload) = .ok m') :
    ∃ r, ActsAs env m metas w role payload inner r ∧ ∃ a ∈ r.actions, a.ty = P.subAccount ∧ a.data.take 32 = sub := by
  obtain ⟨cls, h⟩ := process_dispatch h
  obtain ⟨x, y, rest, rfl, rfl, rfl, hk⟩ := keys2 hw hd hrole hk
  have hl : (subSignData role inner).length = 16 + inner.length := by simp [subSignData]; omega
  unfold dispatch at h
  rw [if_neg (by simp [hl]; omega), show rd (subSignData role inner ++ payload) 0 2 = 9 by
    simp only [subSignData, List.append_assoc]; exact rd_number (by decide) _] at h
  match rest, h with
  | [], h => cases h
  | s :: rest, h =>
    obtain ⟨q, r, a, _, _, h1, _, _, _, h2, h3, h4, h5, _⟩ := subSignV1_enc hw hd hs h
    have e2 : rd (subSignData role inner ++ payload) 2 2 = inner.length := by
      have := rd_full 2 inner.length (by simpa using hlen) (natLE 2 9) (natLE 4 role ++ zeros 8 ++ inner ++ payload) (i := 2) (by simp)
      simpa [List.append_assoc, subSignData] using this
    have e4 : rd (subSignData role inner ++ payload) 4 4 = role := by
      have := rd_full 4 role (by simpa using hrole) (natLE 2 9 ++ natLE 2 inner.length) (zeros 8 ++ inner ++ payload) (i := 4) (by simp)
      simpa [List.append_assoc, subSignData] using this
    have e16 : sl (subSignData role inner ++ payload) 16 (16 + inner.length) = inner := by
      have := sl_mid (natLE 2 9 ++ natLE 2 inner.length ++ natLE 4 role ++ zeros 8) inner payload (i := 16) (j := 16 + inner.length) (by simp)
        (by simp)
      simpa [List.append_assoc, subSignData] using this
    unfold parseSubSign at h1
    rw [if_neg (by simp [hl]; omega)] at h1
    dsimp only at h1
    rw [e2, if_neg (by simp [hl]; omega), e4, e16, ← hl, List.drop_left] at h1
    cases h1
    refine ⟨r, h2, a, h3, h4, ?_⟩
    have := h5.sub
    rw [sl_zero] at this
    exact this

end

/-- The accounts of the sub-account signing builders start with the given ones. -/
theorem compact_keys (own : List Key) (accounts : List Meta) (ixs : List FullIx) :
    ∃ l, (compactInstructions own accounts ixs).1.map Meta.key = accounts.map Meta.key ++ l := by
  obtain ⟨t, ht⟩ := compactLoop_prefix own ixs accounts (KeyMap.ofMetas 0 accounts [])
  refine ⟨t.map Meta.key, ?_⟩
  unfold compactInstructions
  dsimp only
  rw [← ht, List.map_append]

/-- The requests of the client library about V1 sub-accounts and the transfer of assets: what is asked for and on whose behalf. -/
inductive Older where
  | create (bump : UInt8)
  | withdrawToken (t : Tokens) (amount : Nat)
  | sign (inner : List FullIx)
  | toggle (target : Nat) (enabled : Bool)
  | transfer

/-- The instructions the library builds for them. -/
def Older.built (env : Env) (swig payer sub wallet : Key) (role : Nat) (c : Caller) : Older → Built
  | .create bump => Client.createSubV1 env swig payer sub role bump c
  | .withdrawToken t amount => Client.withdrawSubTokenV1 env swig payer sub wallet t role amount c
  | .sign inner => Client.subSignV1 env swig payer sub role inner c
  | .toggle target enabled => Client.toggleSubV1 env swig payer sub target role enabled c
  | .transfer => Client.transferAssets env swig wallet payer role c

/-- Sizes: a role id has four bytes, instruction data at most 1232. -/
def Older.Small (q : Older) (b : Built) : Prop :=
  (∀ t e, q = .toggle t e → t < 2 ^ 32) ∧ b.data.length ≤ 1232

/-- Secp256k1: the payload has no counter (73 bytes instead of 77), so every such request is refused, whatever the state of the wallet
and whoever signs. -/
theorem C71_secp256k1 {env : Env} {cpi : Cpi} {m : Mem} {metas : List Meta} {swig payer sub wallet : Key} {w : Wallet} {role : Nat} {r : Role}
    {sign : Bytes → Bytes} {slot counter : Nat} (q : Older) (hw : w.WF) (hd : (m swig).data = w.encode) (hr : w.role? role = some r)
    (hty : r.authType = T.secp256k1) (hsig : ∀ x, (sign x).length = 65) (hs : sub.length = 32)
    (hsmall : q.Small (q.built env swig payer sub wallet role (.secp256k1 sign slot counter)))
    (hk : metas.map Meta.key = (q.built env swig payer sub wallet role (.secp256k1 sign slot counter)).accounts.map Meta.key) :
    ∀ m', process env cpi m metas (q.built env swig payer sub wallet role (.secp256k1 sign slot counter)).data ≠ .ok m' := by
  intro m' h
  have hrole := acting_lt hw hr
  have key : ∀ {payload data : Bytes} {r' : Role}, ActsAs env m metas w role payload data r' → payload.length = 73 → False := by
    intro payload data r' h1 h2
    have : r' = r := by have := h1.1; rw [hr] at this; exact (Option.some.inj this).symm
    subst this
    exact short_k1 h1 hty (by omega)
  cases q with
  | create bump =>
    obtain ⟨r', h1⟩ := createSub_acts hw hd hrole hk hs h
    exact key h1 (by simp [hsig])
  | withdrawToken t amount =>
    obtain ⟨⟨r', h1⟩, _⟩ := withdrawSub_acts hw hd hrole hk hs h
    exact key h1 (by simp [hsig])
  | sign inner =>
    obtain ⟨l, hl⟩ := compact_keys [swig, sub] [ro swig, Client.w sub, ro systemId] inner
    have hk' : metas.map Meta.key = swig :: sub :: systemId :: l := by rw [hk]; exact hl
    have := hsmall.2
    simp only [Older.built, Client.subSignV1, byK1Old, subSignData, List.length_append] at this
    obtain ⟨r', h1, _⟩ := subSign_acts (inner := compactBytes (compactInstructions [swig, sub]
      [ro swig, Client.w sub, ro systemId] inner).2) hw hd hrole hk' hs (by omega) h
    exact key h1 (by simp [hsig])
  | toggle target enabled =>
    obtain ⟨r', h1⟩ := toggleSub_acts hw hd hrole hk hs (hsmall.1 _ _ rfl) h
    exact key h1 (by simp [hsig])
  | transfer =>
    obtain ⟨r', h1⟩ := transfer_acts hw hd hrole hk h
    exact key h1 (by simp [hsig])

/-- The same for the SOL withdrawal of a Secp256k1 role. -/
theorem C71_secp256k1_withdraw {env : Env} {cpi : Cpi} {m : Mem} {metas : List Meta} {swig payer sub wallet : Key} {w : Wallet}
    {role amount : Nat} {r : Role} {sign : Bytes → Bytes} {slot counter : Nat} (hw : w.WF) (hd : (m swig).data = w.encode)
    (hr : w.role? role = some r) (hty : r.authType = T.secp256k1) (hsig : ∀ x, (sign x).length = 65) (hs : sub.length = 32)
    (hk : metas.map Meta.key =
      (Client.withdrawSubV1 env swig payer sub wallet role amount (.secp256k1 sign slot counter)).accounts.map Meta.key) :
    ∀ m', process env cpi m metas (Client.withdrawSubV1 env swig payer sub wallet role amount (.secp256k1 sign slot counter)).data ≠ .ok m' := by
  intro m' h
  obtain ⟨⟨r', h1⟩, _⟩ := withdrawSub_acts hw hd (acting_lt hw hr) hk hs h
  have : r' = r := by have := h1.1; rw [hr] at this; exact (Option.some.inj this).symm
  subst this
  exact short_k1 h1 hty (by simp [hsig])

/-- Secp256r1: the payload lacks four bytes (13 instead of 17), so every such request is refused. -/
theorem C71_secp256r1 {env : Env} {cpi : Cpi} {m : Mem} {metas : List Meta} {swig payer sub wallet : Key} {w : Wallet} {role : Nat} {r : Role}
    {sign : Bytes → Bytes} {pk : Bytes} {slot counter : Nat} (q : Older) (hw : w.WF) (hd : (m swig).data = w.encode)
    (hr : w.role? role = some r) (hty : r.authType = T.secp256r1) (hs : sub.length = 32)
    (hsmall : q.Small (q.built env swig payer sub wallet role (.secp256r1 sign pk slot counter)))
    (hk : metas.map Meta.key = (q.built env swig payer sub wallet role (.secp256r1 sign pk slot counter)).accounts.map Meta.key) :
    ∀ m', process env cpi m metas (q.built env swig payer sub wallet role (.secp256r1 sign pk slot counter)).data ≠ .ok m' := by
  intro m' h
  have hrole := acting_lt hw hr
  have key : ∀ {payload data : Bytes} {r' : Role}, ActsAs env m metas w role payload data r' → payload.length = 13 → False := by
    intro payload data r' h1 h2
    have : r' = r := by have := h1.1; rw [hr] at this; exact (Option.some.inj this).symm
    subst this
    exact short_r1 h1 hty (by omega)
  cases q with
  | create bump =>
    obtain ⟨r', h1⟩ := createSub_acts hw hd hrole hk hs h
    exact key h1 (by simp)
  | withdrawToken t amount =>
    obtain ⟨⟨r', h1⟩, _⟩ := withdrawSub_acts hw hd hrole hk hs h
    exact key h1 (by simp)
  | sign inner =>
    obtain ⟨l, hl⟩ := compact_keys [swig, sub] [ro swig, Client.w sub, ro systemId, ro instructionsSysvarId] inner
    have hk' : metas.map Meta.key = swig :: sub :: systemId :: instructionsSysvarId :: l := by rw [hk]; exact hl
    have := hsmall.2
    simp only [Older.built, Client.subSignV1, byR1Old, subSignData, List.length_append] at this
    obtain ⟨r', h1, _⟩ := subSign_acts (inner := compactBytes (compactInstructions [swig, sub]
      [ro swig, Client.w sub, ro systemId, ro instructionsSysvarId] inner).2) hw hd hrole hk' hs (by omega) h
    exact key h1 (by simp)
  | toggle target enabled =>
    obtain ⟨r', h1⟩ := toggleSub_acts hw hd hrole hk hs (hsmall.1 _ _ rfl) h
    exact key h1 (by simp)
  | transfer =>
    obtain ⟨r', h1⟩ := transfer_acts hw hd hrole hk h
    exact key h1 (by simp)

/-- Program-exec withdrawals: the wallet is not where the program expects it (it finds the System program, or the token account of
the sub-account, in its place), so every such request is refused unless that account is owned by the System program. -/
theorem C71_exec_withdraw {env : Env} {cpi : Cpi} {m : Mem} {metas : List Meta} {swig payer sub wallet : Key} {w : Wallet}
    {role amount : Nat} {p : TxIx} {t : Option UInt8} (hw : w.WF) (hd : (m swig).data = w.encode) (hrole : role < 2 ^ 32)
    (hs : sub.length = 32) (hsys : (m systemId).owner ≠ systemId)
    (hk : metas.map Meta.key = (Client.withdrawSubV1 env swig payer sub wallet role amount (.exec p t)).accounts.map Meta.key) :
    ∀ m', process env cpi m metas (Client.withdrawSubV1 env swig payer sub wallet role amount (.exec p t)).data ≠ .ok m' := by
  intro m' h
  obtain ⟨_, a, b, l', h1, h2⟩ := withdrawSub_acts hw hd hrole hk hs h
  simp [ro, Client.w] at h1
  rw [← h1.2.1] at h2
  exact hsys h2

theorem C71_exec_withdraw_token {env : Env} {cpi : Cpi} {m : Mem} {metas : List Meta} {swig payer sub wallet : Key} {w : Wallet}
    {role amount : Nat} {p : TxIx} {t : Option UInt8} {tk : Tokens} (hw : w.WF) (hd : (m swig).data = w.encode) (hrole : role < 2 ^ 32)
    (hs : sub.length = 32) (htk : (m tk.sub).owner ≠ systemId)
    (hk : metas.map Meta.key = (Client.withdrawSubTokenV1 env swig payer sub wallet tk role amount (.exec p t)).accounts.map Meta.key) :
    ∀ m', process env cpi m metas (Client.withdrawSubTokenV1 env swig payer sub wallet tk role amount (.exec p t)).data ≠ .ok m' := by
  intro m' h
  obtain ⟨_, a, b, l', h1, h2⟩ := withdrawSub_acts hw hd hrole hk hs h
  simp [ro, Client.w] at h1
  rw [← h1.2.1] at h2
  exact htk h2

/-- Program-exec signing for a sub-account: the payer is where the program expects the sub-account, so every such request is refused
unless the payer itself is a sub-account of the wallet. -/
theorem C71_exec_sign {env : Env} {cpi : Cpi} {m : Mem} {metas : List Meta} {swig payer sub : Key} {w : Wallet} {role : Nat}
    {inner : List FullIx} {p : TxIx} {t : Option UInt8} (hw : w.WF) (hd : (m swig).data = w.encode) (hrole : role < 2 ^ 32)
    (hp : payer.length = 32) (hno : ∀ r ∈ w.roles, ∀ a ∈ r.actions, a.ty = P.subAccount → a.data.take 32 ≠ payer)
    (hsmall : (Client.subSignV1 env swig payer sub role inner (.exec p t)).data.length ≤ 1232)
    (hk : metas.map Meta.key = (Client.subSignV1 env swig payer sub role inner (.exec p t)).accounts.map Meta.key) :
    ∀ m', process env cpi m metas (Client.subSignV1 env swig payer sub role inner (.exec p t)).data ≠ .ok m' := by
  intro m' h
  obtain ⟨l, hl⟩ := compact_keys [swig, sub] [ro swig, ros payer, Client.w sub, ro systemId, ro instructionsSysvarId] inner
  have hk' : metas.map Meta.key = swig :: payer :: sub :: systemId :: instructionsSysvarId :: l := by rw [hk]; exact hl
  simp only [Client.subSignV1, byExec, subSignData, List.length_append] at hsmall
  obtain ⟨r, h1, a, h2, h3, h4⟩ := subSign_acts (inner := compactBytes (compactInstructions [swig, sub]
      [ro swig, ros payer, Client.w sub, ro systemId, ro instructionsSysvarId] inner).2) hw hd hrole hk' hp (by omega) h
  exact hno r (role?_mem h1.1).1 a h2 h3 h4

/-- The instruction data the client builds for the precompile name the message they were built from. -/
theorem r1Verify_message {msg sig pk key msg' : Bytes} (hm : msg.length < 2 ^ 16) (hs : sig.length = 64) (hp : pk.length = 33)
    (h : R1Layout (r1Verify msg sig pk).data key msg') : msg' = msg := by
  have hd : (r1Verify msg sig pk).data = ([1, 0] ++ natLE 2 49 ++ natLE 2 0xFFFF ++ natLE 2 16 ++ natLE 2 0xFFFF ++ natLE 2 113 ++
    natLE 2 msg.length ++ natLE 2 0xFFFF ++ pk ++ sig) ++ msg := by simp [r1Verify]
  have e10 : rd (r1Verify msg sig pk).data 10 2 = 113 := by
    have := rd_full 2 113 (by decide) ([1, 0] ++ natLE 2 49 ++ natLE 2 0xFFFF ++ natLE 2 16 ++ natLE 2 0xFFFF)
      (natLE 2 msg.length ++ natLE 2 0xFFFF ++ pk ++ sig ++ msg) (i := 10) (by simp)
    rw [hd]; simpa [List.append_assoc] using this
  have e12 : rd (r1Verify msg sig pk).data 12 2 = msg.length := by
    have := rd_full 2 msg.length (by simpa using hm) ([1, 0] ++ natLE 2 49 ++ natLE 2 0xFFFF ++ natLE 2 16 ++ natLE 2 0xFFFF ++ natLE 2 113)
      (natLE 2 0xFFFF ++ pk ++ sig ++ msg) (i := 12) (by simp)
    rw [hd]; simpa [List.append_assoc] using this
  have := h.msgAt
  rw [e10, e12, hd] at this
  rw [← this]
  have := sl_mid ([1, 0] ++ natLE 2 49 ++ natLE 2 0xFFFF ++ natLE 2 16 ++ natLE 2 0xFFFF ++ natLE 2 113 ++
    natLE 2 msg.length ++ natLE 2 0xFFFF ++ pk ++ sig) msg [] (i := 113) (j := 113 + msg.length) (by simp [hs, hp]) (by simp [hs, hp])
  simpa using this

/-- Secp256r1 in general: the builders sign the account flags they ask for, the program checks the flags the accounts have in the whole
transaction.  If they differ (an account is also written to or signs elsewhere in the transaction, or pays the fees), the request is
refused unless Keccak collides on the two messages. -/
theorem C71_flags {env : Env} {m : Mem} {metas : List Meta} {a : Auth} {pk pad : Bytes} {n slot counter : Nat} {sign : Bytes → Bytes}
    {accounts : List Meta} {data signed out : Bytes} {index : UInt8} {pre post : List TxIx} (hh : HashLength env) (hw : a.WF)
    (hc : a.cred = .secp256r1 pk pad n) (hslot : slot < 2 ^ 64) (hcnt : counter < 2 ^ 32) (hsig : ∀ x, (sign x).length = 64)
    (hsent : Sent m metas (byR1 env accounts data signed sign pk slot counter index) pre post)
    (h32 : ∀ x ∈ accounts, x.key.length = 32) (hne : metas ≠ accounts)
    (h : authenticate env a.ty a.encode metas (m instructionsSysvarId).data
      (natLE 8 slot ++ natLE 4 counter ++ [index] ++ zeros 4) signed = .ok out) :
    env.keccak (signed ++ accountsPayload metas ++ natLE 8 slot ++ natLE 4 counter) =
      env.keccak (signed ++ accountsPayload accounts ++ natLE 8 slot ++ natLE 4 counter) ∧
    signed ++ accountsPayload metas ++ natLE 8 slot ++ natLE 4 counter ≠
      signed ++ accountsPayload accounts ++ natLE 8 slot ++ natLE 4 counter := by
  have hkeys := hsent.accounts.keys
  have h32' : ∀ x ∈ metas, x.key.length = 32 := by
    intro x hx
    have : x.key ∈ metas.map Meta.key := List.mem_map_of_mem hx
    rw [hkeys] at this
    obtain ⟨y, hy, e⟩ := List.mem_map.mp this
    rw [← e]; exact h32 y hy
  have hlen : metas.length = accounts.length := hsent.accounts.length
  have hpk : pk.length = 33 := by have := hw.cred; rw [hc] at this; exact this.1
  constructor
  · rw [hsent.shown] at h
    obtain ⟨_, _, _, _, _, msg, ix, i, h1, h2, h3, _, h5⟩ := C31_secp256r1 env a pk pad n metas _ _ _ signed out hw hc hsent.fits h
    generalize hP : natLE 8 slot ++ natLE 4 counter ++ [index] ++ zeros 4 = P at h1
    have hPl : P.length = 17 := by rw [← hP]; simp
    have f1 : rd P 0 8 = slot := by
      have := rd_full 8 slot (by simpa using hslot) [] (natLE 4 counter ++ [index] ++ zeros 4) (i := 0) rfl
      rw [← hP]; simpa [List.append_assoc] using this
    have f2 : rd P 8 4 = counter := by
      have := rd_full 4 counter (by simpa using hcnt) (natLE 8 slot) ([index] ++ zeros 4) (i := 8) (by simp)
      rw [← hP]; simpa [List.append_assoc] using this
    rw [f1, f2, show P.drop 17 = [] by rw [← hPl, List.drop_length]] at h1
    simp only [r1Message, if_true] at h1
    have hi : i = pre.length := by simp only [byR1, List.length_singleton] at h2; omega
    subst hi
    simp only [byR1, List.append_assoc, List.cons_append, List.nil_append] at h3
    rw [List.getElem?_append_right (Nat.le_refl _), Nat.sub_self] at h3
    simp only [List.getElem?_cons_zero, Option.some.injEq] at h3
    subst h3
    have := r1Verify_message (by unfold r1Digest; rw [hh]; decide) (hsig _) hpk h5
    rw [this] at h1
    rw [accountsPayload_eq metas]
    exact Except.ok.inj h1
  · intro e
    rw [accountsPayload_eq, accountsPayload_eq] at e
    exact hne (C30_binds_partial signed signed metas accounts slot slot counter counter hslot hslot hcnt hcnt h32' h32 hlen e).2.1

/-- The SOL withdrawal of a Secp256r1 role asks for the payer as a read-only account.  If the payer pays the fees, it is writable, and the
request is refused unless Keccak collides on two messages that differ in this flag. -/
theorem C71_secp256r1_withdraw {env : Env} {cpi : Cpi} {m m' : Mem} {metas : List Meta} {swig payer sub wallet : Key} {w : Wallet}
    {role amount : Nat} {r : Role} {a : Auth} {pk pad : Bytes} {n slot counter : Nat} {sign : Bytes → Bytes} {pre post : List TxIx} {x : Meta}
    (hh : HashLength env)
    (hr : Ready env m swig w role r a metas (Client.withdrawSubV1 env swig payer sub wallet role amount (.secp256r1 sign pk slot counter)) pre post)
    (hc : a.cred = .secp256r1 pk pad n) (hns : a.session = none) (hslot : slot < 2 ^ 64) (hcnt : counter < 2 ^ 32)
    (hsig : ∀ x, (sign x).length = 64) (h32 : ∀ k ∈ [swig, payer, sub, wallet], k.length = 32)
    (hx : metas[1]? = some x) (hwr : x.writable = true)
    (h : process env cpi m metas (Client.withdrawSubV1 env swig payer sub wallet role amount (.secp256r1 sign pk slot counter)).data = .ok m') :
    let asked := (Client.withdrawSubV1 env swig payer sub wallet role amount (.secp256r1 sign pk slot counter)).accounts
    let text := fun ms => withdrawSubData role amount ++ accountsPayload ms ++ natLE 8 slot ++ natLE 4 counter
    env.keccak (text metas) = env.keccak (text asked) ∧ text metas ≠ text asked := by
  intro asked text
  have hs := hr.sent
  obtain ⟨⟨r', h1⟩, _⟩ := withdrawSub_acts hr.wf hr.stored (acting_lt hr.wf hr.role) hs.accounts.keys (h32 sub (by simp)) h
  have : r' = r := by have := h1.1; rw [hr.role] at this; exact (Option.some.inj this).symm
  subst this
  have h2 := h1.2
  have hty : r'.authType = T.secp256r1 := by
    rw [← hr.cred.2.1]; unfold Auth.ty; rw [hc, hns]; rfl
  unfold authRole at h2
  rw [if_neg (by rw [hty]; decide), ← hr.cred.2.1, ← hr.cred.2.2] at h2
  refine C71_flags hh hr.cred.1 hc hslot hcnt hsig hs ?_ ?_ h2
  · intro y hy
    change y ∈ [Client.w swig, ros payer, Client.w sub, ro instructionsSysvarId, Client.w wallet, ro systemId] at hy
    simp [ro, ros, Client.w] at hy
    rcases hy with rfl | rfl | rfl | rfl | rfl | rfl
    · exact h32 _ (by simp)
    · exact h32 _ (by simp)
    · exact h32 _ (by simp)
    · decide
    · exact h32 _ (by simp)
    · decide
  · intro e
    rw [e] at hx
    change some (ros payer) = some x at hx
    cases hx
    cases hwr

section
open Sample SampleClient

/-- Roles 2 and 3 of the sample wallet are a Secp256k1 and a Secp256r1 role with All. -/
example : wallet1.role? 2 = some role2 ∧ role2.authType = T.secp256k1 ∧ (∀ x, (sign1 x).length = 65) ∧
    wallet1.role? 3 = some role3 ∧ role3.authType = T.secp256r1 := ⟨rfl, rfl, fun _ => rfl, rfl, rfl⟩

/-- What the five older requests look like for them: small, and refused for the length of the payload. -/
def olderSamples : List Older :=
  [.create 255, .withdrawToken ⟨K 40, K 41, K 42⟩ 5, .sign [⟨K 43, [⟨K 44, false, true⟩], [1, 2]⟩], .toggle 1 false, .transfer]

example : ∀ q ∈ olderSamples, ∀ c ∈ [callerK1, callerR1],
    (q.built env1 (K 1) (K 5) (K 7) (K 3) 2 c).data.length ≤ 1232 ∧ (∀ t e, q = .toggle t e → t < 2 ^ 32) := by
  intro q hq c hc
  refine ⟨by revert q c; decide, ?_⟩
  rintro t e rfl
  simp [olderSamples] at hq
  omega

/-- The refusal on such a request: the payload is too short. -/
example : (match process env1 (fun m _ => .ok m) (memOf (Older.transfer.built env1 (K 1) (K 10) (K 7) (K 2) 2 callerK1))
    (Older.transfer.built env1 (K 1) (K 10) (K 7) (K 2) 2 callerK1).accounts
    (Older.transfer.built env1 (K 1) (K 10) (K 7) (K 2) 2 callerK1).data with | .ok _ => none | .error e => some e) =
    some E.au_invalidAuthorityPayload := by decide +kernel

/-- Disagreement: it is not true that what the library builds for the owner of a role with the permission All succeeds (compare C70):
the asset transfer of a Secp256k1 role and of a Secp256r1 role are always refused. -/
theorem C71_refuted : ∀ role ∈ [2, 3], ∃ r a c b, sampleCase role = some (r, a, c) ∧
    b = Client.transferAssets env1 (K 1) (K 2) (K 10) role c ∧ Ready env1 (memOf b) (K 1) wallet1 role r a b.accounts b [] [] ∧
    ActsFor env1 a b.accounts b [] c ∧ r.holds P.all ∧ ∀ cpi m', process env1 cpi (memOf b) b.accounts b.data ≠ .ok m' := by
  intro role hrole
  simp only [List.mem_cons, List.not_mem_nil, or_false] at hrole
  rcases hrole with rfl | rfl
  · obtain ⟨h1, h2, _⟩ := sample_acts (acting := 2) (data := []) (r := role2) (a := auth2) (c := callerK1) rfl
    refine ⟨role2, auth2, callerK1, _, rfl, rfl, ready_sample h1 h2 (by decide +kernel) (by decide +kernel) (by decide +kernel),
      Or.inl ⟨rfl, _, _, _, rfl, by decide +kernel, by decide +kernel, by decide +kernel, by decide +kernel, signs1, rfl⟩,
      by decide +kernel, ?_⟩
    intro cpi
    exact C71_secp256k1 (payer := K 10) (sub := K 7) (counter := 8) Older.transfer wallet1_wf (by decide +kernel) h1 rfl (fun _ => rfl) rfl
      ⟨fun _ _ h => (by cases h), by decide +kernel⟩ rfl
  · obtain ⟨h1, h2, _⟩ := sample_acts (acting := 3) (data := []) (r := role3) (a := auth3) (c := callerR1) rfl
    refine ⟨role3, auth3, callerR1, _, rfl, rfl, ready_sample h1 h2 (by decide +kernel) (by decide +kernel) (by decide +kernel),
      Or.inl ⟨rfl, _, _, rfl, by decide +kernel, by decide +kernel, by decide +kernel, by decide +kernel, fun _ => rfl, rfl⟩,
      by decide +kernel, ?_⟩
    intro cpi
    exact C71_secp256r1 (payer := K 10) (sub := K 7) Older.transfer wallet1_wf (by decide +kernel) h1 rfl rfl
      ⟨fun _ _ h => (by cases h), by decide +kernel⟩ rfl

/-- For the program-exec requests: a wallet without sub-accounts, the System program owned by the native loader. -/
example : (∀ r ∈ wallet1.roles, ∀ a ∈ r.actions, a.ty = P.subAccount → a.data.take 32 ≠ K 10) ∧
    (Client.subSignV1 env1 (K 1) (K 10) (K 7) 4 [⟨K 43, [⟨K 44, false, true⟩], [1, 2]⟩] callerExec).data.length ≤ 1232 := by
  decide +kernel

/-- Flags: the payer as asked for and as seen when it pays the fees. -/
example : (Client.withdrawSubV1 env1 (K 1) (K 10) (K 7) (K 2) 3 5 callerR1).accounts[1]? = some ⟨K 10, true, false⟩ ∧
    Promoted (Client.withdrawSubV1 env1 (K 1) (K 10) (K 7) (K 2) 3 5 callerR1).accounts
      [⟨K 1, false, true⟩, ⟨K 10, true, true⟩, ⟨K 7, false, true⟩, ⟨instructionsSysvarId, false, false⟩, ⟨K 2, false, true⟩,
        ⟨systemId, false, false⟩] := by
  refine ⟨rfl, rfl, ?_, ?_⟩
  · intro i a h hs
    match i, h with
    | 0, h => cases h; cases hs
    | 1, h => exact ⟨_, rfl, rfl⟩
    | 2, h => cases h; cases hs
    | 3, h => cases h; cases hs
    | 4, h => cases h; cases hs
    | 5, h => cases h; cases hs
    | _ + 6, h => cases h
  · intro i a h hs _
    match i, h with
    | 0, h => exact ⟨_, rfl, rfl⟩
    | 1, h => exact ⟨_, rfl, rfl⟩
    | 2, h => exact ⟨_, rfl, rfl⟩
    | 3, h => cases h; cases hs
    | 4, h => exact ⟨_, rfl, rfl⟩
    | 5, h => cases h; cases hs
    | _ + 6, h => cases h

end

end Verif
