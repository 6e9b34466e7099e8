import Verif.Spec.SdkSend
import Verif.Props.SdkCounter
import Verif.Props.Sdk
import Verif.Props.ClientMore
import Verif.Props.Sign

/-!
# Requests of a wallet object

Property C86: a wallet object of the Rust SDK that has what proves its role gets done what its methods promise.  Vocabulary:
Spec/SdkSend.lean.
-/

namespace Verif
open Sdk Client

/-! ## Lemmas -/

section
variable {env : Env} {a : Auth} {slot : Option Nat} {metas : List Meta} {b : Built} {h : Holder} {pre : List TxIx} {c : Caller}

theorem Sdk.Holder.Acts.for (ha : h.Acts env a slot metas b) (hc : h.caller slot = some c) : ActsFor env a metas b pre c := by
  cases h with
  | ed25519 k => cases hc; exact .inl ⟨ha.1, ha.2⟩
  | secp256k1 k f n =>
    obtain ⟨h1, ⟨pk, pad, h2, h3⟩, ⟨s, rfl, h4, h5, h6⟩, h7⟩ := ha
    cases hc
    exact .inl ⟨h1, pk, pad, n, h2, rfl, h4, h5, h6, h3, h7⟩
  | secp256r1 k f n =>
    obtain ⟨h1, ⟨pad, h2⟩, h3, ⟨s, rfl, h4, h5, h6⟩, h7⟩ := ha
    cases hc
    exact .inl ⟨h1, pad, n, h2, rfl, h4, h5, h6, h3, h7⟩
  | ed25519Session k s n => obtain ⟨x, h1, rfl, h3⟩ := ha; cases hc; exact .inr ⟨x, h1, h3, rfl⟩
  | secp256k1Session k s n f i => obtain ⟨x, h1, rfl, h3⟩ := ha; cases hc; exact .inr ⟨x, h1, h3, rfl⟩
  | secp256r1Session k s n f i => obtain ⟨x, h1, rfl, h3⟩ := ha; cases hc; exact .inr ⟨x, h1, h3, rfl⟩
  | exec p x t =>
    obtain ⟨h1, program, plen, pad, buf, h2, h3⟩ := ha
    cases hc
    exact .inl ⟨h1, program, plen, pad, buf, h2, h3, fun i hi => by cases hi⟩

theorem Sdk.Holder.Starts.owns (ha : h.Starts env a slot metas b) (hc : h.sessionCaller slot = some c) : Owns env a metas b pre c := by
  cases h with
  | ed25519Session k s n => cases hc; exact ha
  | secp256k1Session k s n f i =>
    obtain ⟨⟨pk, pad, h2, h3⟩, ⟨s, rfl, h4, h5, h6⟩, h7⟩ := ha
    cases hc
    exact ⟨pk, pad, i, h2, rfl, h4, h5, h6, h3, h7⟩
  | secp256r1Session k s n f i =>
    obtain ⟨⟨pad, h2⟩, h3, ⟨s, rfl, h4, h5, h6⟩, h7⟩ := ha
    cases hc
    exact ⟨pad, i, h2, rfl, h4, h5, h6, h3, h7⟩
  | _ => exact absurd ha id

theorem Sdk.sent_build {o : Obj} {q : Req} {bs : List Built} (hs : o.send env slot q = some bs) :
    ∃ c, q.caller o.holder slot = some c ∧ o.build env c q = some bs ∧ signed (o.signers q) (needed o.payer bs) = true := by
  simp only [Obj.send, Option.bind_eq_some_iff] at hs
  obtain ⟨x, h1, h2⟩ := hs
  split at h2
  · rename_i hsig
    cases h2
    obtain ⟨c, h3, h4⟩ := instructions_build h1
    exact ⟨c, h3, h4, hsig⟩
  · cases h2

theorem Sdk.granted_all {ps : List Permission} (hin : ∀ p ∈ ps, p.InRange) :
    All2 (fun (p : Permission) x => p.granted.Names x) ps ((toClientActions ps).map Action.toAct) := by
  induction ps with
  | nil => exact .nil
  | cons p ps ih => exact .cons (C81_granted p (hin p (by simp))).2.2 (ih fun x hx => hin x (by simp [hx]))

end

/-! ## What the requests do -/

section
variable {env : Env} {cpi : Cpi} {m : Mem} {metas : List Meta} {o : Obj} {w : Wallet} {r : Role} {a : Auth} {b : Built} {pre post : List TxIx}
  {slot : Option Nat}

/-- Adding an authority, by a holder of any kind but Secp256k1: afterwards there is a role with the next id, the credential and one
permission for each of those given. -/
theorem C86_add_partial {ty : Nat} {cred : Bytes} {ps : List Permission} {auth : Auth} (hh : HashLength env)
    (hs : o.send env slot (.addAuthority ty cred ps) = some [b]) (hr : Ready env m o.swig w o.role r a metas b pre post)
    (ha : o.holder.Acts env a slot metas b) (hk1 : ∀ k f n, o.holder ≠ .secp256k1 k f n)
    (hperm : r.holds P.all ∨ r.holds P.manageAuthority) (hcred : initialAuth ty cred = some auth)
    (hin : ∀ p ∈ ps, p.InRange) (hd : ∀ d a c, Permission.solDestination d a (some c) ∈ ps → c.window ≠ 0)
    (ht : ∀ m d a c, Permission.tokenDestination m d a (some c) ∈ ps → c.window ≠ 0)
    (hz : ∀ k, Permission.subAccount k ∈ ps → k = zeros 32) (h1 : 1 ≤ ps.length) (h255 : ps.length ≤ 255)
    (hdup : NoV2Dup ((toClientActions ps).map Action.toAct)) (hlen : (writeActions (toClientActions ps)).length < 2 ^ 16)
    (hcount : w.roles.length + 1 < 2 ^ 16) (hctr : w.roleCounter + 1 < 2 ^ 32)
    (hsize : MayGrow w.encode.length (16 + auth.encode.length + (writeActions (toClientActions ps)).length))
    (hpay : Client.Pays env m o.payer o.swig (w.encode.length + (16 + auth.encode.length + (writeActions (toClientActions ps)).length))) :
    ∃ m' acts, process env cpi m metas b.data = .ok m' ∧ All2 (fun p x => p.granted.Names x) ps acts ∧
      (m' o.swig).data = ((w.used o.role).addRole ty auth.encode acts).encode ∧ OnlyData m m' o.swig ∧
      o.settle (m' o.swig).data (.addAuthority ty cred ps) = (o, true) := by
  obtain ⟨c, hc, hb, _⟩ := sent_build hs
  have hn : o.holder.newAuthority cred = cred := by
    unfold Holder.newAuthority
    split
    · rename_i e; exact absurd e (hk1 _ _ _)
    · rfl
  simp only [Obj.build, hn, Option.some.injEq, List.cons.injEq, and_true] at hb
  subst hb
  have hin' : ∀ x ∈ toClientActions ps, x.InRange := by
    intro x hx
    simp only [toClientActions, List.mem_map] at hx
    obtain ⟨p, hp, rfl⟩ := hx
    exact (C81_granted p (hin p hp)).1
  have hfr : ∀ x ∈ toClientActions ps, x.toAct.Fresh := by
    intro x hx
    simp only [toClientActions, List.mem_map] at hx
    obtain ⟨p, hp, rfl⟩ := hx
    exact C81_acceptable p (hin p hp) (fun d a c e => hd d a c (e ▸ hp)) (fun m d a c e => ht m d a c (e ▸ hp)) (fun k e => hz k (e ▸ hp))
  have hl : (toClientActions ps).length = ps.length := by simp [toClientActions]
  obtain ⟨m', g1, g2, g3, _⟩ := C70_add (cpi := cpi) hh hr (ha.for hc) hperm hcred hin' hfr (by omega) (by omega) hdup hlen hcount hctr hsize hpay
  exact ⟨m', _, g1, granted_all hin, g2, g3, rfl⟩

/-- Removing an authority: afterwards the role is gone. -/
theorem C86_remove {target : Nat} {t : Role} (hh : HashLength env)
    (hs : o.send env slot (.removeAuthority target) = some [b]) (hr : Ready env m o.swig w o.role r a metas b pre post)
    (ha : o.holder.Acts env a slot metas b)
    (hperm : (r.holds P.all ∨ r.holds P.manageAuthority) ∨ o.role = target) (ht : w.role? target = some t) (h0 : target ≠ 0) :
    ∃ m', process env cpi m metas b.data = .ok m' ∧ (m' o.swig).data = ((w.used o.role).removeRole target).encode ∧ OnlyData m m' o.swig := by
  obtain ⟨c, hc, hb, _⟩ := sent_build hs
  simp only [Obj.build, Option.some.injEq, List.cons.injEq, and_true] at hb
  subst hb
  exact C70_remove hh hr (ha.for hc) hperm ht h0

/-- Updating an authority: afterwards the role has exactly the changed permissions. -/
theorem C86_update {target : Nat} {u : UpdateData} {t : Role} (hh : HashLength env)
    (hs : o.send env slot (.updateAuthority target u) = some [b]) (hr : Ready env m o.swig w o.role r a metas b pre post)
    (ha : o.holder.Acts env a slot metas b)
    (hperm : r.holds P.all ∨ r.holds P.manageAuthority) (ht : w.role? target = some t)
    (hin : ∀ x ∈ u.toChange.acts, x.InRange) (hix : ∀ i ∈ u.toChange.indices, i < 2 ^ 16) (hlen : u.toChange.bytes.length < 2 ^ 16)
    (hfr : ∀ x ∈ u.toChange.result t.actions, x.Fresh) (h1 : 1 ≤ (u.toChange.result t.actions).length)
    (h255 : (u.toChange.result t.actions).length ≤ 255) (hdup : NoV2Dup (u.toChange.result t.actions))
    (hgrow : u.toChange.op.growth (actsSize t.actions) > 0 → MayGrow w.encode.length (u.toChange.op.growth (actsSize t.actions)) ∧
      Client.Pays env m o.payer o.swig (w.encode.length + u.toChange.op.growth (actsSize t.actions))) :
    ∃ m', process env cpi m metas b.data = .ok m' ∧
      (m' o.swig).data = ((w.used o.role).setActions target (u.toChange.result t.actions)).encode ∧ OnlyData m m' o.swig := by
  obtain ⟨c, hc, hb, _⟩ := sent_build hs
  simp only [Obj.build, Option.some.injEq, List.cons.injEq, and_true] at hb
  subst hb
  obtain ⟨m', g1, g2, g3, _⟩ := C70_update (cpi := cpi) hh hr (ha.for hc) hperm ht hin hix hlen hfr h1 h255 hdup hgrow
  exact ⟨m', g1, g2, g3⟩

/-- Starting a session. -/
theorem C86_session {key : Key} {duration : Nat} {s : Session} (hh : HashLength env)
    (hs : o.send env slot (.createSession key duration) = some [b]) (hr : Ready env m o.swig w o.role r a metas b pre post)
    (ha : o.holder.Starts env a slot metas b) (hss : a.session = some s) (hk : key.length = 32) (hdur : duration ≤ s.max) :
    ∃ m', process env cpi m metas b.data = .ok m' ∧
      (m' o.swig).data = (w.setAuth o.role (⟨a.cred.used, some ⟨key, s.max, (env.slot + duration) % 2 ^ 64⟩⟩ : Auth).encode).encode ∧
      m' = m.setData o.swig (m' o.swig).data := by
  obtain ⟨c, hc, hb, _⟩ := sent_build hs
  simp only [Obj.build, Option.some.injEq, List.cons.injEq, and_true] at hb
  subst hb
  exact C70_session hh hr (ha.owns hc) hss hk hdur

/-- Naming a rent claimer. -/
theorem C86_claimer {claimer : Key} (hh : HashLength env)
    (hs : o.send env slot (.setRentClaimer claimer) = some [b]) (hr : Ready env m o.swig w o.role r a metas b pre post)
    (ha : o.holder.Acts env a slot metas b)
    (hperm : r.holds P.all ∨ r.holds P.closeSwigAuthority) (hnone : w.claimer = none)
    (hk : claimer.length = 32) (c1 : claimer ≠ zeros 32) (c2 : claimer ≠ o.swig)
    (hwal : env.pda (walletSeeds o.swig ++ [[w.walletBump]]) = some o.wallet) (c3 : claimer ≠ o.wallet)
    (hsize : MayGrow w.encode.length 40) (hpay : Client.Pays env m o.payer o.swig (w.encode.length + 40)) :
    ∃ m', process env cpi m metas b.data = .ok m' ∧
      (m' o.swig).data = ((w.used o.role).setClaimer claimer).encode ∧ OnlyData m m' o.swig := by
  obtain ⟨c, hc, hb, _⟩ := sent_build hs
  simp only [Obj.build, Option.map_eq_some_iff, List.cons.injEq, and_true, exists_eq_right] at hb
  exact C70_claimer hh hb hr (ha.for hc) hperm hnone hk c1 c2 hwal c3 hsize hpay

/-- Signing one instruction with the wallet, by a role with All or AllButManageAuthority and a holder of any kind but program-exec. -/
theorem C86_sign_partial {inner : FullIx} (hh : HashLength env)
    (hs : o.send env slot (.signV2 [inner]) = some [b]) (hr : Ready env m o.swig w o.role r a metas b pre post)
    (ha : o.holder.Acts env a slot metas b) (hx : ∀ p x t, o.holder ≠ .exec p x t)
    (hfree : ¬ Restricted r) (hwal : (m o.wallet).owner = systemId) (htop : env.stackHeight = 1)
    (hsmall : b.accounts.length ≤ 64 ∧ b.data.length < 2 ^ 16) (hf : inner.accounts.length ≤ 254 ∧ inner.data.length < 2 ^ 16) :
    ∃ i : Inner, i.program = inner.program ∧ i.accounts.map (·.key) = inner.accounts.map (·.key) ∧ i.data = inner.data ∧
      process env cpi m metas b.data =
        execAll env cpi metas o.wallet (walletSeeds o.swig ++ [[w.walletBump]]) (m.setData o.swig (w.used o.role).encode) [i] := by
  obtain ⟨c, hc, hb, _⟩ := sent_build hs
  have he : o.signs env [inner] c = [Client.signV2 env o.swig o.wallet o.payer o.role inner [o.payer] c] := by
    unfold Obj.signs
    split
    · rename_i e; exact absurd e (hx _ _ _)
    · rfl
  simp only [Obj.build, he, Option.some.injEq, List.cons.injEq, and_true] at hb
  subst hb
  exact C77_sign hh hr (ha.for hc) hfree hwal htop hsmall hf

/-- Creating a sub-account. -/
theorem C86_create_sub {state sub : Key} {sb ab : UInt8} (hh : HashLength env)
    (hs : o.send env slot (.createSubV2 state sub sb ab) = some [b]) (hr : Ready env m o.swig w o.role r a metas b pre post)
    (ha : o.holder.Acts env a slot metas b)
    (hv : w.walletBump ≠ 0 ∧ w.pad = zeros 3) (hperm : r.holds P.subAccountV2Create) (hnum : w.subCounter + 1 < 2 ^ 32)
    (hfresh : (m state).owner = systemId ∧ (m state).data = [] ∧ (m sub).owner = systemId)
    (hp1 : env.pda (subV2StateSeeds w.id (natLE 4 w.subCounter) ++ [[sb]]) = some state)
    (hp2 : env.pda (subV2Seeds w.id (natLE 4 w.subCounter) ++ [[ab]]) = some sub) (hsub : sub.length = 32)
    (hfr : ∀ x ∈ r.actions, x.Fresh) (h255 : r.actions.length < 255) (hsize : MayGrow w.encode.length 16)
    (hkeys : [o.payer, o.swig, state, sub, systemId].Nodup) (hpay : (m o.payer).owner = systemId ∧ (m o.payer).data = [])
    (hfunds : (env.rent 72 - (m state).lamports) + (env.rent 0 - (m sub).lamports) +
      (env.rent (w.encode.length + 16) - (m o.swig).lamports) ≤ (m o.payer).lamports) :
    ∃ m' acts, process env cpi m metas b.data = .ok m' ∧
      (m' o.swig).data = ({ w.used o.role with subCounter := w.subCounter + 1 }.setActions o.role acts).encode ∧
      (acts = r.actions ∨ acts = r.actions ++ [⟨P.subAccountV2All, natLE 4 w.subCounter ++ zeros 4⟩]) ∧
      SubAt env m' w state sub w.subCounter true sb ab := by
  obtain ⟨c, hc, hb, _⟩ := sent_build hs
  simp only [Obj.build, Option.map_eq_some_iff, List.cons.injEq, and_true, exists_eq_right] at hb
  obtain ⟨m', acts, g1, g2, g3, _, g5, _⟩ := C77_create_sub (cpi := cpi) hh hb hr (ha.for hc) hv hperm hnum hfresh hp1 hp2 hsub hfr h255 hsize hkeys
    hpay hfunds
  exact ⟨m', acts, g1, g2, g3, g5⟩

/-- Enabling and disabling a sub-account. -/
theorem C86_toggle_sub {state sub : Key} {id : Nat} {sb ab : UInt8} {was en : Bool} (hh : HashLength env)
    (hs : o.send env slot (.toggleSubV2 state id en) = some [b]) (hr : Ready env m o.swig w o.role r a metas b pre post)
    (ha : o.holder.Acts env a slot metas b)
    (hv : w.walletBump ≠ 0 ∧ w.pad = zeros 3) (hsub : SubAt env m w state sub id was sb ab) (hperm : MayUse r P.subAccountV2Toggle id) :
    ∃ m', process env cpi m metas b.data = .ok m' ∧ (m' o.swig).data = (w.used o.role).encode ∧ SubAt env m' w state sub id en sb ab ∧
      (∀ k, (m' k).lamports = (m k).lamports ∧ (m' k).owner = (m k).owner) ∧ ∀ k, k ≠ o.swig → k ≠ state → m' k = m k := by
  obtain ⟨c, hc, hb, _⟩ := sent_build hs
  simp only [Obj.build, Option.map_eq_some_iff, List.cons.injEq, and_true, exists_eq_right] at hb
  exact C77_toggle_sub hh hb hr (ha.for hc) hv hsub hperm

/-- Withdrawing SOL from a sub-account to the wallet. -/
theorem C86_withdraw_sol {state sub : Key} {id n : Nat} {sb ab : UInt8} (hh : HashLength env)
    (hs : o.send env slot (.withdrawSubV2 state sub none id n) = some [b]) (hr : Ready env m o.swig w o.role r a metas b pre post)
    (ha : o.holder.Acts env a slot metas b)
    (hv : w.walletBump ≠ 0 ∧ w.pad = zeros 3) (hsub : SubAt env m w state sub id true sb ab) (hperm : MayUse r P.subAccountV2Withdraw id)
    (hwal : env.pda (walletSeeds o.swig ++ [[w.walletBump]]) = some o.wallet)
    (hown : (m sub).owner = systemId ∧ (m sub).data = [] ∧ (m o.wallet).owner = systemId)
    (hkeys : sub ≠ o.wallet ∧ sub ≠ systemId ∧ o.wallet ≠ systemId) (hn : n ≤ (m sub).lamports) (hn64 : n < 2 ^ 64) :
    ∃ m', process env cpi m metas b.data = .ok m' ∧ (m' o.swig).data = (w.used o.role).encode ∧
      (m' sub).lamports = (m sub).lamports - n ∧ (m' o.wallet).lamports = (m o.wallet).lamports + n ∧
      ∀ k, k ≠ sub → k ≠ o.wallet → (m' k).lamports = (m k).lamports := by
  obtain ⟨c, hc, hb, _⟩ := sent_build hs
  simp only [Obj.build, Option.map_eq_some_iff, List.cons.injEq, and_true, exists_eq_right] at hb
  obtain ⟨m', g1, g2, g3, g4, g5, _⟩ := C77_withdraw_sol (cpi := cpi) hh hb hr (ha.for hc) hv hsub hperm hwal hown hkeys hn hn64
  exact ⟨m', g1, g2, g3, g4, g5⟩

/-- Withdrawing tokens from a sub-account to the wallet: exactly one transfer of the token program. -/
theorem C86_withdraw_tokens {state sub : Key} {ts : Tokens} {id n : Nat} {sb ab : UInt8} (hh : HashLength env)
    (hs : o.send env slot (.withdrawSubV2 state sub (some ts) id n) = some [b]) (hr : Ready env m o.swig w o.role r a metas b pre post)
    (ha : o.holder.Acts env a slot metas b)
    (hv : w.walletBump ≠ 0 ∧ w.pad = zeros 3) (hsub : SubAt env m w state sub id true sb ab)
    (hperm : MayUse r P.subAccountV2Withdraw id) (hwal : env.pda (walletSeeds o.swig ++ [[w.walletBump]]) = some o.wallet)
    (hown : (m sub).owner = systemId ∧ (m o.wallet).owner = systemId)
    (hprog : ts.program = tokenId ∨ ts.program = token2022Id)
    (htok : (m ts.sub).owner = ts.program ∧ (m ts.wallet).owner = ts.program)
    (hlen : 165 ≤ (m ts.sub).data.length ∧ 165 ≤ (m ts.wallet).data.length)
    (hinit : (m ts.sub).data.getD 108 0 = 1 ∧ (m ts.wallet).data.getD 108 0 = 1)
    (hmint : sl (m ts.sub).data 0 32 = sl (m ts.wallet).data 0 32)
    (howner : sl (m ts.sub).data 32 64 = sub ∧ sl (m ts.wallet).data 32 64 = o.wallet)
    (hkeys : ts.sub ≠ systemId ∧ ts.wallet ≠ systemId) (hn64 : n < 2 ^ 64) :
    process env cpi m metas b.data = cpi (m.setData o.swig (w.used o.role).encode)
      ⟨ts.program, [⟨ts.sub, false, true⟩, ⟨ts.wallet, false, true⟩, ⟨sub, true, false⟩], 3 :: natLE 8 n⟩ := by
  obtain ⟨c, hc, hb, _⟩ := sent_build hs
  simp only [Obj.build, Option.map_eq_some_iff, List.cons.injEq, and_true, exists_eq_right] at hb
  exact C77_withdraw_tokens hh hb hr (ha.for hc) hv hsub hperm hwal hown hprog htok hlen hinit hmint howner hkeys hn64

/-- Executing instructions with the signature of a sub-account. -/
theorem C86_sign_sub {state sub : Key} {id : Nat} {inner : List FullIx} {sb ab : UInt8} (hh : HashLength env)
    (hs : o.send env slot (.signSubV2 state sub id inner) = some [b]) (hr : Ready env m o.swig w o.role r a metas b pre post)
    (ha : o.holder.Acts env a slot metas b)
    (hv : w.walletBump ≠ 0 ∧ w.pad = zeros 3) (hsub : SubAt env m w state sub id true sb ab)
    (hperm : MayUse r P.subAccountV2Sign id) (hown : (m sub).owner = systemId) (htop : env.stackHeight = 1)
    (hsmall : b.accounts.length ≤ 64 ∧ b.data.length < 2 ^ 16) (hn : inner.length ≤ 255)
    (hf : ∀ ix ∈ inner, ix.accounts.length ≤ 254 ∧ ix.data.length < 2 ^ 16) :
    ∃ ixs, All2 (fun (ix : FullIx) (i : Inner) => i.program = ix.program ∧ i.accounts.map (·.key) = ix.accounts.map (·.key) ∧
        i.data = ix.data) inner ixs ∧
      ∀ m', execAll env cpi metas sub (subV2Seeds w.id (natLE 4 id) ++ [[ab]]) (m.setData o.swig (w.used o.role).encode) ixs = .ok m' →
        env.rent (m' sub).data.length ≤ (m' sub).lamports → process env cpi m metas b.data = .ok m' := by
  obtain ⟨c, hc, hb, _⟩ := sent_build hs
  simp only [Obj.build, Option.map_eq_some_iff, List.cons.injEq, and_true, exists_eq_right] at hb
  exact C77_sign_sub hh hb hr (ha.for hc) hv hsub hperm hown htop hsmall hn hf

end

/-! ## Which requests are sent -/

/-- Managing requests. -/
def Sdk.Req.manages : Req → Bool
  | .addAuthority .. => true
  | .removeAuthority .. => true
  | .updateAuthority .. => true
  | .setRentClaimer .. => true
  | _ => false

section
variable {env : Env} {o : Obj} {slot : Option Nat}

private theorem needed_manage {D : Bytes} {c : Caller} (hx : ∀ p t, c ≠ .exec p t) (k : Key) :
    k ∈ needed o.payer [manageBy env o.swig o.payer D c] ↔ k = o.payer ∨ c = .ed25519 k := by
  cases c with
  | ed25519 x => simp [needed, manageBy, byEd, managing, Client.w, ws, ro, ros, eq_comm]
  | secp256k1 f s n => simp [needed, manageBy, byK1, managing, Client.w, ws, ro]
  | secp256r1 f x s n => simp [needed, manageBy, byR1, managing, Client.w, ws, ro, r1Verify]
  | exec p t => exact absurd rfl (hx p t)

private theorem signed_iff {l k : List Key} : signed l k = true ↔ ∀ x, x ∈ l ↔ x ∈ k := by
  simp only [signed, Bool.and_eq_true, List.all_eq_true, List.contains_iff_mem]
  exact ⟨fun h x => ⟨h.1 x, h.2 x⟩, fun h => ⟨fun x hx => (h x).mp hx, fun x hx => (h x).mpr hx⟩⟩

private theorem caller_signer {h : Holder} {c : Caller} (hc : h.caller slot = some c) (k : Key) : c = .ed25519 k ↔ h.signer = some k := by
  cases h with
  | ed25519 => cases hc; simp [Holder.signer]
  | ed25519Session => cases hc; simp [Holder.signer]
  | secp256k1Session => cases hc; simp [Holder.signer]
  | secp256r1Session => cases hc; simp [Holder.signer]
  | secp256k1 => 
    simp only [Holder.caller, Option.map_eq_some_iff] at hc
    obtain ⟨s, _, rfl⟩ := hc
    simp [Holder.signer]
  | secp256r1 => 
    simp only [Holder.caller, Option.map_eq_some_iff] at hc
    obtain ⟨s, _, rfl⟩ := hc
    simp [Holder.signer]
  | exec => cases hc; simp [Holder.signer]

/-- A managing request of a holder that is not program-exec is sent exactly when the slot is known where it is signed, the key that proves the
role is among the keys that sign the transaction, and no key signs that is not needed. -/
theorem C86_sent {q : Req} (hq : q.manages = true) (hx : ∀ p x t, o.holder ≠ .exec p x t) :
    (∃ b, o.send env slot q = some [b]) ↔ (o.holder.plainSecp = true → slot.isSome = true) ∧
      (∀ k, o.holder.signer = some k → k ∈ o.signers q) ∧ ∀ k ∈ o.signers q, k = o.payer ∨ o.holder.signer = some k := by
  have hpay : o.payer ∈ o.signers q := by
    unfold Obj.signers
    split
    · simp
    · split
      · split <;> simp
      · simp
  have hcs : q.caller o.holder slot = o.holder.caller slot := by cases q <;> first | rfl | cases hq
  have hpos : q.possible o.holder = true := by
    cases q <;> first | rfl | cases hq
    cases hh : o.holder <;> first | rfl | exact absurd hh (hx _ _ _)
  cases hc : o.holder.caller slot with
  | none =>
    have h1 : ¬ (o.holder.plainSecp = true → slot.isSome = true) := by
      intro h
      cases hh : o.holder <;> simp only [hh, Holder.caller] at hc <;> try cases hc
      all_goals
        rw [hh] at h
        have := h rfl
        cases slot <;> simp at this hc
    constructor
    · rintro ⟨b, hb⟩
      obtain ⟨c, h2, _⟩ := sent_build hb
      rw [hcs, hc] at h2
      cases h2
    · exact fun h => absurd h.1 h1
  | some c =>
    have hxc : ∀ p t, c ≠ .exec p t := by
      rintro p t rfl
      cases hh : o.holder <;> simp only [hh, Holder.caller] at hc <;> try cases hc
      · simp at hc
      · simp at hc
      · exact hx _ _ _ hh
    obtain ⟨D, hD⟩ : ∃ D, o.build env c q = some [manageBy env o.swig o.payer D c] := by
      cases q with
      | addAuthority => exact ⟨_, rfl⟩
      | removeAuthority =>
        cases c with
        | _ => exact ⟨_, rfl⟩
      | updateAuthority => exact ⟨_, rfl⟩
      | setRentClaimer =>
        cases c with
        | exec p t => exact absurd rfl (hxc p t)
        | _ => exact ⟨_, rfl⟩
      | _ => cases hq
    have h1 : o.holder.plainSecp = true → slot.isSome = true := by
      intro h
      cases hh : o.holder <;> rw [hh] at h <;> try cases h
      all_goals
        simp only [hh, Holder.caller] at hc
        cases slot <;> simp at hc ⊢
    have hsend : o.send env slot q = if signed (o.signers q) (needed o.payer [manageBy env o.swig o.payer D c]) = true then
        some [manageBy env o.swig o.payer D c] else none := by
      simp only [Obj.send, Obj.instructions, hpos, if_true, hcs, hc, Option.bind_some, hD]
    have key : signed (o.signers q) (needed o.payer [manageBy env o.swig o.payer D c]) = true ↔
        (∀ k, o.holder.signer = some k → k ∈ o.signers q) ∧ ∀ k ∈ o.signers q, k = o.payer ∨ o.holder.signer = some k := by
      rw [signed_iff]
      simp only [needed_manage hxc, caller_signer hc]
      constructor
      · exact fun h => ⟨fun k hk => (h k).mpr (.inr hk), fun k hk => (h k).mp hk⟩
      · rintro ⟨h2, h3⟩ x
        refine ⟨h3 x, ?_⟩
        rintro (rfl | h)
        · exact hpay
        · exact h2 x h
    constructor
    · rintro ⟨b, hb⟩
      rw [hsend] at hb
      refine ⟨h1, key.mp ?_⟩
      split at hb
      · assumption
      · cases hb
    · rintro ⟨_, h⟩
      exact ⟨_, by rw [hsend, if_pos (key.mpr h)]⟩

end

/-! ## What does not work -/

section
variable {env : Env} {o : Obj} {slot : Option Nat}

/-- Adding and removing authorities and naming a rent claimer are signed by the fee payer only: a role proved by another key cannot do it
through the SDK, even if its keypair has been given to the wallet object. -/
theorem C86_payer_refuted {k : Key} (hk : o.holder.signer = some k) (hne : k ≠ o.payer) :
    (∀ ty cred ps b, o.send env slot (.addAuthority ty cred ps) ≠ some [b]) ∧ (∀ target b, o.send env slot (.removeAuthority target) ≠ some [b]) ∧
      ∀ claimer b, o.send env slot (.setRentClaimer claimer) ≠ some [b] := by
  have key : ∀ q : Req, q.manages = true → o.signers q = [o.payer] → ∀ b, o.send env slot q ≠ some [b] := by
    intro q hq hp b hb
    have hx : ∀ p x t, o.holder ≠ .exec p x t := by intro p x t h; rw [h] at hk; cases hk
    obtain ⟨_, h, _⟩ := (C86_sent hq hx).mp ⟨b, hb⟩
    have := h k hk
    rw [hp] at this
    simp only [List.mem_singleton] at this
    exact hne this
  exact ⟨fun _ _ _ => key _ rfl rfl, fun _ => key _ rfl rfl, fun _ => key _ rfl rfl⟩

/-- Updating an authority is different: a wallet object with the keypair of the role sends it, whoever pays the fees. -/
theorem C86_update_sent {k : Key} (hk : o.holder.signer = some k) (hp : o.keypair = some k) (target : Nat) (u : UpdateData) :
    ∃ b, o.send env slot (.updateAuthority target u) = some [b] := by
  have hx : ∀ p x t, o.holder ≠ .exec p x t := by intro p x t h; rw [h] at hk; cases hk
  have hs : ∀ x, x ∈ o.signers (.updateAuthority target u) ↔ x = o.payer ∨ x = k := by
    intro x
    simp only [Obj.signers, Req.payerOnly, hp, Bool.false_eq_true, if_false]
    split
    · rename_i h; subst h; simp
    · simp
  refine (C86_sent rfl hx).mpr ⟨?_, ?_, ?_⟩
  · intro h
    cases hh : o.holder <;> rw [hh] at h hk <;> first | (cases hk; done) | (cases h; done)
  · intro x hx'
    rw [hk] at hx'
    cases hx'
    exact (hs _).mpr (.inr rfl)
  · intro x h
    rcases (hs x).mp h with h | h
    · exact .inl h
    · exact .inr (by rw [hk, h])

/-- The same for sessions of an Ed25519 role, which are started with its main key. -/
theorem C86_session_payer_refuted {k s : Key} {n : Nat} {key : Key} {duration : Nat} (hh : o.holder = .ed25519Session k s n) (hne : k ≠ o.payer) :
    ∀ bs, o.send env slot (.createSession key duration) ≠ some bs := by
  intro bs hb
  obtain ⟨c, h1, h2, h3⟩ := sent_build hb
  simp only [Req.caller, hh, Holder.sessionCaller, Option.some.injEq] at h1
  subst h1
  simp only [Obj.build, Option.some.injEq] at h2
  subst h2
  rw [signed_iff] at h3
  have := (h3 k).mpr (by simp [needed, createSession, byEd, Client.w, ws, ros])
  simp only [Obj.signers, Req.payerOnly, if_true, List.mem_singleton] at this
  exact hne this

/-- A program-exec holder cannot update authorities, name a rent claimer or use sub-accounts of version 2. -/
theorem C86_exec_unavailable {program : Key} {pfx : Bytes} {p : TxIx} (hh : o.holder = .exec program pfx p) :
    (∀ t u, o.send env slot (.updateAuthority t u) = none) ∧ (∀ k, o.send env slot (.setRentClaimer k) = none) ∧
    (∀ st s sb ab, o.send env slot (.createSubV2 st s sb ab) = none) ∧ (∀ st s i l, o.send env slot (.signSubV2 st s i l) = none) ∧
    (∀ st s t i n, o.send env slot (.withdrawSubV2 st s t i n) = none) ∧ ∀ st i e, o.send env slot (.toggleSubV2 st i e) = none := by
  refine ⟨?_, ?_, ?_, ?_, ?_, ?_⟩ <;> intros <;>
    simp [Obj.send, Obj.instructions, Req.possible, Req.caller, hh, Holder.odometer, Holder.caller, Obj.build, Client.setRentClaimer,
      Client.createSubV2, Client.subSignV2, Client.withdrawSubV2, Client.toggleSubV2]

end

section
variable {env : Env} {cpi : Cpi} {o : Obj} {slot : Option Nat} {m : Mem} {metas : List Meta} {w : Wallet} {r : Role} {a : Auth} {b : Built}

/-- One byte less of a credential the program accepts is not accepted. -/
private theorem dropped {ty : Nat} {cred : Bytes} {auth : Auth} (h : initialAuth ty cred = some auth) : initialAuth ty (cred.drop 1) = none := by
  unfold initialAuth at h ⊢
  simp only [List.length_drop]
  by_cases h1 : ty = 1
  · simp only [h1, if_true, Option.ite_none_right_eq_some] at h ⊢
    rw [if_neg (by omega)]
  by_cases h2 : ty = 2
  · simp [h2] at h ⊢
    omega
  by_cases h3 : ty = 3
  · simp only [h3, if_true, show ¬ (3 = 1) by decide, show ¬ (3 = 2) by decide, if_false] at h ⊢
    by_cases h33 : cred.length = 33
    · rw [if_neg (by omega), if_neg (by omega)]
    · rw [if_neg h33] at h
      by_cases h64 : cred.length = 64
      · rw [if_neg (by omega), if_neg (by omega)]
      · rw [if_neg h64] at h
        cases h
  by_cases h4 : ty = 4
  · simp [h4] at h ⊢
    omega
  by_cases h5 : ty = 5
  · simp [h5] at h ⊢
    omega
  by_cases h6 : ty = 6
  · simp [h6] at h ⊢
    omega
  by_cases h7 : ty = 7
  · simp [h7] at h ⊢
    omega
  by_cases h8 : ty = 8
  · simp [h8] at h ⊢
    omega
  · simp [h1, h2, h3, h4, h5, h6, h7, h8] at h

/-- The holder of a Secp256k1 role cuts off the first byte of every credential it is to add: what the program accepts as the credential of a
new authority, of whatever kind, cannot be added. -/
theorem C86_add_k1_refuted {k : Bytes} {f : Bytes → Bytes} {n ty : Nat} {cred : Bytes} {ps : List Permission} {auth : Auth}
    (hh : o.holder = .secp256k1 k f n) (hs : o.send env slot (.addAuthority ty cred ps) = some [b]) (hcred : initialAuth ty cred = some auth)
    (hw : w.WF) (hd : (m o.swig).data = w.encode) (hrole : o.role < 2 ^ 32) (hcount : w.roles.length + 1 < 2 ^ 16) (hctr : w.roleCounter + 1 < 2 ^ 32)
    (hlen : (writeActions (toClientActions ps)).length < 2 ^ 16) (hk : metas.map Meta.key = b.accounts.map Meta.key) :
    ∀ m', process env cpi m metas b.data ≠ .ok m' := by
  intro m' h
  obtain ⟨c, hc, hb, _⟩ := sent_build hs
  simp only [Req.caller, hh, Holder.caller, Option.map_eq_some_iff] at hc
  obtain ⟨s, _, rfl⟩ := hc
  simp only [Obj.build, hh, Holder.newAuthority, Option.some.injEq, List.cons.injEq, and_true] at hb
  subst hb
  obtain ⟨t1, t2⟩ := initialAuth_small hcred
  simp only [Client.addAuthority, manageBy, byK1, managing] at h hk
  match metas, hk, h with
  | [], hk, _ => cases hk
  | [_], hk, _ => simp at hk
  | [_, _], hk, _ => simp at hk
  | x :: y :: z :: rest, hk, h =>
  simp only [List.map_cons, List.cons.injEq] at hk
  have hx : x.key = o.swig := hk.1
  obtain ⟨cls, h⟩ := process_dispatch h
  unfold dispatch at h
  rw [if_neg (by simp [Client.addData]), show ∀ p, rd (Client.addData o.role ty (cred.drop 1) (toClientActions ps) ++ p) 0 2 = 1 by
    intro p; simp only [Client.addData, List.append_assoc]; exact rd_number (by decide) _] at h
  obtain ⟨ai, r, au, as, g1, _, _, g4, _⟩ := addAuthorityV1_enc hw (by rw [hx]; exact hd) hcount hctr h
  rw [parseAdd_built hrole t1 (by simp; omega) hlen] at g1
  cases g1
  simp only at g4
  rw [dropped hcred] at g4
  cases g4

/-- Requests about sub-accounts of version 1 of the holder of an Ed25519 role with sessions are signed with its main key, but the program wants
the key of the session: unless that is the main key, all of them are refused. -/
theorem C86_session_v1_refuted {k s : Key} {n : Nat} {q : Req} {ss : Session} (hh : o.holder = .ed25519Session k s n) (hq : q.v1 = true)
    (hz : q.Sized) (hs : o.send env slot q = some [b]) (hw : w.WF) (hd : (m o.swig).data = w.encode) (hr : w.role? (q.acting o.role) = some r)
    (hst : r.Stores a) (hsess : a.session = some ss) (hne : ss.key ≠ k) (hk : metas.map Meta.key = b.accounts.map Meta.key)
    (hk32 : ∀ x ∈ metas, x.key.length = 32) (hsmall : b.data.length ≤ 1232) : ∀ m', process env cpi m metas b.data ≠ .ok m' := by
  intro m' h
  obtain ⟨c, hc, hb, _⟩ := sent_build hs
  have hrole := acting_lt hw hr
  have at32 : ∀ {x : Key} {l : List Key} {i : Nat}, metas.map Meta.key = l → l[i]? = some x → x.length = 32 := by
    intro x l i e1 e2
    rw [← e1, List.getElem?_map, Option.map_eq_some_iff] at e2
    obtain ⟨y, e3, rfl⟩ := e2
    exact hk32 y (List.mem_of_getElem? e3)
  have key : ∀ {i : UInt8} {data : Bytes} {r' : Role}, ActsAs env m metas w (q.acting o.role) [i] data r' →
      (metas.map Meta.key)[i.toNat]? = some k → False := by
    intro i data r' h1 h2
    have : r' = r := by have := h1.1; rw [hr] at this; exact (Option.some.inj this).symm
    subst this
    have h3 := h1.2
    rw [← hst.ty, ← hst.encode] at h3
    unfold authRole at h3
    rw [if_pos (by rw [Auth.sessionBased_iff, hsess]; rfl)] at h3
    obtain ⟨_, h3, _⟩ := bind_ok_iff.mp h3
    obtain ⟨_, j, rest, e, x, h4, h5, _⟩ := C24_session_accepts_only env a ss metas [i] hst.wf hsess h3
    cases e
    rw [List.getElem?_map, h4, Option.map_some, Option.some.injEq] at h2
    exact hne (h5.symm.trans h2)
  have hcall : c = .ed25519 k := by
    cases q <;> first | cases hq
    all_goals
      simp only [Req.caller, hh, Holder.v1Caller, Option.some.injEq] at hc
      exact hc.symm
  subst hcall
  cases q with
  | createSubV1 sub bump =>
    cases hb
    obtain ⟨r', h1⟩ := createSub_acts hw hd hrole hk (at32 (i := 2) hk rfl) h
    exact key h1 (by rw [hk]; rfl)
  | withdrawSubV1 sub amount =>
    cases hb
    obtain ⟨⟨r', h1⟩, _⟩ := withdrawSub_acts hw hd hrole hk (at32 (i := 2) hk rfl) h
    exact key h1 (by rw [hk]; rfl)
  | withdrawSubTokenV1 sub t amount =>
    cases hb
    obtain ⟨⟨r', h1⟩, _⟩ := withdrawSub_acts hw hd hrole hk (at32 (i := 2) hk rfl) h
    exact key h1 (by rw [hk]; rfl)
  | toggleSubV1 sub role authRole enabled =>
    cases hb
    obtain ⟨r', h1⟩ := toggleSub_acts hw hd hrole hk (at32 (i := 2) hk rfl) hz.1 h
    exact key h1 (by rw [hk]; rfl)
  | signSubV1 sub inner =>
    simp only [Obj.build, Option.some.injEq, List.cons.injEq, and_true] at hb
    subst hb
    obtain ⟨l, hl⟩ := compact_keys [o.swig, sub] [ro o.swig, Client.w sub, ro systemId, ros k] inner
    have hk' : metas.map Meta.key = o.swig :: sub :: systemId :: k :: l := by rw [hk]; exact hl
    simp only [Client.subSignV1, byEd, subSignData, List.length_append] at hsmall
    obtain ⟨r', h1, _⟩ := subSign_acts (inner := compactBytes (compactInstructions [o.swig, sub]
      [ro o.swig, Client.w sub, ro systemId, ros k] inner).2) hw hd hrole hk' (at32 (i := 1) hk' rfl) (by omega) h
    exact key h1 (by rw [hk']; rfl)
  | _ => cases hq

theorem process_nothing (x : Mem) (d : Bytes) (y : Mem) : process env cpi x [] d ≠ .ok y := by
  intro h
  obtain ⟨cls, h⟩ := process_dispatch h
  unfold dispatch at h
  split at h
  · cases h
  · split at h <;> cases h

/-- A program-exec holder wraps the instructions to be signed into an instruction of the wallet program without accounts, which is no instruction
of it at all: whatever it is asked to sign is refused. -/
theorem C86_exec_sign_refuted {program : Key} {pfx : Bytes} {p : TxIx} {inner : List FullIx} (hh : o.holder = .exec program pfx p)
    (hs : o.send env slot (.signV2 inner) = some [b]) (hw : w.WF) (hd : (m o.swig).data = w.encode) (hrole : o.role < 2 ^ 32)
    (hk : metas.map Meta.key = b.accounts.map Meta.key) (hk32 : ∀ x ∈ metas, x.key.length = 32)
    (hsmall : b.accounts.length ≤ 64 ∧ b.data.length ≤ 1232) (hcpi : CallsItself cpi) :
    ∀ m', process env cpi m metas b.data ≠ .ok m' := by
  intro m' h
  obtain ⟨c, hc, hb, _⟩ := sent_build hs
  simp only [Obj.build, Obj.signs, hh, Option.some.injEq, List.cons.injEq, and_true] at hb
  subst hb
  obtain ⟨cs, x, tl, hfm, hacc, hsf⟩ := signV2_formed hsmall.1
  generalize Client.signV2 env o.swig o.wallet o.payer o.role (Sdk.execInner o inner) [o.payer] c = b at *
  obtain ⟨payload, hdata⟩ : ∃ payload, b.data = signData o.role (compactBytes cs) ++ payload := by
    cases hfm <;> exact ⟨_, rfl⟩
  have hbl : (compactBytes cs).length < 2 ^ 16 := by
    have := hsmall.2
    rw [hdata] at this
    simp [signData] at this
    omega
  have hparse := parseSign_built (payload := payload) hrole hbl
  have hkeys : metas.map (·.key) = o.swig :: o.wallet :: x :: tl := hk.trans hacc
  have hsf' := hsf.imp fun _ _ h => h.promoted hk
  have hil : (Sdk.execInner o inner).data.length < 2 ^ 16 := by
    cases hsf with
    | @cons _ c1 _ cs1 h1 h2 =>
      cases h2
      have := h1.data
      simp [compactBytes, CompactIx.bytes] at hbl
      rw [← this]
      omega
  obtain ⟨ixs, hdec, hsame⟩ := decodeIxs_stands hsf' (by simp) (by simpa [Sdk.execInner] using hil) o.wallet []
  obtain ⟨i, rfl, hi1, hi2, _⟩ : ∃ i, ixs = [i] ∧ i.program = swigId ∧ i.accounts.map (·.key) = [] ∧ i.data = (Sdk.execInner o inner).data := by
    cases hsame with
    | cons h1 h2 => cases h2; exact ⟨_, rfl, h1⟩
  have hacc0 : i.accounts = [] := by simpa using hi2
  have hn : rd b.data 0 2 = 11 := by
    rw [hdata]; simp only [signData, List.append_assoc]; exact rd_here 2 11 _ (by decide)
  -- the one instruction is never carried out
  have never : ∀ seeds x y, execAll env cpi metas o.wallet seeds x [i] ≠ .ok y := by
    intro seeds x y hx
    simp only [execAll] at hx
    obtain ⟨z, hx, _⟩ := bind_ok_iff.mp hx
    unfold Verif.execInner at hx
    rw [if_neg (by rw [hi1]; exact fun h => absurd h.1 (by decide))] at hx
    unfold invokeSigned at hx
    split at hx
    · cases hx
    · split at hx
      · obtain ⟨env', cpi', hx⟩ := hcpi x i.cpi z hi1 hx
        have e : i.cpi.accounts = [] := by simp [Inner.cpi, hacc0]
        rw [e] at hx
        exact process_nothing _ _ _ hx
      · cases hx
  obtain ⟨s, y, z, rest, cls, rfl, hcls, h'⟩ := process_sign hn h
  · simp only [List.map_cons, List.cons.injEq] at hkeys
    obtain ⟨k1, k2, _, _⟩ := hkeys
    obtain ⟨ai, r, before, after, ixs, h1, h2, h3, h4, h5, h6, h7, h8⟩ := signV2_enc hw (by rw [k1]; exact hd) h'
    rw [hdata, hparse] at h1
    cases h1
    simp only at h5 h6 h7 h8
    rw [k2] at h6 h8
    rw [hdec] at h6
    cases h6
    rcases signWith_ok h7 (Mem.setData_data ..) h8 with ⟨_, h9⟩ | ⟨hres, _⟩
    · exact never _ _ _ h9
    · obtain ⟨ixs, m1, ⟨g1, g2⟩, _⟩ := signed_restricted hw (by rw [k1]; exact hd) hk32 hn
        (by rw [hdata]; have := (parseSign_ok hparse).1; rw [← this]; exact h5.1) (show Restricted r from hres) h
      rw [hdata, ← (parseSign_ok hparse).2.1, k2] at g1
      have := hdec.symm.trans g1
      cases this
      rw [k2] at g2
      exact never _ _ _ g2

/-- Removing the role of the wallet object itself is carried out, but the call returns an error: the role is looked up afterwards. -/
theorem C86_self_remove_refuted {pre post : List TxIx} (hh : HashLength env) (hs : o.send env slot (.removeAuthority o.role) = some [b])
    (hr : Ready env m o.swig w o.role r a metas b pre post) (ha : o.holder.Acts env a slot metas b) (h0 : o.role ≠ 0) :
    ∃ m', process env cpi m metas b.data = .ok m' ∧ (m' o.swig).data = ((w.used o.role).removeRole o.role).encode ∧
      o.settle (m' o.swig).data (.removeAuthority o.role) = (o, false) := by
  obtain ⟨m', g1, g2, _⟩ := C86_remove (cpi := cpi) hh hs hr ha (.inr rfl) hr.role h0
  refine ⟨m', g1, g2, ?_⟩
  have hwf := Wallet.removeRole_wf (Wallet.used_wf hr.wf o.role) o.role
  have hnone : ((w.used o.role).removeRole o.role).role? o.role = none := by
    simp [Wallet.role?, Wallet.removeRole]
  rw [g2]
  rcases getRole_wallet hwf o.role with ⟨_, h⟩ | ⟨_, _, h, _⟩
  · simp only [Obj.settle, h]
  · rw [hnone] at h
    cases h

/-- Otherwise the call returns without an error if the holder has a counter, which all but program-exec holders have. -/
theorem C86_returns {q : Req} {w' : Wallet} (hw : w'.WF) (hr : (w'.role? o.role).isSome = true) (hx : ∀ p x t, o.holder ≠ .exec p x t) :
    (o.settle w'.encode q).2 = true := by
  have hcnt : o.counted.2 = true := by
    unfold Obj.counted
    cases hh : o.holder with
    | exec p x t => exact absurd hh (hx _ _ _)
    | _ => rfl
  rcases getRole_wallet hw o.role with ⟨h, _⟩ | ⟨_, _, _, h, _⟩
  · rw [h] at hr; cases hr
  · cases q <;> simp only [Obj.settle, h] <;> first | rfl | exact hcnt

end

/-! ## Concrete wallet objects -/

section Examples
open Sample SampleClient

/-- The owner with their key `K 10`, who also pays. -/
private def ownerObj : Obj := ⟨K 1, K 2, 0, .ed25519 (K 10), K 10, none⟩

/-- The holder of the Secp256k1 role of `walletS`. -/
private def subObj : Obj := ⟨K 1, K 2, 1, .secp256k1 (zeros 64) sign1 7, K 10, none⟩

/-- What an object sends, if it is one instruction. -/
private def sent (o : Obj) (q : Req) : Built := (((o.send env1 (some 90) q).getD []).headD ⟨[], [], []⟩)

private theorem sent_of {o : Obj} {q : Req} (h : ((o.send env1 (some 90) q).map List.length) = some 1) :
    o.send env1 (some 90) q = some [sent o q] := by
  unfold sent
  cases hs : o.send env1 (some 90) q with
  | none => rw [hs] at h; cases h
  | some l =>
    rw [hs] at h
    match l, h with
    | [b], _ => rfl

private theorem owner_acts {b : Built} : ownerObj.holder.Acts env1 auth0 (some 90) b.accounts b := ⟨rfl, rfl⟩

private theorem sub_acts {b : Built} : subObj.holder.Acts env1 auth2 (some 90) b.accounts b :=
  ⟨rfl, ⟨pk1, zeros 3, rfl, signs1⟩, ⟨90, rfl, by decide, by decide +kernel, by decide +kernel⟩, rfl⟩

private theorem owner_ready {b : Built} (hk : ∀ x ∈ b.accounts, x.key.length = 32 ∧ (mem walletS x.key).owner ≠ stakeId) (hb : b.before = [])
    (hs : (sysvarEncode [b.seen b.accounts] 0).length < 2 ^ 16) :
    Ready env1 (onLedger (mem walletS) b) ownerObj.swig walletS ownerObj.role role0 auth0 b.accounts b [] [] :=
  ready_on walletS_wf rfl rfl (by decide +kernel) (by decide +kernel) (show walletS.role? 0 = some role0 by decide +kernel) cred_ed hk
    (by rw [hb]; simp) (by rw [hb]; exact hs) (by decide +kernel)

private theorem owner_pays {b : Built} {n : Nat} (h : n ≤ 1000000) : Client.Pays env1 (onLedger (mem walletS) b) (K 10) (K 1) n := by
  refine ⟨by decide, by decide +kernel, by rw [onLedger_other (by decide +kernel)]; rfl, by rw [onLedger_other (by decide +kernel)]; rfl, ?_⟩
  rw [onLedger_other (by decide +kernel), onLedger_other (by decide +kernel)]
  show (n + 128) * 6960 ≤ 2000000000 + 7000000000
  omega

/-- The owner adds a role that may spend 9 lamports and manage roles. -/
example (cpi : Cpi) : ∃ b m', ownerObj.send env1 (some 90) (.addAuthority 1 (K 13) [.sol 9 none, .manageAuthority]) = some [b] ∧
    process env1 cpi (onLedger (mem walletS) b) b.accounts b.data = .ok m' := by
  have hs := sent_of (o := ownerObj) (q := .addAuthority 1 (K 13) [.sol 9 none, .manageAuthority]) (by decide +kernel)
  obtain ⟨m', acts, h, _⟩ := C86_add_partial (cpi := cpi) (auth := ⟨.ed25519 (K 13), none⟩) hash1 hs
    (owner_ready (by decide +kernel) (by decide +kernel) (by decide +kernel)) owner_acts (by intro k f n h; cases h) (by decide +kernel)
    (by decide +kernel) (by simp [Permission.InRange]) (by simp) (by simp) (by simp) (by decide) (by decide) (by decide +kernel) (by decide +kernel)
    (by decide +kernel) (by decide +kernel) (by decide +kernel) (owner_pays (by decide +kernel))
  exact ⟨_, m', hs, h⟩

/-- They remove role 1. -/
example (cpi : Cpi) : ∃ b m', ownerObj.send env1 (some 90) (.removeAuthority 1) = some [b] ∧
    process env1 cpi (onLedger (mem walletS) b) b.accounts b.data = .ok m' := by
  have hs := sent_of (o := ownerObj) (q := .removeAuthority 1) (by decide +kernel)
  obtain ⟨m', h, _⟩ := C86_remove (cpi := cpi) (t := subRole) hash1 hs (owner_ready (by decide +kernel) (by decide +kernel) (by decide +kernel))
    owner_acts (.inl (by decide +kernel)) (by decide +kernel) (by decide)
  exact ⟨_, m', hs, h⟩

/-- They replace the permissions of role 1. -/
example (cpi : Cpi) : ∃ b m', ownerObj.send env1 (some 90) (.updateAuthority 1 (.replaceAll [.sol 9 none])) = some [b] ∧
    process env1 cpi (onLedger (mem walletS) b) b.accounts b.data = .ok m' := by
  have hs := sent_of (o := ownerObj) (q := .updateAuthority 1 (.replaceAll [.sol 9 none])) (by decide +kernel)
  obtain ⟨m', h, _⟩ := C86_update (cpi := cpi) (t := subRole) hash1 hs (owner_ready (by decide +kernel) (by decide +kernel) (by decide +kernel))
    owner_acts (by decide +kernel) (by decide +kernel) (by decide +kernel) (by decide +kernel) (by decide +kernel) (by decide +kernel) (by decide +kernel)
    (by decide +kernel) (by decide +kernel) (fun _ => ⟨by decide +kernel, owner_pays (by decide +kernel)⟩)
  exact ⟨_, m', hs, h⟩

/-- They name a rent claimer. -/
example (cpi : Cpi) : ∃ b m', ownerObj.send env1 (some 90) (.setRentClaimer (K 20)) = some [b] ∧
    process env1 cpi (onLedger (mem walletS) b) b.accounts b.data = .ok m' := by
  have hs := sent_of (o := ownerObj) (q := .setRentClaimer (K 20)) (by decide +kernel)
  obtain ⟨m', h, _⟩ := C86_claimer (cpi := cpi) hash1 hs (owner_ready (by decide +kernel) (by decide +kernel) (by decide +kernel))
    owner_acts (by decide +kernel) rfl (by decide) (by decide) (by decide) (by decide +kernel) (by decide) (by decide +kernel)
    (owner_pays (by decide +kernel))
  exact ⟨_, m', hs, h⟩

/-- A payment of 7 lamports by the wallet. -/
private def pay7 : FullIx := ⟨systemId, [⟨K 2, true, true⟩, ⟨K 11, false, true⟩], natLE 4 2 ++ natLE 8 7⟩

/-- They sign it. -/
example (cpi : Cpi) : ∃ b i, ownerObj.send env1 (some 90) (.signV2 [pay7]) = some [b] ∧ Inner.program i = systemId ∧
    process env1 cpi (onLedger (mem walletS) b) b.accounts b.data =
      execAll env1 cpi b.accounts (K 2) (walletSeeds (K 1) ++ [[255]]) ((onLedger (mem walletS) b).setData (K 1) (walletS.used 0).encode) [i] := by
  have hs := sent_of (o := ownerObj) (q := .signV2 [pay7]) (by decide +kernel)
  obtain ⟨i, h1, _, _, h⟩ := C86_sign_partial (cpi := cpi) hash1 hs (owner_ready (by decide +kernel) (by decide +kernel) (by decide +kernel))
    owner_acts (by intro k f n h; cases h) (by decide +kernel) (by decide +kernel) rfl (by decide +kernel) (by decide +kernel)
  exact ⟨_, i, hs, h1, h⟩

/-- The holder of role 1 creates a sub-account, ... -/
example (cpi : Cpi) : ∃ b m', subObj.send env1 (some 90) (.createSubV2 (K 4) (K 5) 255 254) = some [b] ∧
    process env1 cpi (onLedger (mem walletS) b) b.accounts b.data = .ok m' := by
  have hs := sent_of (o := subObj) (q := .createSubV2 (K 4) (K 5) 255 254) (by decide +kernel)
  obtain ⟨m', acts, h, _⟩ := C86_create_sub (cpi := cpi) (m := onLedger (mem walletS) (sent subObj (.createSubV2 (K 4) (K 5) 255 254))) (w := walletS)
    hash1 hs (ready_on walletS_wf rfl rfl (by decide +kernel) (by decide +kernel) (show walletS.role? 1 = some subRole by decide +kernel) cred_k1
      (by decide +kernel) (by decide +kernel) (by decide +kernel) (by decide +kernel)) sub_acts (by decide) (by decide +kernel) (by decide +kernel)
    (by decide +kernel) (by decide +kernel) (by decide +kernel) (by decide) (by decide +kernel) (by decide +kernel) (by decide +kernel)
    (by decide +kernel) (by decide +kernel) (by decide +kernel)
  exact ⟨_, m', hs, h⟩

private theorem sub_may : MayUse subRole P.subAccountV2Toggle 0 ∧ MayUse subRole P.subAccountV2Withdraw 0 ∧ MayUse subRole P.subAccountV2Sign 0 :=
  ⟨⟨⟨P.subAccountV2All, natLE 4 0 ++ zeros 4⟩, by decide +kernel, by decide, by decide⟩,
    ⟨⟨P.subAccountV2All, natLE 4 0 ++ zeros 4⟩, by decide +kernel, by decide, by decide⟩,
    ⟨⟨P.subAccountV2All, natLE 4 0 ++ zeros 4⟩, by decide +kernel, by decide, by decide⟩⟩

/-- ... disables it, ... -/
example (cpi : Cpi) : ∃ b m', subObj.send env1 (some 90) (.toggleSubV2 (K 4) 0 false) = some [b] ∧
    process env1 cpi (onLedger (memS true) b) b.accounts b.data = .ok m' := by
  have hs := sent_of (o := subObj) (q := .toggleSubV2 (K 4) 0 false) (by decide +kernel)
  obtain ⟨m', h, _⟩ := C86_toggle_sub (cpi := cpi) (m := onLedger (memS true) (sent subObj (.toggleSubV2 (K 4) 0 false))) (w := walletS) (was := true)
    hash1 hs (readyS (by decide +kernel) (by decide +kernel) (by decide +kernel)) sub_acts (by decide) subAtS sub_may.1
  exact ⟨_, m', hs, h⟩

/-- ... withdraws SOL ... -/
example (cpi : Cpi) : ∃ b m', subObj.send env1 (some 90) (.withdrawSubV2 (K 4) (K 5) none 0 1000) = some [b] ∧
    process env1 cpi (onLedger (memS true) b) b.accounts b.data = .ok m' := by
  have hs := sent_of (o := subObj) (q := .withdrawSubV2 (K 4) (K 5) none 0 1000) (by decide +kernel)
  obtain ⟨m', h, _⟩ := C86_withdraw_sol (cpi := cpi) (m := onLedger (memS true) (sent subObj (.withdrawSubV2 (K 4) (K 5) none 0 1000))) (w := walletS)
    hash1 hs (readyS (by decide +kernel) (by decide +kernel) (by decide +kernel)) sub_acts (by decide) subAtS sub_may.2.1
    (by decide +kernel) (by decide +kernel) (by decide +kernel) (by decide +kernel) (by decide)
  exact ⟨_, m', hs, h⟩

/-- ... or tokens ... -/
example (cpi : Cpi) : ∃ b, subObj.send env1 (some 90) (.withdrawSubV2 (K 4) (K 5) (some ⟨K 31, K 32, tokenId⟩) 0 5) = some [b] ∧
    process env1 cpi (onLedger (memS true) b) b.accounts b.data = cpi ((onLedger (memS true) b).setData (K 1) (walletS.used 1).encode)
      ⟨tokenId, [⟨K 31, false, true⟩, ⟨K 32, false, true⟩, ⟨K 5, true, false⟩], 3 :: natLE 8 5⟩ := by
  have hs := sent_of (o := subObj) (q := .withdrawSubV2 (K 4) (K 5) (some ⟨K 31, K 32, tokenId⟩) 0 5) (by decide +kernel)
  exact ⟨_, hs, C86_withdraw_tokens (cpi := cpi)
    (m := onLedger (memS true) (sent subObj (.withdrawSubV2 (K 4) (K 5) (some ⟨K 31, K 32, tokenId⟩) 0 5))) (w := walletS)
    hash1 hs (readyS (by decide +kernel) (by decide +kernel) (by decide +kernel)) sub_acts (by decide) subAtS sub_may.2.1
    (by decide +kernel) (by decide +kernel) (by decide +kernel) (by decide +kernel) (by decide +kernel) (by decide +kernel) (by decide +kernel)
    (by decide +kernel) (by decide +kernel) (by decide)⟩

/-- ... or lets it sign. -/
example : ∃ b, subObj.send env1 (some 90) (.signSubV2 (K 4) (K 5) 0 [inner1, inner1]) = some [b] ∧ b.accounts.length ≤ 64 ∧
    Ready env1 (onLedger (memS true) b) (K 1) walletS 1 subRole auth2 b.accounts b [] [] ∧ subObj.holder.Acts env1 auth2 (some 90) b.accounts b := by
  have hs := sent_of (o := subObj) (q := .signSubV2 (K 4) (K 5) 0 [inner1, inner1]) (by decide +kernel)
  exact ⟨_, hs, by decide +kernel, readyS (by decide +kernel) (by decide +kernel) (by decide +kernel), sub_acts⟩

/-- The holder of role 1 of `wallet1`, Ed25519 with sessions, whose main key `K 11` pays. -/
private def startObj : Obj := ⟨K 1, K 2, 1, .ed25519Session (K 11) (K 12) 1000, K 11, some (K 12)⟩

private theorem auth1_wf : auth1.WF := by
  refine ⟨show (K 11).length = 32 by decide, ?_⟩
  intro s hs
  cases hs
  exact ⟨by decide +kernel, by decide +kernel, by decide +kernel⟩

/-- They start a session for the key `K 14`. -/
example (cpi : Cpi) : ∃ b m', startObj.send env1 (some 90) (.createSession (K 14) 600) = some [b] ∧
    process env1 cpi (onLedger (mem wallet1) b) b.accounts b.data = .ok m' := by
  have hs := sent_of (o := startObj) (q := .createSession (K 14) 600) (by decide +kernel)
  obtain ⟨m', h, _⟩ := C86_session (cpi := cpi) (m := onLedger (mem wallet1) (sent startObj (.createSession (K 14) 600))) (w := wallet1) (a := auth1)
    (s := ⟨K 12, 1000, 100⟩) hash1 hs (ready_on wallet1_wf rfl rfl (by decide +kernel) (by decide +kernel)
      (show wallet1.role? 1 = some role1 by decide +kernel) ⟨auth1_wf, by decide +kernel, by decide +kernel⟩ (by decide +kernel) (by decide +kernel)
      (by decide +kernel) (by decide +kernel)) rfl rfl (by decide) (by decide)
  exact ⟨_, m', hs, h⟩

/-- C86_sent, C86_payer_refuted, C86_session_payer_refuted: with another payer they can send none of these; an update they can. -/
private def poorObj : Obj := { startObj with payer := K 10 }

example : (poorObj.send env1 (some 90) (.removeAuthority 2)).isSome = false ∧ (poorObj.send env1 (some 90) (.createSession (K 14) 600)).isSome = false ∧
    (poorObj.send env1 (some 90) (.updateAuthority 2 (.replaceAll [.sol 9 none]))).isSome = true := by
  decide +kernel

/-- C86_add_k1_refuted: the Secp256k1 role 2 of `wallet1` sends the request for a valid new key. -/
example : ∃ b, (⟨K 1, K 2, 2, .secp256k1 (zeros 64) sign1 7, K 10, none⟩ : Obj).send env1 (some 90) (.addAuthority 1 (K 13) [.manageAuthority]) = some [b] ∧
    initialAuth 1 (K 13) = some ⟨.ed25519 (K 13), none⟩ ∧ wallet1.WF ∧ wallet1.roles.length + 1 < 2 ^ 16 :=
  ⟨_, sent_of (by decide +kernel), by decide +kernel, wallet1_wf, by decide⟩

/-- C86_session_v1_refuted: the running session of role 1 has the key `K 12`, the request is signed with `K 11`. -/
private def mainObj : Obj := { startObj with keypair := none }

example : ∃ b, mainObj.send env1 (some 90) (.createSubV1 (K 5) 254) = some [b] ∧ (Req.createSubV1 (K 5) 254).v1 = true ∧ wallet1.role? 1 = some role1 ∧
    role1.Stores auth1 ∧ auth1.session = some ⟨K 12, 1000, 100⟩ ∧ K 12 ≠ K 11 ∧ (∀ x ∈ b.accounts, x.key.length = 32) ∧ b.data.length ≤ 1232 :=
  ⟨_, sent_of (by decide +kernel), rfl, by decide +kernel, ⟨auth1_wf, by decide +kernel, by decide +kernel⟩, rfl, by decide, by decide +kernel, by decide +kernel⟩

/-- C86_exec_sign_refuted, C86_exec_unavailable. -/
private def execObj : Obj := ⟨K 1, K 2, 4, .exec (K 30) [9, 9] ⟨K 30, [⟨K 1, false, true⟩, ⟨K 10, true, true⟩], [9, 9, 9]⟩, K 10, none⟩

example : ∃ b, execObj.send env1 (some 90) (.signV2 [pay7]) = some [b] ∧ (∀ x ∈ b.accounts, x.key.length = 32) ∧ b.accounts.length ≤ 64 ∧
    b.data.length ≤ 1232 := ⟨_, sent_of (by decide +kernel), by decide +kernel, by decide +kernel, by decide +kernel⟩

/-- A runtime that lets the wallet program call itself; other programs do nothing. -/
example : CallsItself fun x i => if i.program = swigId then process env1 (fun y _ => .ok y) x i.accounts i.data else .ok x := by
  intro x i y hi h
  simp only [hi, if_true] at h
  exact ⟨_, _, h⟩

/-- C86_self_remove_refuted: role 1 of `walletS` removes itself. -/
example (cpi : Cpi) : ∃ b m', subObj.send env1 (some 90) (.removeAuthority 1) = some [b] ∧
    process env1 cpi (onLedger (memS true) b) b.accounts b.data = .ok m' ∧ (subObj.settle (m' (K 1)).data (.removeAuthority 1)).2 = false := by
  have hs := sent_of (o := subObj) (q := .removeAuthority 1) (by decide +kernel)
  obtain ⟨m', h, _, h2⟩ := C86_self_remove_refuted (cpi := cpi) (m := onLedger (memS true) (sent subObj (.removeAuthority 1))) (w := walletS)
    hash1 hs (readyS (by decide +kernel) (by decide +kernel) (by decide +kernel)) sub_acts (by decide)
  exact ⟨_, m', hs, h, by rw [show subObj.settle (m' (K 1)).data (.removeAuthority 1) = _ from h2]⟩

end Examples

end Verif
