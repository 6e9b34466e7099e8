import Verif.Proofs.History
import Verif.Props.Roles
import Verif.Spec.SampleSign

/-!
# Properties C01, C05, C10, C15, C43, C47: histories

`Steps ok k m m'` (Spec/Evolve.lean): a history leading from the ledger `m` to `m'`, made of requests to the program (for any wallet, by
anybody, with arbitrary called programs that may call back) and of whatever leaves data and owner of `k` alone.  `ok` selects the
requests considered; `fun _ => True` is all of them.
-/

namespace Verif

/-! ## What a change of the state machine preserves -/

/-- `w'` comes after `w`. -/
structure Later (w w' : Wallet) : Prop where
  id : w'.id = w.id
  bump : w'.bump = w.bump
  counter : w.roleCounter ≤ w'.roleCounter
  roles : ∀ r' ∈ w'.roles, (∃ r ∈ w.roles, r.id = r'.id ∧ r.authType = r'.authType) ∨ w.roleCounter ≤ r'.id
  root : ∀ r ∈ w.roles, r.id = 0 → ∃ r' ∈ w'.roles, r'.id = 0 ∧ r'.authType = r.authType
  claimer : ∀ c, w.claimer = some c → w'.claimer = some c

theorem Later.refl (w : Wallet) : Later w w :=
  ⟨rfl, rfl, Nat.le_refl _, fun r h => .inl ⟨r, h, rfl, rfl⟩, fun r h e => ⟨r, h, e, rfl⟩, fun _ h => h⟩

theorem Later.trans {a b c : Wallet} (h : Later a b) (h' : Later b c) : Later a c := by
  refine ⟨h'.id.trans h.id, h'.bump.trans h.bump, Nat.le_trans h.counter h'.counter, ?_, ?_, fun c hc => h'.claimer c (h.claimer c hc)⟩
  · intro r'' hr''
    rcases h'.roles r'' hr'' with ⟨r', hr', e1, e2⟩ | hge
    · rcases h.roles r' hr' with ⟨r, hr, e3, e4⟩ | hge
      · exact .inl ⟨r, hr, e3.trans e1, e4.trans e2⟩
      · exact .inr (e1 ▸ hge)
    · exact .inr (Nat.le_trans h.counter hge)
  · intro r hr e
    obtain ⟨r', hr', e1, e2⟩ := h.root r hr e
    obtain ⟨r'', hr'', e3, e4⟩ := h'.root r' hr' e1
    exact ⟨r'', hr'', e3, e4.trans e2⟩

theorem Later.mapRole (w : Wallet) (id : Nat) (f : Role → Role) (hf : ∀ r, (f r).id = r.id ∧ (f r).authType = r.authType) :
    Later w (w.mapRole id f) := by
  have hg : ∀ r : Role, (if r.id = id then f r else r).id = r.id ∧ (if r.id = id then f r else r).authType = r.authType := by
    intro r; split
    · exact hf r
    · exact ⟨rfl, rfl⟩
  refine ⟨rfl, rfl, Nat.le_refl _, ?_, ?_, fun _ h => h⟩
  · intro r' hr'
    obtain ⟨r, hr, rfl⟩ := List.mem_map.mp hr'
    exact .inl ⟨r, hr, (hg r).1.symm, (hg r).2.symm⟩
  · intro r hr e
    exact ⟨_, List.mem_map.mpr ⟨r, hr, rfl⟩, (hg r).1.trans e, (hg r).2⟩

theorem Change.later {kd : Kind} {w w' : Wallet} (h : Change w kd w') : Later w w' := by
  cases h with
  | used id => exact Later.mapRole _ _ _ fun _ => ⟨rfl, rfl⟩
  | added ty auth as =>
    refine ⟨rfl, rfl, Nat.le_succ _, ?_, ?_, fun _ h => h⟩
    · intro r' hr'
      rcases List.mem_append.mp hr' with h | h
      · exact .inl ⟨r', h, rfl, rfl⟩
      · rw [List.mem_singleton.mp h]; exact .inr (Nat.le_refl _)
    · intro r hr e
      exact ⟨r, List.mem_append_left _ hr, e, rfl⟩
  | removed id hne =>
    refine ⟨rfl, rfl, Nat.le_refl _, ?_, ?_, fun _ h => h⟩
    · intro r' hr'
      exact .inl ⟨r', (List.mem_filter.mp hr').1, rfl, rfl⟩
    · intro r hr e
      refine ⟨r, List.mem_filter.mpr ⟨hr, ?_⟩, e, rfl⟩
      rw [e]; simpa using Ne.symm hne
  | updated | charged | v1Sub | granted => exact Later.mapRole _ _ _ fun _ => ⟨rfl, rfl⟩
  | session => exact Later.mapRole _ _ _ fun _ => ⟨rfl, rfl⟩
  | replaced => exact Later.mapRole _ _ _ fun _ => ⟨rfl, rfl⟩
  | claimed k hn => exact ⟨rfl, rfl, Nat.le_refl _, fun r h => .inl ⟨r, h, rfl, rfl⟩, fun r h e => ⟨r, h, e, rfl⟩,
      fun c h => by rw [hn] at h; cases h⟩
  | migrated => exact ⟨rfl, rfl, Nat.le_refl _, fun r h => .inl ⟨r, h, rfl, rfl⟩, fun r h e => ⟨r, h, e, rfl⟩, fun _ h => h⟩
  | issued => exact ⟨rfl, rfl, Nat.le_refl _, fun r h => .inl ⟨r, h, rfl, rfl⟩, fun r h e => ⟨r, h, e, rfl⟩, fun _ h => h⟩

theorem Changes.later {allow : Kind → Prop} {w w' : Wallet} (h : Changes allow w w') : Later w w' :=
  h.induct (Later.refl _) fun _ _ _ h _ hc => h.trans hc.later

/-- Without migrations the counter of sub-account ids never goes back. -/
theorem Changes.subCounter {allow : Kind → Prop} {w w' : Wallet} (hm : ¬ allow .migrated) (h : Changes allow w w') :
    w.subCounter ≤ w'.subCounter := by
  refine h.induct (Q := fun x => w.subCounter ≤ x.subCounter) (Nat.le_refl _) fun a kd b ih hk hc => Nat.le_trans ih ?_
  cases hc with
  | migrated => exact (hm hk).elim
  | issued => exact Nat.le_succ _
  | _ => exact Nat.le_refl _

section
variable {ok : Bytes → Prop} {k : Key} {m m' : Mem} {w w' : Wallet}

/-! ## C01: the account stays readable -/

/-- Refinement: whatever happens, an open wallet goes through changes of the state machine, each of a kind that one of the requests
considered may cause (`Does`), or is closed. -/
theorem C01_refines (ho : Open m k w) (h : Steps ok k m m') :
    IsClosed m' k ∨ ∃ w', Open m' k w' ∧ Changes (fun kd => ∃ ix, ok ix ∧ Does ix kd) w w' := by
  obtain ⟨h1, h2⟩ := steps_hist (mig := fun kd => ∃ ix, ok ix ∧ Does ix kd) (fun ix hix kd hkd => ⟨ix, hix, hkd⟩) h ⟨ho.owner, .inl ⟨w, ho.wf, .refl, ho.data⟩⟩
  rcases h2 with ⟨w', hw, hl, hd⟩ | hd
  · exact .inr ⟨w', ⟨h1, hw, hd⟩, hl⟩
  · exact .inl ⟨h1, hd.2⟩

/-- A wallet is closed only by a close request: without one it stays open. -/
theorem C45_closed_only_by_request (ho : Open m k w) (h : Steps (fun ix => rd ix 0 2 ≠ 15) k m m') : ∃ w', Open m' k w' := by
  obtain ⟨h1, h2⟩ := steps_hist (mig := fun kd => ∃ ix, rd ix 0 2 ≠ 15 ∧ Does ix kd) (fun ix hix kd hkd => ⟨ix, hix, hkd⟩) h ⟨ho.owner, .inl ⟨w, ho.wf, .refl, ho.data⟩⟩
  rcases h2 with ⟨w', hw, hl, hd⟩ | ⟨⟨ix, h3, h4⟩, _⟩
  · exact ⟨w', h1, hw, hd⟩
  · exact (h3 h4).elim

/-- After every history the account, unless closed, is a header of 48 bytes, as many role records as the header counts, and an empty
tail or one rent-claimer entry; the program finds the end of the roles, splits the account there, and its lookup finds exactly the roles
stored. -/
theorem C01_readable (ho : Open m k w) (h : Steps ok k m m') : IsClosed m' k ∨
    ∃ (w' : Wallet) (header roles tail : Bytes), (m' k).data = header ++ (roles ++ tail) ∧ header.length = 48 ∧ rd header 34 2 = w'.roles.length ∧
      roles = encRoles 0 w'.roles ∧ (tail = [] ∨ ∃ c, c.length = 32 ∧ tail = [1, 1, 32, 0, 0, 0, 0, 0] ++ c) ∧
      rolesEndOffset (m' k).data = .ok (48 + roles.length) ∧
      (∃ p, splitParts (m' k).data = .ok p ∧ p.header.encode = header ∧ p.roles = roles ∧ p.tail = tail) ∧
      ∀ id, (w'.role? id = none ∧ getRole (m' k).data id = .ok none) ∨
        ∃ r v, w'.role? id = some r ∧ getRole (m' k).data id = .ok (some v) ∧ v.id = id ∧ v.authType = r.authType ∧ v.auth = r.auth ∧
          v.numActions = r.actions.length ∧ v.actions = encActs 0 r.actions := by
  rcases C01_refines ho h with h | ⟨w', ho', _⟩
  · exact .inl h
  · refine .inr ⟨w', w'.header.encode, encRoles 0 w'.roles, encTail w'.claimer, ho'.data, Header.encode_length ho'.wf.header, ?_, rfl, ?_, ?_,
      ?_, ?_⟩
    · have h1 : (Header.decode (w'.header.encode ++ [])).roles = w'.roles.length := by
        rw [Header.decode_encode ho'.wf.header]; rfl
      simpa [Header.decode] using h1
    · cases hc : w'.claimer with
      | none => exact .inl rfl
      | some c => exact .inr ⟨c, ho'.wf.claimer c hc, rfl⟩
    · rw [ho'.data, rolesEndOffset_encode ho'.wf, encRoles_length]
    · exact ⟨_, by rw [ho'.data]; exact splitParts_encode ho'.wf, rfl, rfl, rfl⟩
    · rw [ho'.data]; exact getRole_wallet ho'.wf

/-- A successful creation is where histories start: one role, with id 0. -/
theorem C01_created {env : Env} {cpi : Cpi} {swig : Meta} {rest : List Meta} {ix : Bytes} (hn : rd ix 0 2 = 0)
    (h : process env cpi m (swig :: rest) ix = .ok m') :
    ∃ w r, Open m' swig.key w ∧ w.roles = [r] ∧ r.id = 0 ∧ w.roleCounter = 1 ∧ w.claimer = none ∧ w.subCounter = 0 := by
  unfold process at h
  obtain ⟨_, _, e⟩ := bind_ok_iff.mp h
  clear h
  obtain ⟨cls, _, h⟩ := bind_ok_iff.mp e
  clear e
  unfold dispatch at h
  split at h
  · cases h
  rw [hn] at h
  simp only at h
  match rest, h with
  | payer :: wallet :: sys :: rest, h =>
    obtain ⟨c, al, a, as, _, _, _, _, _, _, _, h1, h2, h3, _⟩ := createV1_enc h
    exact ⟨_, _, ⟨h3, h2, h1⟩, rfl, rfl, rfl, rfl, rfl⟩
  | [_, _], h => cases h
  | [_], h => cases h
  | [], h => cases h

/-! ## C05: role ids -/

/-- Ids are distinct and below the counter; the counter never goes back; an id that was given out before the history and is free then is
still free afterwards, and the role that has it now has the type it had. -/
theorem C05_ids (ho : Open m k w) (h : Steps ok k m m') (ho' : Open m' k w') :
    (w'.roles.map Role.id).Nodup ∧ (∀ r ∈ w'.roles, r.id < w'.roleCounter) ∧ w.roleCounter ≤ w'.roleCounter ∧
    ∀ id, id < w.roleCounter → ∀ r', w'.role? id = some r' → ∃ r, w.role? id = some r ∧ r.authType = r'.authType := by
  rcases C01_refines ho h with hc | ⟨w'', h1, h2⟩
  · have := ho'.data
    rw [hc.data] at this
    have := congrArg (fun d => d.getD 0 0) this
    rw [Wallet.encode_head] at this
    cases this
  · rw [h1.unique ho'] at h2
    have hl := h2.later
    refine ⟨ho'.wf.idsNodup, ho'.wf.idsLt, hl.counter, ?_⟩
    intro id hid r' hr'
    obtain ⟨hm, he⟩ := role?_mem hr'
    rcases hl.roles r' hm with ⟨r, hr, e1, e2⟩ | hge
    · exact ⟨r, ho.wf.role?_iff.mpr ⟨hr, e1.trans he⟩, e2⟩
    · omega

/-! ## C10: the root role -/

theorem C10_root_stays {r : Role} (ho : Open m k w) (hr : w.role? 0 = some r) (h : Steps ok k m m') :
    IsClosed m' k ∨ ∃ w' r', Open m' k w' ∧ w'.role? 0 = some r' ∧ r'.authType = r.authType := by
  rcases C01_refines ho h with hc | ⟨w', h1, h2⟩
  · exact .inl hc
  · obtain ⟨hm, he⟩ := role?_mem hr
    obtain ⟨r', g1, g2, g3⟩ := h2.later.root r hm he
    exact .inr ⟨w', r', h1, h1.wf.role?_iff.mpr ⟨g1, g2⟩, g3⟩

/-! ## C15: the rent claimer -/

theorem C15_claimer_stays {c : Key} (ho : Open m k w) (hc : w.claimer = some c) (h : Steps ok k m m') :
    IsClosed m' k ∨ ∃ w', Open m' k w' ∧ w'.claimer = some c := by
  rcases C01_refines ho h with hcl | ⟨w', h1, h2⟩
  · exact .inl hcl
  · exact .inr ⟨w', h1, h2.later.claimer c hc⟩

/-! ## C43: closed wallets -/

/-- Partial: as long as the runtime does not delete the account for lack of lamports, a closed wallet stays closed and no request for it
succeeds.  The full claim fails because that can happen (`C43_refuted`). -/
theorem C43_stays_closed_partial (hc : IsClosed m k) (h : Steps ok k m m') : IsClosed m' k ∧
    ∀ env cpi swig rest ix m'', swig.key = k → process env cpi m' (swig :: rest) ix ≠ .ok m'' := by
  have h1 := steps_closed h hc
  refine ⟨h1, ?_⟩
  intro env cpi swig rest ix m'' hk e
  exact process_closed ⟨swig, rest, rfl, hk⟩ h1.owner h1.data e

/-! ## C47: sub-account ids -/

/-- Partial: in histories without migrations (instruction 12), an id below the counter is never issued again: the counter never goes back,
and each creation issues the counter (`C47_step_partial`).  The full claim fails with migrations (`C47_refuted`). -/
theorem C47_counter_partial (ho : Open m k w) (h : Steps (fun ix => rd ix 0 2 ≠ 12) k m m') (ho' : Open m' k w') :
    w.subCounter ≤ w'.subCounter := by
  rcases C01_refines ho h with hc | ⟨w'', h1, h2⟩
  · have := ho'.data
    rw [hc.data] at this
    have := congrArg (fun d => d.getD 0 0) this
    rw [Wallet.encode_head] at this
    cases this
  · rw [h1.unique ho'] at h2
    exact h2.subCounter fun ⟨ix, h12, h⟩ => h12 h

end

/-! ## A concrete history

On the sample wallet: role 1 pays 7 lamports through the System program, the owner adds a role (id 2), removes role 1, and registers a rent
claimer.  Between two requests everything except the wallet's configuration account is reset. -/

namespace Sample

theorem mem_typed (w : Wallet) : (mem w).Typed := by
  intro k
  unfold mem
  split
  · exact ⟨(by decide : swigId.length = 32), (by decide : 2000000000 < 2 ^ 64)⟩
  · split
    · exact ⟨by decide, by decide⟩
    · split
      · exact ⟨by decide, by decide⟩
      · exact ⟨by decide, by decide⟩

/-- The demo programs leave accounts of the wallet program alone (except for lamports). -/
theorem demoCpi_outside {a b : Mem} {ix : CpiIx} {k : Key} (ho : (a k).owner = swigId) (e : demoCpi a ix = .ok b) :
    (b k).data = (a k).data ∧ (b k).owner = (a k).owner := by
  have h1 : systemId ≠ swigId := by decide
  have h2 : tokenId ≠ swigId := by decide
  have hlam : ∀ (m : Mem) (x : Key) (n : Nat), ((m.setLamports x n) k).data = (m k).data ∧ ((m.setLamports x n) k).owner = (m k).owner := by
    intro m x n
    unfold Mem.setLamports Mem.set
    split
    · rename_i e; rw [e]; exact ⟨rfl, rfl⟩
    · exact ⟨rfl, rfl⟩
  have hset : ∀ (m : Mem) (x : Key) (c : Acct), (m x).owner ≠ swigId → (m k).owner = swigId → (m.set x c) k = m k := by
    intro m x c hx hk
    unfold Mem.set
    split
    · rename_i e; rw [e] at hk; exact absurd hk hx
    · rfl
  unfold demoCpi at e
  split at e
  · unfold demoSystem at e
    split at e
    · cases e
    · split at e
      · unfold demoAssign at e
        split at e
        · rename_i hc
          cases e
          rw [hset _ _ _ (by rw [hc.2.2.1]; exact h1) ho]
          exact ⟨rfl, rfl⟩
        · cases e
      · split at e
        · split at e
          · cases e
          · unfold demoTransfer at e
            split at e
            · unfold sysTransfer at e
              split at e
              · cases e
              · split at e
                · cases e
                · split at e
                  · cases e
                  · cases e
                    exact ⟨(hlam _ _ _).1.trans (hlam _ _ _).1, (hlam _ _ _).2.trans (hlam _ _ _).2⟩
            · cases e
        · cases e
  · split at e
    · unfold demoToken at e
      split at e
      · split at e
        · unfold demoTokenTransfer at e
          split at e
          · rename_i hc
            cases e
            have g : ∀ d, (a.setData _ d) k = a k := fun d => hset a _ _ (by rw [hc.2.2.2.1]; exact h2) ho
            unfold Mem.setData at g ⊢
            rw [hset _ _ _ ?_ (by rw [g]; exact ho), g]
            · exact ⟨rfl, rfl⟩
            · simp only [Mem.set, if_neg (Ne.symm hc.2.2.2.2.2.1), hc.2.2.2.2.1]
              exact h2
          · cases e
        · split at e
          · unfold demoTokenClose at e
            split at e
            · rename_i hc
              cases e
              rw [hset _ _ _ ?_ ((hlam _ _ _).2.trans ho)]
              · exact hlam _ _ _
              · rw [show ((a.setLamports _ _) _).owner = _ from congrArg Acct.owner (if_neg hc.2.2.2.2.1), hc.2.2.2.1]
                exact h2
            · cases e
          · cases e
      · cases e
    · cases e

def afterPay : Wallet := { wallet with roles := [root, ⟨1, 1, K 11, [⟨1, natLE 8 493⟩, ⟨3, systemId⟩]⟩] }
def beforePay : Wallet := { wallet with roles := [root, ⟨1, 1, K 11, [⟨1, natLE 8 500⟩, ⟨3, systemId⟩]⟩] }
def afterAdd : Wallet := { wallet with roleCounter := 3, roles := afterPay.roles ++ [⟨1, 2, K 12, [⟨1, natLE 8 9⟩]⟩] }
def afterRemove : Wallet := { wallet with roleCounter := 3, roles := [root, ⟨1, 2, K 12, [⟨1, natLE 8 9⟩]⟩] }
def afterClaimer : Wallet := { afterRemove with claimer := some (K 20) }

/-- One request followed by a reset of the other accounts. -/
theorem step {okIx : Bytes → Prop} {w w1 : Wallet} {swig : Meta} {rest : List Meta} {ix : Bytes} (hs : swig.key = K 1) (hw : swig.writable = true)
    (hk : ∀ a ∈ swig :: rest, a.key.length = 32) (hwf : w.WF) (hroom : w.roles.length + 1 < 2 ^ 16 ∧ w.roleCounter + 1 < 2 ^ 32) (hok : okIx ix)
    (e : (match process signEnv demoCpi (mem w) (swig :: rest) ix with
      | .ok m' => decide ((m' (K 1)).data = w1.encode ∧ (m' (K 1)).owner = swigId)
      | _ => false) = true) : Steps okIx (K 1) (mem w) (mem w1) := by
  have ho : Open (mem w) (K 1) w := ⟨rfl, hwf, rfl⟩
  split at e
  · rename_i m' hm
    obtain ⟨h1, h2⟩ := of_decide_eq_true e
    refine .trans (.request (fun a ix b hb e => ?_) hok ⟨?_, ?_, ?_⟩ hm) (.outside h1.symm h2.symm)
    · exact .outside (demoCpi_outside hb e).1 (demoCpi_outside hb e).2
    · intro s r es
      cases es
      exact ⟨mem_typed w, demoCpi_typed, hk, by decide, fun h => by rw [hw] at h; cases h⟩
    · intro s r w' es ho'
      cases es
      rw [hs] at ho'
      rw [ho'.unique ho]
      exact hroom
    · intro s wl r w' ixs m1 es _ _ _
      exact signEnv_noClash _ _
  · cases e

theorem demo_history : Steps (fun ix => rd ix 0 2 ≠ 12) (K 1) (mem beforePay) (mem afterClaimer) := by
  have h1 : Steps (fun ix => rd ix 0 2 ≠ 12) (K 1) (mem beforePay) (mem afterPay) :=
    step (swig := signSwig) (rest := signAddr :: signRest) (ix := signIx [paySol 7]) rfl rfl (by decide) (by decide +kernel) (by decide) (by decide)
      (by decide +kernel)
  have h2 : Steps (fun ix => rd ix 0 2 ≠ 12) (K 1) (mem afterPay) (mem afterAdd) :=
    step (swig := ⟨K 1, false, true⟩) (rest := [⟨K 10, true, true⟩, ⟨systemId, false, false⟩]) (ix := addIx) rfl rfl (by decide) (by decide +kernel)
      (by decide) (by decide) (by decide +kernel)
  have h3 : Steps (fun ix => rd ix 0 2 ≠ 12) (K 1) (mem afterAdd) (mem afterRemove) :=
    step (swig := ⟨K 1, false, true⟩) (rest := [⟨K 10, true, true⟩, ⟨systemId, false, false⟩]) (ix := removeIx) rfl rfl (by decide)
      (by decide +kernel) (by decide) (by decide) (by decide +kernel)
  have h4 : Steps (fun ix => rd ix 0 2 ≠ 12) (K 1) (mem afterRemove) (mem afterClaimer) :=
    step (swig := ⟨K 1, false, true⟩) (rest := [⟨K 10, true, true⟩, ⟨systemId, false, false⟩]) (ix := claimerIx) rfl rfl (by decide)
      (by decide +kernel) (by decide) (by decide) (by decide +kernel)
  exact .trans (.trans (.trans h1 h2) h3) h4

end Sample

/-- The hypotheses of C01, C05, C10, C47 hold on this history. -/
example : Open (Sample.mem Sample.beforePay) (Sample.K 1) Sample.beforePay ∧
    Steps (fun ix => rd ix 0 2 ≠ 12) (Sample.K 1) (Sample.mem Sample.beforePay) (Sample.mem Sample.afterClaimer) ∧
    Open (Sample.mem Sample.afterClaimer) (Sample.K 1) Sample.afterClaimer ∧ Sample.beforePay.role? 0 = some Sample.root :=
  ⟨⟨rfl, by decide +kernel, rfl⟩, Sample.demo_history, ⟨rfl, by decide +kernel, rfl⟩, rfl⟩

/-- The hypotheses of C15 hold: the history continues from the wallet with its claimer. -/
example : ∃ m', Open (Sample.mem Sample.afterClaimer) (Sample.K 1) Sample.afterClaimer ∧ Sample.afterClaimer.claimer = some (Sample.K 20) ∧
    Steps (fun _ => True) (Sample.K 1) (Sample.mem Sample.afterClaimer) m' ∧ Open m' (Sample.K 1) { Sample.afterClaimer with roleCounter := 4, roles := Sample.afterClaimer.roles ++ [⟨1, 3, Sample.K 12, [⟨1, natLE 8 9⟩]⟩] } :=
  ⟨_, ⟨rfl, by decide +kernel, rfl⟩, rfl,
    Sample.step (w1 := { Sample.afterClaimer with roleCounter := 4, roles := Sample.afterClaimer.roles ++ [⟨1, 3, Sample.K 12, [⟨1, natLE 8 9⟩]⟩] })
      (swig := ⟨Sample.K 1, false, true⟩) (rest := [⟨Sample.K 10, true, true⟩, ⟨systemId, false, false⟩]) (ix := Sample.addIx) rfl rfl (by decide)
      (by decide +kernel) (by decide) trivial (by decide +kernel), ⟨rfl, by decide +kernel, rfl⟩⟩

/-- The hypotheses of C01_created hold. -/
example : rd Sample.createIx 0 2 = 0 ∧ ∃ m', process Sample.env Sample.demoCpi Sample.mem0 Sample.createMetas Sample.createIx = .ok m' :=
  ⟨rfl, Sample.exists_of_ok (by decide +kernel)⟩

/-- The hypothesis of C43_stays_closed_partial holds after a CloseSwig (see the example beside `C43`); here a closed account and a history
in which another wallet is created. -/
example : ∃ m m', IsClosed m (Sample.K 9) ∧ process Sample.env Sample.demoCpi m Sample.createMetas Sample.createIx = .ok m' ∧ IsClosed m' (Sample.K 9) := by
  have key : (match process Sample.env Sample.demoCpi (Sample.mem0.set (Sample.K 9) ⟨swigId, 1000, [255]⟩) Sample.createMetas Sample.createIx with
      | .ok m' => decide ((m' (Sample.K 9)).data = [255] ∧ (m' (Sample.K 9)).owner = swigId)
      | _ => false) = true := by decide +kernel
  split at key
  · rename_i m' hm
    obtain ⟨h1, h2⟩ := of_decide_eq_true key
    exact ⟨_, m', ⟨rfl, rfl⟩, hm, ⟨h2, h1⟩⟩
  · cases key

end Verif
