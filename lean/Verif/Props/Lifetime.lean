import Verif.Proofs.Lifetime
import Verif.Props.Sign
import Verif.Props.Auth

/-!
# Properties C73-C76: one role over whole histories

Vocabulary: Spec/Evolve.lean (`Steps`, `Open`, `actingRole`), Spec/Authn.lean (`credentialAt`, `signedPart`), Spec/Lifetime.lean (`Names`,
`Spending`).
-/

namespace Verif

section
variable {k : Key} {id : Nat} {m m' : Mem} {w : Wallet} {r : Role}

/-! ## C73: a role changes only through requests that name it -/

/-- Whatever happens on the ledger, as long as no request names the role, its record (type, credential, permissions with their remaining
amounts) does not change, unless the wallet is closed. -/
theorem C73_unnamed (ho : Open m k w) (hr : w.role? id = some r) (h : Steps (fun ix => ¬ Names ix id) k m m') :
    IsClosed m' k ∨ ∃ w', Open m' k w' ∧ w'.role? id = some r := by
  rcases C01_refines ho h with hc | ⟨w', ho', hch⟩
  · exact .inl hc
  · obtain ⟨hm, hid⟩ := role?_mem hr
    have hlt : id < w.roleCounter := hid ▸ ho.wf.idsLt r hm
    have act : ∀ ix n, ¬ Names ix id → (rd ix 0 2 = n ∧ id = actingRole ix) → False := fun ix n h1 h2 => h1 (.inl h2.2.symm)
    have hkeep : ∀ kd r1 r2, (∃ ix, ¬ Names ix id ∧ Does ix kd) → Effect kd id r1 r2 → r1 = r → r2 = r := by
      rintro kd r1 r2 ⟨ix, h1, h2⟩ he rfl
      have ha : r2.auth = r1.auth := by
        rcases he.auth with ⟨rfl, _⟩ | ⟨rfl, _⟩ | rfl | g
        · exact (h1 (.inl h2.2.symm)).elim
        · exact (act ix 5 h1 h2).elim
        · exact (h1 (.inr (.inr ⟨.inr h2.1, h2.2.symm⟩))).elim
        · exact g.2
      have hb : r2.actions = r1.actions := by
        rcases he.actions with g | rfl | ⟨rfl, _⟩ | ⟨rfl | rfl, _⟩
        · exact g
        · exact (h1 (.inr (.inl ⟨.inr h2.1, h2.2.symm⟩))).elim
        · exact (act ix 11 h1 h2).elim
        · rcases h2 with h2 | h2
          · exact (act ix 6 h1 h2).elim
          · exact (h1 (.inr (.inr ⟨.inl h2.1, h2.2.symm⟩))).elim
        · exact (act ix 18 h1 h2).elim
      have := he.sameId
      have := he.authType
      cases r1; cases r2; simp_all
    rcases hch.role hr hlt (Q := fun x => x = r) rfl hkeep with ⟨r', h1, rfl⟩ | ⟨⟨ix, h1, h2⟩, _⟩
    · exact .inr ⟨w', ho', h1⟩
    · exact (h1 (.inr (.inl ⟨.inl h2.1, h2.2.symm⟩))).elim

/-- The credential of a role changes only through requests acting as it and through replacements of its key. -/
theorem C73_credential (ho : Open m k w) (hr : w.role? id = some r) (h : Steps (fun ix => actingRole ix ≠ id ∧ ¬ Rekeys ix id) k m m') :
    IsClosed m' k ∨ ∃ w', Open m' k w' ∧
      (w'.role? id = none ∨ ∃ r', w'.role? id = some r' ∧ r'.authType = r.authType ∧ r'.auth = r.auth) := by
  rcases C01_refines ho h with hc | ⟨w', ho', hch⟩
  · exact .inl hc
  · obtain ⟨hm, hid⟩ := role?_mem hr
    have hlt : id < w.roleCounter := hid ▸ ho.wf.idsLt r hm
    have hkeep : ∀ kd r1 r2, (∃ ix, (actingRole ix ≠ id ∧ ¬ Rekeys ix id) ∧ Does ix kd) → Effect kd id r1 r2 →
        (r1.authType = r.authType ∧ r1.auth = r.auth) → r2.authType = r.authType ∧ r2.auth = r.auth := by
      rintro kd r1 r2 ⟨ix, ⟨h0, h1⟩, h2⟩ he ⟨e1, e2⟩
      refine ⟨he.authType.trans e1, ?_⟩
      rcases he.auth with ⟨rfl, _⟩ | ⟨rfl, _⟩ | rfl | g
      · exact (h0 h2.2.symm).elim
      · exact (h0 h2.2.symm).elim
      · exact (h1 ⟨h2.1, h2.2.symm⟩).elim
      · exact g.2.trans e2
    rcases hch.role hr hlt (Q := fun x => x.authType = r.authType ∧ x.auth = r.auth) ⟨rfl, rfl⟩ hkeep with ⟨r', h1, h2⟩ | ⟨_, h2⟩
    · exact .inr ⟨w', ho', .inr ⟨r', h1, h2⟩⟩
    · exact .inr ⟨w', ho', .inl h2⟩

/-- The permissions of a role are extended or replaced only by an update naming it: without one, its signings only change remaining amounts
(the kinds of its permissions stay), and besides that only sub-account permissions change. -/
theorem C73_permissions (ho : Open m k w) (hr : w.role? id = some r)
    (h : Steps (fun ix => ¬ (rd ix 0 2 = 3 ∧ rd ix 12 4 = id) ∧ ¬ (rd ix 0 2 = 11 ∧ rd ix 4 4 = id)) k m m') :
    IsClosed m' k ∨ ∃ w', Open m' k w' ∧ (w'.role? id = none ∨ ∃ r', w'.role? id = some r' ∧
      r'.actions.filter (fun a => decide (a.ty ≠ P.subAccount ∧ a.ty ≠ P.subAccountV2All)) =
      r.actions.filter (fun a => decide (a.ty ≠ P.subAccount ∧ a.ty ≠ P.subAccountV2All))) := by
  rcases C01_refines ho h with hc | ⟨w', ho', hch⟩
  · exact .inl hc
  · obtain ⟨hm, hid⟩ := role?_mem hr
    have hlt : id < w.roleCounter := hid ▸ ho.wf.idsLt r hm
    have hkeep : ∀ kd r1 r2, (∃ ix, (¬ (rd ix 0 2 = 3 ∧ rd ix 12 4 = id) ∧ ¬ (rd ix 0 2 = 11 ∧ rd ix 4 4 = id)) ∧ Does ix kd) →
        Effect kd id r1 r2 → limitsOf r1.actions = limitsOf r.actions → limitsOf r2.actions = limitsOf r.actions := by
      rintro kd r1 r2 ⟨ix, ⟨h0, h1⟩, h2⟩ he hq
      rcases he.actions with g | rfl | ⟨rfl, _⟩ | ⟨_, g⟩
      · rw [g]; exact hq
      · exact (h0 ⟨h2.1, h2.2.symm⟩).elim
      · refine (h1 ⟨h2.1, ?_⟩).elim
        rw [h2.2]; simp [actingRole, h2.1]
      · exact g.trans hq
    rcases hch.role hr hlt (Q := fun x => limitsOf x.actions = limitsOf r.actions) rfl hkeep with ⟨r', h1, h2⟩ | ⟨_, h2⟩
    · exact .inr ⟨w', ho', .inr ⟨r', h1, h2⟩⟩
    · exact .inr ⟨w', ho', .inl h2⟩

/-! ## C74: limits over the lifetime of a role -/

theorem none_charged {as as' : List Act} (h : All2 Act.Charged as as') {ty : Nat} {key : Bytes} (hn : payload? as ty key = none) :
    payload? as' ty key = none := by
  have := payload?_charged h ty key
  rw [hn] at this
  simpa using this

variable {es : List Signing}

/-- Signings are made by transactions only: the program refuses a signing that a called program asks for, at any depth.  So the signings a history
lists (`Spending`) are all there are. -/
theorem C74_called {env : Env} {cpi : Cpi} {metas : List Meta} {ix : Bytes} (hn : rd ix 0 2 = 11) (hh : env.stackHeight ≠ 1) :
    process env cpi m metas ix ≠ .ok m' := fun e => hh (sign_top hn e)

/-- A role with a fixed SOL limit: all its signings together take at most the amount the limit states now out of the wallet, whatever
happens in between, until the role is updated. -/
theorem C74_sol_limit (ho : Open m k w) (hr : w.role? id = some r) (hres : Restricted r) {d : Bytes} (hl : r.limit? P.solLimit [] = some d)
    (h : Spending k id m es m') : (es.map Signing.lamportsLost).sum ≤ rd d 0 8 := by
  refine h.induct (fun as es => ∀ d, payload? as P.solLimit [] = some d → (es.map Signing.lamportsLost).sum ≤ rd d 0 8) ?_ ?_ ?_ ho hr hres d hl
  · intro as d _; exact Nat.zero_le _
  · intro as as' es he hI d hd
    rw [← payload?_limits (by decide) (by decide), ← he, payload?_limits (by decide) (by decide)] at hd
    exact hI d hd
  · intro e es w w' r r' hb ho hr hres ho' hr' _ hI d hd
    obtain ⟨ixs, m1, h1, h2 | ⟨w2, r2, d', h2, h3, h4, h5⟩⟩ := C52_sol_limit (hb.restricted ho hr hres) hd
    · exact (hb.noClash ho h1 h2).elim
    · rw [hb.same ho' hr' h2] at h3
      have := hI d' h3
      rw [List.map_cons, List.sum_cons]
      unfold Signing.lamportsLost at *
      omega

/-- A role with a recurring SOL limit (amount, window, last reset, remaining amount; no fixed limit): its signings in the slots `s` to `t`
take at most what remains plus one full amount for each aligned window the interval touches. -/
theorem C74_sol_recurring (ho : Open m k w) (hr : w.role? id = some r) (hres : Restricted r) {d : Bytes} (hn : r.limit? P.solLimit [] = none)
    (hl : r.limit? P.solRecurringLimit [] = some d) (hW : 0 < rd d 8 8) {s t : Nat} (hst : ∀ e ∈ es, s ≤ e.env.slot ∧ e.env.slot ≤ t)
    (h : Spending k id m es m') : (es.map Signing.lamportsLost).sum ≤ rd d 24 8 + rd d 0 8 * (1 + (t / rd d 8 8 - s / rd d 8 8)) := by
  have key := h.induct (fun as es => ∀ d, payload? as P.solLimit [] = none → payload? as P.solRecurringLimit [] = some d →
      (∀ e ∈ es, s ≤ e.env.slot ∧ e.env.slot ≤ t) → ∃ cs, (play SolRecurringLimit.charge (.of d) cs).2 = cs ∧ (∀ c ∈ cs, s ≤ c.slot ∧ c.slot ≤ t) ∧
        (es.map Signing.lamportsLost).sum ≤ Charge.total cs) ?_ ?_ ?_ ho hr hres d hn hl hst
  · obtain ⟨cs, h1, h2, h3⟩ := key
    have := C19_sol_interval (.of d) hW s t cs h2
    rw [h1] at this
    simp only [SolRecurringLimit.of] at this
    omega
  · intro as d _ _ _
    exact ⟨[], rfl, (fun _ h => nomatch h), Nat.zero_le _⟩
  · intro as as' es he hI d hn hd hst
    rw [← payload?_limits (by decide) (by decide), ← he, payload?_limits (by decide) (by decide)] at hd hn
    exact hI d hn hd hst
  · intro e es w w' r r' hb ho hr hres ho' hr' hch hI d hn hd hst
    obtain ⟨ixs, m1, h1, h2 | ⟨w2, r2, d', cs, h2, h3, h4, h5, h6⟩⟩ := C52_sol_recurring (hb.restricted ho hr hres) hn hd
    · exact (hb.noClash ho h1 h2).elim
    · rw [hb.same ho' hr' h2] at h3
      have hn' : payload? r'.actions P.solLimit [] = none := none_charged hch hn
      obtain ⟨cs', g1, g2, g3⟩ := hI d' hn' h3 (fun e he => hst e (List.mem_cons_of_mem _ he))
      refine ⟨cs ++ cs', ?_, ?_, ?_⟩
      · rw [play_append, h4]; dsimp only; rw [g1]
      · intro c hc
        rcases List.mem_append.mp hc with hc | hc
        · rw [h5 c hc]; exact hst e (List.mem_cons_self ..)
        · exact g2 c hc
      · rw [List.map_cons, List.sum_cons]
        unfold Charge.total at *
        rw [List.map_append, List.sum_append]
        unfold Signing.lamportsLost at *
        omega

/-- A role without any SOL limit never takes lamports out of the wallet. -/
theorem C74_sol_none (ho : Open m k w) (hr : w.role? id = some r) (hres : Restricted r)
    (hn : ∀ a ∈ r.actions, a.ty ≠ P.solLimit ∧ a.ty ≠ P.solRecurringLimit ∧ a.ty ≠ P.solDestinationLimit ∧ a.ty ≠ P.solRecurringDestinationLimit)
    (h : Spending k id m es m') : ∀ e ∈ es, e.lamportsLost = 0 := by
  refine h.induct (fun as es => (∀ a ∈ as, a.ty ≠ P.solLimit ∧ a.ty ≠ P.solRecurringLimit ∧ a.ty ≠ P.solDestinationLimit ∧
    a.ty ≠ P.solRecurringDestinationLimit) → ∀ e ∈ es, e.lamportsLost = 0) ?_ ?_ ?_ ho hr hres hn
  · intro as _ e he; cases he
  · intro as as' es he hI hn
    refine hI fun a ha => ?_
    by_cases hs : a.ty ≠ P.subAccount ∧ a.ty ≠ P.subAccountV2All
    · have : a ∈ limitsOf as' := List.mem_filter.mpr ⟨ha, by simpa using hs⟩
      rw [he] at this
      exact hn a (List.mem_filter.mp this).1
    · have : a.ty = P.subAccount ∨ a.ty = P.subAccountV2All := by
        by_cases h : a.ty = P.subAccount
        · exact .inl h
        · exact .inr (Decidable.of_not_not fun g => hs ⟨h, g⟩)
      rcases this with e | e <;> rw [e] <;> decide
  · intro e es w w' r r' hb ho hr hres ho' hr' hch hI hn x hx
    rcases List.mem_cons.mp hx with rfl | hx
    · obtain ⟨ixs, m1, h1, h2 | h2⟩ := C52_no_limit (hb.restricted ho hr hres) hn
      · exact (hb.noClash ho h1 h2).elim
      · unfold Signing.lamportsLost; omega
    · refine hI (fun a ha => ?_) x hx
      have h1 : a.ty ∈ r'.actions.map Act.ty := List.mem_map.mpr ⟨a, ha, rfl⟩
      rw [hch.map_ty] at h1
      obtain ⟨b, h2, h3⟩ := List.mem_map.mp h1
      rw [← h3]
      exact hn b h2

/-- A role with a fixed token limit for a mint: all its signings together take at most the amount the limit states now out of the wallet's
token accounts of that mint (those passed writable and not closed by the signing), or two versions of a token account collide. -/
theorem C74_token_limit (ho : Open m k w) (hr : w.role? id = some r) (hres : Restricted r) {mint d : Bytes} (hl : r.limit? P.tokenLimit mint = some d)
    (h : Spending k id m es m') : (∃ e ∈ es, e.TokenCollision) ∨ (es.map (Signing.tokensLost · mint)).sum ≤ rd d 32 8 := by
  refine h.induct (fun as es => ∀ d, payload? as P.tokenLimit mint = some d →
    (∃ e ∈ es, e.TokenCollision) ∨ (es.map (Signing.tokensLost · mint)).sum ≤ rd d 32 8) ?_ ?_ ?_ ho hr hres d hl
  · intro as d _; exact .inr (Nat.zero_le _)
  · intro as as' es he hI d hd
    rw [← payload?_limits (by decide) (by decide), ← he, payload?_limits (by decide) (by decide)] at hd
    exact hI d hd
  · intro e es w w' r r' hb ho hr hres ho' hr' _ hI d hd
    obtain ⟨ixs, m1, h1, h2 | h2 | ⟨w2, r2, d', h2, h3, h4, h5⟩⟩ := C53_limit_partial (hb.restricted ho hr hres) hd
    · exact (hb.noClash ho h1 h2).elim
    · exact .inl ⟨e, List.mem_cons_self .., w, ixs, m1, by rw [hb.config]; exact ho, h1, h2⟩
    · rw [hb.same ho' hr' h2] at h3
      rcases hI d' h3 with ⟨x, hx, g⟩ | g
      · exact .inl ⟨x, List.mem_cons_of_mem _ hx, g⟩
      · right
        rw [List.map_cons, List.sum_cons]
        have : e.tokensLost mint ≤ rd d 32 8 - rd d' 32 8 := h5
        omega

/-- The same for a recurring token limit (window, amount, remaining amount; no fixed limit), per interval of slots. -/
theorem C74_token_recurring (ho : Open m k w) (hr : w.role? id = some r) (hres : Restricted r) {mint d : Bytes}
    (hn : r.limit? P.tokenLimit mint = none) (hl : r.limit? P.tokenRecurringLimit mint = some d) (hW : 0 < rd d 32 8) {s t : Nat}
    (hst : ∀ e ∈ es, s ≤ e.env.slot ∧ e.env.slot ≤ t) (h : Spending k id m es m') :
    (∃ e ∈ es, e.TokenCollision) ∨
    (es.map (Signing.tokensLost · mint)).sum ≤ rd d 48 8 + rd d 40 8 * (1 + (t / rd d 32 8 - s / rd d 32 8)) := by
  have key := h.induct (fun as es => ∀ d, payload? as P.tokenLimit mint = none → payload? as P.tokenRecurringLimit mint = some d →
      (∀ e ∈ es, s ≤ e.env.slot ∧ e.env.slot ≤ t) → (∃ e ∈ es, e.TokenCollision) ∨ ∃ cs, (play TokenRecurringLimit.charge (.of d) cs).2 = cs ∧
        (∀ c ∈ cs, s ≤ c.slot ∧ c.slot ≤ t) ∧ (es.map (Signing.tokensLost · mint)).sum ≤ Charge.total cs) ?_ ?_ ?_ ho hr hres d hn hl hst
  · rcases key with h | ⟨cs, h1, h2, h3⟩
    · exact .inl h
    · right
      have := C19_token_interval (.of d) hW s t cs h2
      rw [h1] at this
      simp only [TokenRecurringLimit.of] at this
      omega
  · intro as d _ _ _
    exact .inr ⟨[], rfl, (fun _ h => nomatch h), Nat.zero_le _⟩
  · intro as as' es he hI d hn hd hst
    rw [← payload?_limits (by decide) (by decide), ← he, payload?_limits (by decide) (by decide)] at hd hn
    exact hI d hn hd hst
  · intro e es w w' r r' hb ho hr hres ho' hr' hch hI d hn hd hst
    obtain ⟨ixs, m1, h1, h2 | h2 | ⟨w2, r2, d', cs, h2, h3, h4, h5, h6⟩⟩ := C53_recurring_partial (hb.restricted ho hr hres) hn hd
    · exact (hb.noClash ho h1 h2).elim
    · exact .inl ⟨e, List.mem_cons_self .., w, ixs, m1, by rw [hb.config]; exact ho, h1, h2⟩
    · rw [hb.same ho' hr' h2] at h3
      rcases hI d' (none_charged hch hn) h3 (fun e he => hst e (List.mem_cons_of_mem _ he)) with ⟨x, hx, g⟩ | ⟨cs', g1, g2, g3⟩
      · exact .inl ⟨x, List.mem_cons_of_mem _ hx, g⟩
      · refine .inr ⟨cs ++ cs', ?_, ?_, ?_⟩
        · rw [play_append, h4]; dsimp only; rw [g1]
        · intro c hc
          rcases List.mem_append.mp hc with hc | hc
          · rw [h5 c hc]; exact hst e (List.mem_cons_self ..)
          · exact g2 c hc
        · rw [List.map_cons, List.sum_cons]
          unfold Charge.total at *
          rw [List.map_append, List.sum_append]
          have : e.tokensLost mint ≤ (cs.map fun x => x.amount).sum := h6
          omega

end

/-! ## C75: replay over whole histories -/

theorem secp_counter {env : Env} {ty : Nat} (ht : ty = 3 ∨ ty = 5) {auth : Bytes} {metas : List Meta} {sysvar payload data b : Bytes}
    (h : authenticate env ty auth metas sysvar payload data = .ok b) : rd payload 8 4 = (rd auth 36 4 + 1) % 2 ^ 32 := by
  unfold authenticate at h
  rcases ht with rfl | rfl
  · rw [if_neg (by decide), if_pos (by decide)] at h
    unfold k1Authenticate at h
    split at h
    · cases h
    · simp only at h
      split at h
      · cases h
      · rename_i hc
        exact Decidable.of_not_not hc
  · rw [if_neg (by decide), if_neg (by decide), if_pos (by decide)] at h
    unfold r1Authenticate at h
    split at h
    · cases h
    · simp only at h
      split at h
      · cases h
      · rename_i hc
        exact Decidable.of_not_not hc

theorem plain_len {w : Wallet} {r : Role} {id : Nat} (hw : w.WF) (hr : w.role? id = some r) (ht : r.authType = 3 ∨ r.authType = 5) :
    r.auth.length = 40 := by
  have := (hw.roles r (role?_mem hr).1).auth
  rcases ht with e | e <;> rw [e] at this <;> exact (Option.some.inj this).symm

/-- What a successful request acting as a plain secp role states as its counter. -/
theorem request_counter {env : Env} {cpi : Cpi} {m m' : Mem} {swig : Meta} {rest : List Meta} {ix : Bytes} {w : Wallet} {r : Role}
    (ho : Open m swig.key w) (hf : Fine env cpi m (swig :: rest) ix) (e : process env cpi m (swig :: rest) ix = .ok m')
    (hr : w.role? (actingRole ix) = some r) (ht : r.authType = 3 ∨ r.authType = 5) :
    rd ix 0 2 ≠ 5 ∧ rd (ix.drop (credentialAt ix)) 8 4 = (rd r.auth 36 4 + 1) % 2 ^ 32 := by
  rcases process_acts ho (hf.runtime _ _ rfl).keys (hf.room _ _ _ rfl ho) e with ⟨h5, r', h1, h2⟩ | ⟨_, r', a, s, h1, h2, h3, h4, h5, _⟩
  · cases hr.symm.trans h1
    refine ⟨h5, ?_⟩
    unfold authRole at h2
    rw [if_neg (by rcases ht with e | e <;> rw [e] <;> decide)] at h2
    exact secp_counter ht h2
  · cases hr.symm.trans h1
    have := Auth.sessionBased_iff a
    rw [h3, h5] at this
    rcases ht with e | e <;> rw [e] at this <;> cases this

section
variable {k : Key} {id : Nat} {a b c d : Mem} {w w' : Wallet} {r : Role}

/-- The counter stored for a plain secp role is the one stored before plus the number of its uses in between, as long as its key is not
replaced. -/
theorem C75_counts (ho : Open a k w) (hr : w.role? id = some r) (ht : r.authType = 3 ∨ r.authType = 5)
    (h : Steps (fun ix => ¬ Rekeys ix id) k a b) : IsClosed b k ∨ ∃ w' ks, Open b k w' ∧ Trace w ks w' ∧
      (w'.role? id = none ∨ ∃ r', w'.role? id = some r' ∧ r'.auth.take 33 = r.auth.take 33 ∧
        rd r'.auth 36 4 = (rd r.auth 36 4 + ks.count (.used id)) % 2 ^ 32) := by
  rcases C01_refines ho h with hc | ⟨w', ho', ks, h1, h2⟩
  · exact .inl hc
  · refine .inr ⟨w', ks, ho', h1, ?_⟩
    obtain ⟨hm, hid⟩ := role?_mem hr
    have hl := plain_len ho.wf hr ht
    have hno : Kind.replaced id ∉ ks := by
      intro hk
      obtain ⟨ix, g1, g2⟩ := h2 _ hk
      exact g1 ⟨g2.1, g2.2.symm⟩
    rcases (h1.counts hr (hid ▸ ho.wf.idsLt r hm) ht hl hno).2 with g | ⟨r', g1, g2, g3⟩
    · exact .inl g
    · refine .inr ⟨r', g1, ?_, ?_⟩
      · rw [g3]
        have := congrArg (List.take 33) (advanced_split (auth := r.auth) (by omega) (ks.count (.used id))).1
        simpa [List.take_take] using this
      · have := (advanced_split (auth := r.auth) (by omega) (ks.count (.used id))).2
        have e : ∀ x : Bytes, x.length = 40 → rd x 36 4 = leNat (x.drop 36) := by
          intro x hx
          unfold rd sl
          rw [List.take_of_length_le (by simp [hx])]
        rw [e _ hl, e _ (by rw [g3]; simp [advanced, hl]), g3]
        exact this

/-- Of two accepted requests acting as the same plain secp role, the later one states the counter of the earlier one plus the number of times
the role was used from the earlier one (included) up to the later one, as long as its key is not replaced. -/
theorem C75_counters_partial {env1 env2 : Env} {cpi1 cpi2 : Cpi} {swig1 swig2 : Meta} {rest1 rest2 : List Meta} {ix1 ix2 : Bytes}
    (ho : Open a k w) (hr : w.role? id = some r) (ht : r.authType = 3 ∨ r.authType = 5)
    (hk1 : swig1.key = k) (hid1 : actingRole ix1 = id) (hn1 : ¬ Rekeys ix1 id) (hf1 : Fine env1 cpi1 a (swig1 :: rest1) ix1)
    (hc1 : ∀ x ix y, (x k).owner = swigId → cpi1 x ix = .ok y → Steps (fun ix => ¬ Rekeys ix id) k x y)
    (e1 : process env1 cpi1 a (swig1 :: rest1) ix1 = .ok b) (h : Steps (fun ix => ¬ Rekeys ix id) k b c)
    (hk2 : swig2.key = k) (hid2 : actingRole ix2 = id) (hf2 : Fine env2 cpi2 c (swig2 :: rest2) ix2)
    (e2 : process env2 cpi2 c (swig2 :: rest2) ix2 = .ok d) :
    ∃ w' ks, Open c k w' ∧ Trace w ks w' ∧ 1 ≤ ks.count (.used id) ∧
      rd (ix2.drop (credentialAt ix2)) 8 4 = (rd (ix1.drop (credentialAt ix1)) 8 4 + ks.count (.used id)) % 2 ^ 32 := by
  subst hk1
  obtain ⟨n5, q1⟩ := request_counter ho hf1 e1 (by rw [hid1]; exact hr) ht
  have hm : ∀ ix, ¬ Rekeys ix id → ∀ kd, Does ix kd → kd ≠ .replaced id := by
    rintro ix h1 kd h2 rfl
    exact h1 ⟨h2.1, h2.2.symm⟩
  have hb : Has swig1.key (Hist (fun kd => kd ≠ .replaced id) (w.used id)) b := by
    refine process_own ho.owner ho.wf ho.data ?_ ?_ (hm _ hn1) hf1 ?_ e1
    · rintro (g | ⟨g1, g2⟩)
      · exact (n5 g).elim
      · exact (hn1 ⟨g1, g2.trans hid1⟩).elim
    · intro _ _
      rw [hid1]
      exact .refl
    · intro x ix y hx hy
      exact steps_hist hm (hc1 x ix y hx.1 hy) hx
  obtain ⟨hown, hh⟩ := steps_hist hm h hb
  rcases hh with ⟨w', hw', ⟨ks, h1, h2⟩, hd⟩ | hd
  · have ho' : Open c swig1.key w' := ⟨hown, hw', hd⟩
    have htr : Trace w (.used id :: ks) w' := (Trace.snoc .nil (.used id)).append h1
    have hno : Kind.replaced id ∉ Kind.used id :: ks := by
      intro g
      rcases List.mem_cons.mp g with g | g
      · cases g
      · exact h2 _ g rfl
    refine ⟨w', _, ho', htr, by simp, ?_⟩
    obtain ⟨hmem, hid⟩ := role?_mem hr
    have hl := plain_len ho.wf hr ht
    have e : ∀ x : Bytes, x.length = 40 → rd x 36 4 = leNat (x.drop 36) := by
      intro x hx
      unfold rd sl
      rw [List.take_of_length_le (by simp [hx])]
    have ho2 : Open c swig2.key w' := by rw [hk2]; exact ho'
    rcases (htr.counts hr (hid ▸ ho.wf.idsLt r hmem) ht hl hno).2 with g | ⟨r', g1, g2, g3⟩
    · exfalso
      rcases process_acts ho2 (hf2.runtime _ _ rfl).keys (hf2.room _ _ _ rfl ho2) e2 with ⟨_, r', f, _⟩ | ⟨_, r', _, _, f, _⟩ <;>
      · rw [hid2, g] at f; cases f
    · obtain ⟨_, q2⟩ := request_counter ho2 hf2 e2 (by rw [hid2]; exact g1) (by rw [g2]; exact ht)
      have hlt := leNat_lt (r.auth.drop 36)
      rw [show (r.auth.drop 36).length = 4 by simp [hl]] at hlt
      rw [e _ (by rw [g3]; simp [advanced, hl]), g3, (advanced_split (auth := r.auth) (by omega) _).2] at q2
      rw [e _ hl] at q1
      rw [q1, q2]
      omega
  · exact (process_closed ⟨swig2, rest2, rfl, hk2⟩ hown hd.2 e2).elim

/-- Partial: two requests acting as the same plain secp role and stating the same counter (for instance, the same request twice) are both
accepted only if the role was used at least 2^32 times from the first one on, as long as its key is not replaced.  The full claim fails
because replacing the key, and then restoring it, starts the counter again (`C75_refuted`). -/
theorem C75_no_replay_partial {env1 env2 : Env} {cpi1 cpi2 : Cpi} {swig1 swig2 : Meta} {rest1 rest2 : List Meta} {ix1 ix2 : Bytes}
    (ho : Open a k w) (hr : w.role? id = some r) (ht : r.authType = 3 ∨ r.authType = 5)
    (hk1 : swig1.key = k) (hid1 : actingRole ix1 = id) (hn1 : ¬ Rekeys ix1 id) (hf1 : Fine env1 cpi1 a (swig1 :: rest1) ix1)
    (hc1 : ∀ x ix y, (x k).owner = swigId → cpi1 x ix = .ok y → Steps (fun ix => ¬ Rekeys ix id) k x y)
    (e1 : process env1 cpi1 a (swig1 :: rest1) ix1 = .ok b) (h : Steps (fun ix => ¬ Rekeys ix id) k b c)
    (hk2 : swig2.key = k) (hid2 : actingRole ix2 = id) (hf2 : Fine env2 cpi2 c (swig2 :: rest2) ix2)
    (e2 : process env2 cpi2 c (swig2 :: rest2) ix2 = .ok d) :
    ∃ w' ks, Open c k w' ∧ Trace w ks w' ∧
      (ks.count (.used id) < 2 ^ 32 → rd (ix1.drop (credentialAt ix1)) 8 4 ≠ rd (ix2.drop (credentialAt ix2)) 8 4 ∧ ix1 ≠ ix2) := by
  obtain ⟨w', ks, h1, h2, h3, h4⟩ := C75_counters_partial ho hr ht hk1 hid1 hn1 hf1 hc1 e1 h hk2 hid2 hf2 e2
  refine ⟨w', ks, h1, h2, fun hlt => ?_⟩
  have hne : rd (ix1.drop (credentialAt ix1)) 8 4 ≠ rd (ix2.drop (credentialAt ix2)) 8 4 := by
    have := rd_lt (ix1.drop (credentialAt ix1)) 8 4
    omega
  exact ⟨hne, fun h => hne (by rw [h])⟩

end


/-! ### Replacing the key away and back -/

namespace Sample

/-- Role 1 is a secp256k1 role with counter 0 and a SOL limit. -/
def replayWallet : Wallet :=
  { wallet with roles := [root, ⟨3, 1, 2 :: zeros 32 ++ zeros 3 ++ natLE 4 0, [⟨1, natLE 8 500⟩, ⟨3, systemId⟩]⟩] }

def replayMetas : List Meta := signSwig :: signAddr :: [⟨systemId, false, false⟩, ⟨K 11, true, true⟩, ⟨K 12, false, false⟩, ⟨K 40, false, true⟩]

/-- Role 1 pays 7 lamports: slot 90, counter 1, a signature. -/
def replayIx : Bytes :=
  natLE 2 11 ++ natLE 2 (1 :: paySol 7).length ++ natLE 4 1 ++ (1 :: paySol 7) ++ (natLE 8 90 ++ natLE 4 1 ++ (K 1 ++ K 2) ++ [27])

/-- Recovery succeeds for exactly one message and signature: those of `replayIx`. -/
def replayEnv : Env := { signEnv with
  recover := fun h _ sig => if h = k1Hash signEnv (1 :: paySol 7) replayMetas 90 1 [] ∧ sig = K 1 ++ K 2 then some (zeros 64) else none }

/-- The owner replaces the key of role 1. -/
def rekeyIx (key : Bytes) : Bytes := natLE 2 16 ++ zeros 2 ++ natLE 4 0 ++ natLE 4 1 ++ natLE 2 33 ++ zeros 2 ++ key ++ [1]

end Sample

open Sample in
/-- C75 is false of the code as it stands: a payment signed once by a secp256k1 role, for one slot and one counter, is executed twice,
with the same accounts and the same bytes, because in between the owner has replaced the key of the role by another one and then
replaced that by the first key again: replacing sets the counter to zero.  Recovery in `env` accepts a single message and
signature, so the key has signed nothing else.  (The signature must still be fresh: at most 60 slots old.) -/
theorem C75_refuted : ∃ (env : Env) (cpi : Cpi) (m0 m1 m2 m3 m4 : Mem) (metas metas' : List Meta) (ix away back : Bytes) (w : Wallet) (r : Role) (k address : Key),
    Open m0 k w ∧ w.role? (actingRole ix) = some r ∧ r.authType = 3 ∧
    process env cpi m0 metas ix = .ok m1 ∧ Rekeys away (actingRole ix) ∧ process env cpi m1 metas' away = .ok m2 ∧
    Rekeys back (actingRole ix) ∧ process env cpi m2 metas' back = .ok m3 ∧ process env cpi m3 metas ix = .ok m4 ∧
    (∃ msg sig, ∀ h i s, env.recover h i s ≠ none → h = msg ∧ s = sig) ∧
    (m1 address).lamports + 7 = (m0 address).lamports ∧ (m4 address).lamports + 14 = (m0 address).lamports := by
  have key : (match process replayEnv demoCpi (mem replayWallet) replayMetas replayIx with
    | .ok m1 => (match process replayEnv demoCpi m1 (metas (K 10)) (rekeyIx (3 :: K 9)) with
      | .ok m2 => (match process replayEnv demoCpi m2 (metas (K 10)) (rekeyIx (2 :: zeros 32)) with
        | .ok m3 => (match process replayEnv demoCpi m3 replayMetas replayIx with
          | .ok m4 => decide ((m1 (K 2)).lamports + 7 = 5000000000 ∧ (m4 (K 2)).lamports + 14 = 5000000000) | _ => false)
        | _ => false) | _ => false) | _ => false) = true := by
    decide +kernel
  split at key
  · rename_i m1 h1
    split at key
    · rename_i m2 h2
      split at key
      · rename_i m3 h3
        split at key
        · rename_i m4 h4
          obtain ⟨g1, g2⟩ := of_decide_eq_true key
          refine ⟨replayEnv, demoCpi, mem replayWallet, m1, m2, m3, m4, replayMetas, metas (K 10), replayIx, _, _, replayWallet, _, K 1, K 2,
            ⟨rfl, by decide +kernel, rfl⟩, rfl, rfl, h1, ⟨by decide, by decide⟩, h2, ⟨by decide, by decide⟩, h3, h4, ⟨k1Hash signEnv (1 :: paySol 7) replayMetas 90 1 [], K 1 ++ K 2,
              fun h i s hn => ?_⟩, g1, g2⟩
          · by_cases hc : h = k1Hash signEnv (1 :: paySol 7) replayMetas 90 1 [] ∧ s = K 1 ++ K 2
            · exact hc
            · exact (hn (if_neg hc)).elim
        · cases key
      · cases key
    · cases key
  · cases key


/-! ## C76: every request authenticates the role it names -/

section
variable {env : Env} {cpi : Cpi} {m m' : Mem} {swig : Meta} {rest : List Meta} {ix : Bytes} {w : Wallet}

/-- A successful request for an existing wallet names a role of it, and unless it is CreateSession:
if the role has a session, the session has not expired and the session key signs the transaction at the position stated first in the credential;
otherwise the stored authority has accepted the credential over the signed part of the request (see C31 for what each type accepts).
A CreateSession request is accepted by the stored authority itself. -/
theorem C76_authenticates (ho : Open m swig.key w) (hf : Fine env cpi m (swig :: rest) ix) (e : process env cpi m (swig :: rest) ix = .ok m') :
    ∃ (r : Role) (a : Auth), w.role? (actingRole ix) = some r ∧ a.WF ∧ a.ty = r.authType ∧ a.encode = r.auth ∧
      match (if rd ix 0 2 = 5 then none else a.session) with
      | some s => env.slot ≤ s.expiry ∧ ∃ i more, ix.drop (credentialAt ix) = i :: more ∧ SignedBy (swig :: rest) i.toNat s.key
      | none => ∃ b, authenticate env a.ty a.encode (swig :: rest) (m instructionsSysvarId).data (ix.drop (credentialAt ix)) (signedPart ix) = .ok b := by
  rcases process_acts ho (hf.runtime _ _ rfl).keys (hf.room _ _ _ rfl ho) e with ⟨h5, r, h1, h2⟩ | ⟨h5, r, a, s, h1, h2, h3, h4, _, h6⟩
  · obtain ⟨a, g1, g2, g3⟩ := Auth.decode r.authType r.auth (ho.wf.roles r (role?_mem h1).1).auth
    refine ⟨r, a, h1, g1, g2, g3, ?_⟩
    rw [if_neg h5]
    rw [← g2, ← g3] at h2
    match hs : a.session with
    | some s => exact (C24_session_role env a s _ _ _ _ _ g1 hs h2).2
    | none =>
      unfold authRole at h2
      rw [if_neg (by simp [Auth.sessionBased_iff, hs])] at h2
      exact ⟨_, h2⟩
  · refine ⟨r, a, h1, h2, h3, h4, ?_⟩
    rw [if_pos h5, h3, h4]
    exact ⟨_, h6⟩

/-- In particular nothing happens to a wallet whose only roles are Ed25519 keys unless one of those keys signs the transaction. -/
theorem C76_ed25519 (ho : Open m swig.key w) (hf : Fine env cpi m (swig :: rest) ix) (e : process env cpi m (swig :: rest) ix = .ok m') {r : Role}
    (hr : w.role? (actingRole ix) = some r) (ht : r.authType = 1) : ∃ a ∈ swig :: rest, a.signer = true ∧ a.key = r.auth := by
  obtain ⟨r', a, h1, h2, h3, h4, h5⟩ := C76_authenticates ho hf e
  cases hr.symm.trans h1
  rw [ht] at h3
  have hc : ∃ pk, a.cred = .ed25519 pk ∧ a.session = none := by
    rcases a with ⟨c, s⟩
    cases c <;> cases s <;> simp [Auth.ty] at h3 ⊢
  obtain ⟨pk, hc, hs⟩ := hc
  rw [hs, ite_self] at h5
  obtain ⟨b, h5⟩ := h5
  obtain ⟨_, i, _, hsig⟩ := (C31_ed25519 env a pk _ _ _ _ b h2 hc).mp h5
  have hpk : r.auth = pk := by rw [← h4]; unfold Auth.encode; rw [hc, hs]; simp [Cred.encode]
  rw [hpk]
  obtain ⟨x, g1, g2, g3⟩ := hsig
  exact ⟨x, List.mem_of_getElem? g1, g3, g2⟩

/-- A request acting as a secp256k1 role carries a signature by its key over the signed part of the request, all its accounts, a slot at most
60 slots old and the next counter. -/
theorem C76_secp256k1 (ho : Open m swig.key w) (hf : Fine env cpi m (swig :: rest) ix) (e : process env cpi m (swig :: rest) ix = .ok m') {r : Role}
    (hr : w.role? (actingRole ix) = some r) (ht : r.authType = 3) : ∃ slot rs v pfx key,
      ix.drop (credentialAt ix) = natLE 8 slot ++ natLE 4 ((rd r.auth 36 4 + 1) % 2 ^ 32) ++ rs ++ [v] ++ pfx ∧ rs.length = 64 ∧ slot ≤ env.slot ∧ env.slot ≤ slot + 60 ∧
      env.recover (env.keccak (pfx ++ hexEncode (env.sha256
        (signedPart ix ++ accountRecords (swig :: rest) ++ natLE 8 slot ++ natLE 4 ((rd r.auth 36 4 + 1) % 2 ^ 32))))) (if v = 27 then 0 else 1) rs = some key ∧
      compressKey key = r.auth.take 33 := by
  obtain ⟨r', a, h1, h2, h3, h4, h5⟩ := C76_authenticates ho hf e
  cases hr.symm.trans h1
  rw [ht] at h3
  have hc : ∃ pk pad n, a.cred = .secp256k1 pk pad n ∧ a.session = none := by
    rcases a with ⟨c, s⟩
    cases c <;> cases s <;> simp [Auth.ty] at h3 ⊢
  obtain ⟨pk, pad, n, hc, hs⟩ := hc
  rw [hs, ite_self] at h5
  obtain ⟨b, h5⟩ := h5
  obtain ⟨slot, counter, rr, ss, v, pfx, q1, q2, q3, q4, q5⟩ := C31_secp256k1_shape env a pk pad n _ _ _ _ b hc h5
  rw [q5] at h5
  obtain ⟨_, p1, ⟨p2, p3⟩, _, _, _, key, p4, p5⟩ := (C31_secp256k1 env a pk pad n _ _ _ b slot counter rr ss v pfx h2 hc q1 q2 q3 q4).mp h5
  obtain ⟨f1, f2, _⟩ := Cred.secp_fields h2.cred (pk := pk) (n := n) (by rw [hc]; rfl)
    (match a.session with | none => [] | some s => s.encode) counter
  change sl a.encode 0 33 = pk at f1
  change odometer a.encode = n at f2
  rw [h4] at f1 f2
  refine ⟨slot, rr ++ ss, v, pfx, key, ?_, by simp [q3, q4], p2, p3, ?_, ?_⟩
  · rw [show rd r.auth 36 4 = n from f2, ← p1]; exact q5
  · rw [show rd r.auth 36 4 = n from f2, ← p1]; exact p4
  · rw [p5, ← f1]; simp [sl]

end


/-! ## Worked cases -/

namespace Sample

/-- The sample requests meet the assumptions on requests. -/
theorem fine {env : Env} (hsha : ∀ b, env.sha256 b = b) (hslot : env.slot < 2 ^ 64) {m : Mem} {w : Wallet} {swig : Meta} {rest : List Meta} {ix : Bytes}
    (ho : Open m swig.key w) (hm : m.Typed) (hw : swig.writable = true) (hk : ∀ a ∈ swig :: rest, a.key.length = 32)
    (hroom : w.roles.length + 1 < 2 ^ 16 ∧ w.roleCounter + 1 < 2 ^ 32) : Fine env demoCpi m (swig :: rest) ix := by
  refine ⟨?_, ?_, ?_⟩
  · intro s r es
    cases es
    exact ⟨hm, demoCpi_typed, hk, hslot, fun h => by rw [hw] at h; cases h⟩
  · intro s r w' es ho'
    cases es
    rw [ho'.unique ho]
    exact hroom
  · intro s wl r w' ixs m1 es _ _ _ h
    exact h.1 (by simpa [hsha] using h.2)

/-- Role 0 adds a role while role 1 is left alone. -/
theorem addStep {okIx : Bytes → Prop} (h : okIx addIx) : Steps okIx (K 1) (mem afterPay) (mem afterAdd) :=
  step (swig := ⟨K 1, false, true⟩) (rest := [⟨K 10, true, true⟩, ⟨systemId, false, false⟩]) (ix := addIx) rfl rfl (by decide) (by decide +kernel)
    (by decide) h (by decide +kernel)

/-- The same as something that may happen between signings of role 1. -/
theorem addBetween : Between (K 1) 1 1 (mem afterPay) (mem afterAdd) := by
  have k : (match process signEnv demoCpi (mem afterPay) (⟨K 1, false, true⟩ :: [⟨K 10, true, true⟩, ⟨systemId, false, false⟩]) addIx with
    | .ok m' => decide ((m' (K 1)).data = afterAdd.encode ∧ (m' (K 1)).owner = swigId) | _ => false) = true := by
    decide +kernel
  split at k
  · rename_i m' h
    obtain ⟨h1, h2⟩ := of_decide_eq_true k
    exact .trans (.request (env := signEnv) (fun a ix b hb e => .outside (demoCpi_outside hb e).1 (demoCpi_outside hb e).2) (fun _ => by decide)
      (fine (env := signEnv) (w := afterPay) (fun _ => rfl) (by decide) ⟨rfl, by decide +kernel, rfl⟩ (mem_typed _) rfl (by decide) (by decide)) h)
      (.outside h1.symm h2.symm)
  · cases k

/-- The hypotheses of C74_called hold: a payment of 7 lamports by role 1, which a transaction makes, fails when a called program asks for it. -/
example : rd (signIx [paySol 7]) 0 2 = 11 ∧ ({ signEnv with stackHeight := 2 } : Env).stackHeight ≠ 1 ∧
    (match process signEnv demoCpi (mem beforePay) (signSwig :: signAddr :: signRest) (signIx [paySol 7]) with | .ok _ => true | _ => false) = true := by
  decide +kernel

theorem not_names : ¬ Names addIx 1 := by
  unfold Names; decide

/-- The hypotheses of C73 hold: role 0 adds a role. -/
example : Open (mem afterPay) (K 1) afterPay ∧ (∃ r, afterPay.role? 1 = some r) ∧
    Steps (fun ix => ¬ Names ix 1) (K 1) (mem afterPay) (mem afterAdd) ∧
    Steps (fun ix => actingRole ix ≠ 1 ∧ ¬ Rekeys ix 1) (K 1) (mem afterPay) (mem afterAdd) ∧
    Steps (fun ix => ¬ (rd ix 0 2 = 3 ∧ rd ix 12 4 = 1) ∧ ¬ (rd ix 0 2 = 11 ∧ rd ix 4 4 = 1)) (K 1) (mem afterPay) (mem afterAdd) :=
  ⟨⟨rfl, by decide +kernel, rfl⟩, ⟨_, rfl⟩, addStep not_names, addStep (by unfold Rekeys; decide), addStep (by decide)⟩

/-- One signing by role 1. -/
theorem signing {m m' : Mem} {w : Wallet} {inner : List Bytes} (ho : Open m (K 1) w) (hm : m.Typed)
    (hroom : w.roles.length + 1 < 2 ^ 16 ∧ w.roleCounter + 1 < 2 ^ 32) (h11 : rd (signIx inner) 0 2 = 11 ∧ rd (signIx inner) 4 4 = 1)
    (e : process signEnv demoCpi m (signSwig :: signAddr :: signRest) (signIx inner) = .ok m') :
    Signing.By ⟨signEnv, demoCpi, m, m', signSwig, signAddr, signRest, signIx inner⟩ (K 1) 1 :=
  ⟨rfl, h11.1, h11.2, fine (env := signEnv) (swig := signSwig) (rest := signAddr :: signRest) (fun _ => rfl) (by decide) ho hm rfl (by decide) hroom, e⟩

/-- The hypotheses of C74_sol_limit hold: role 1 pays 7 lamports, role 0 adds a role, role 1 pays 400 lamports. -/
example : ∃ es m', Open (mem beforePay) (K 1) beforePay ∧ (∃ r, beforePay.role? 1 = some r ∧ Restricted r ∧ r.limit? P.solLimit [] = some (natLE 8 500)) ∧
    Spending (K 1) 1 (mem beforePay) es m' ∧ es.map Signing.lamportsLost = [7, 400] := by
  have k1 : (match process signEnv demoCpi (mem beforePay) (signSwig :: signAddr :: signRest) (signIx [paySol 7]) with
    | .ok m' => decide ((m' (K 1)).data = afterPay.encode ∧ (m' (K 1)).owner = swigId ∧ (m' (K 2)).lamports = 4999999993) | _ => false) = true := by
    decide +kernel
  have k2 : (match process signEnv demoCpi (mem afterAdd) (signSwig :: signAddr :: signRest) (signIx [paySol 400]) with
    | .ok m' => decide ((m' (K 2)).lamports = 4999999600) | _ => false) = true := by
    decide +kernel
  split at k1
  · rename_i m1 h1
    split at k2
    · rename_i m2 h2
      obtain ⟨g1, g2, g3⟩ := of_decide_eq_true k1
      have g4 := of_decide_eq_true k2
      refine ⟨_, m2, ⟨rfl, by decide +kernel, rfl⟩, ⟨_, rfl, by decide, rfl⟩,
        .sign (signing ⟨rfl, by decide +kernel, rfl⟩ (mem_typed _) (by decide) (by decide) h1)
          (.other (.trans (.outside g1.symm g2.symm) addBetween)
            (.sign (signing ⟨rfl, by decide +kernel, rfl⟩ (mem_typed _) (by decide) (by decide) h2) (.nil _))), ?_⟩
      show [5000000000 - (m1 (K 2)).lamports, 5000000000 - (m2 (K 2)).lamports] = _
      rw [g3, g4]
    · cases k2
  · cases k1

/-- Two signings, the second with the limits as the first left them. -/
theorem spending2 {acts acts' : List Act} {i1 i2 : List Bytes} (p : Mem → Mem → Prop) [∀ a b, Decidable (p a b)]
    (hd : decide ((signWallet acts).WF ∧ (signWallet acts').WF ∧ (rd (signIx i1) 0 2 = 11 ∧ rd (signIx i1) 4 4 = 1) ∧
      (rd (signIx i2) 0 2 = 11 ∧ rd (signIx i2) 4 4 = 1)) = true)
    (k1 : (match process signEnv demoCpi (signMem acts) (signSwig :: signAddr :: signRest) (signIx i1) with
      | .ok m1 => (match process signEnv demoCpi (signMem acts') (signSwig :: signAddr :: signRest) (signIx i2) with
        | .ok m2 => decide ((m1 (K 1)).data = (signWallet acts').encode ∧ (m1 (K 1)).owner = swigId ∧ p m1 m2) | _ => false) | _ => false) = true) :
    ∃ m1 m2, Open (signMem acts) (K 1) (signWallet acts) ∧ Spending (K 1) 1 (signMem acts)
      [⟨signEnv, demoCpi, signMem acts, m1, signSwig, signAddr, signRest, signIx i1⟩,
        ⟨signEnv, demoCpi, signMem acts', m2, signSwig, signAddr, signRest, signIx i2⟩] m2 ∧ p m1 m2 := by
  obtain ⟨d1, d2, d3, d4⟩ := of_decide_eq_true hd
  have room : ∀ acts, (signWallet acts).roles.length + 1 < 2 ^ 16 ∧ (signWallet acts).roleCounter + 1 < 2 ^ 32 := fun _ =>
    ⟨show 2 + 1 < 2 ^ 16 by decide, show 2 + 1 < 2 ^ 32 by decide⟩
  split at k1
  · rename_i m1 h1
    split at k1
    · rename_i m2 h2
      obtain ⟨g1, g2, g3⟩ := of_decide_eq_true k1
      exact ⟨m1, m2, ⟨rfl, d1, rfl⟩, .sign (signing (w := signWallet acts) ⟨rfl, d1, rfl⟩ (signMem_typed _) (room _) d3 h1)
        (.other (.outside g1.symm g2.symm) (.sign (signing (w := signWallet acts') ⟨rfl, d2, rfl⟩ (signMem_typed _) (room _) d4 h2) (.nil _))), g3⟩
    · cases k1
  · cases k1

/-- SOL limit 500 and token limit 100, then what is left of them. -/
def acts1' : List Act := [⟨1, natLE 8 200⟩, ⟨3, systemId⟩, ⟨5, K 50 ++ natLE 8 30⟩, ⟨3, tokenId⟩]

/-- The hypotheses of C74_token_limit hold: 70 and 30 tokens, together the whole limit. -/
example : ∃ m1 m2, Open (signMem acts1) (K 1) (signWallet acts1) ∧ Spending (K 1) 1 (signMem acts1)
      [⟨signEnv, demoCpi, signMem acts1, m1, signSwig, signAddr, signRest, signIx [paySol 300, payToken 70]⟩,
        ⟨signEnv, demoCpi, signMem acts1', m2, signSwig, signAddr, signRest, signIx [payToken 30]⟩] m2 ∧
    Verif.tokensLost (signMem acts1) m1 (K 2) (K 50) signRest = 70 ∧ Verif.tokensLost (signMem acts1') m2 (K 2) (K 50) signRest = 30 :=
  spending2 (acts' := acts1') (fun m1 m2 => Verif.tokensLost (signMem acts1) m1 (K 2) (K 50) signRest = 70 ∧
    Verif.tokensLost (signMem acts1') m2 (K 2) (K 50) signRest = 30) (by decide +kernel) (by decide +kernel)

example : (signWallet acts1).role? 1 = some ⟨1, 1, K 11, acts1⟩ ∧ Restricted ⟨1, 1, K 11, acts1⟩ ∧
    Role.limit? ⟨1, 1, K 11, acts1⟩ P.tokenLimit (K 50) = some (K 50 ++ natLE 8 100) := ⟨rfl, by decide, by decide⟩

/-- What is left of the recurring limits in the current window. -/
def acts2' : List Act :=
  [⟨2, natLE 8 500 ++ natLE 8 10 ++ natLE 8 100 ++ natLE 8 200⟩, ⟨6, K 50 ++ natLE 8 10 ++ natLE 8 100 ++ natLE 8 30 ++ natLE 8 100⟩, ⟨P.programAll, []⟩]

/-- The hypotheses of C74_sol_recurring and C74_token_recurring hold: two signings in one slot, together using up the limits of the window. -/
example : ∃ m1 m2, Open (signMem acts2) (K 1) (signWallet acts2) ∧ Spending (K 1) 1 (signMem acts2)
      [⟨signEnv, demoCpi, signMem acts2, m1, signSwig, signAddr, signRest, signIx [paySol 300, payToken 70]⟩,
        ⟨signEnv, demoCpi, signMem acts2', m2, signSwig, signAddr, signRest, signIx [payToken 30, paySol 200]⟩] m2 ∧
    ((m1 (K 2)).lamports + 300 = (signMem acts2 (K 2)).lamports ∧ (m2 (K 2)).lamports + 200 = (signMem acts2' (K 2)).lamports) ∧
    Verif.tokensLost (signMem acts2) m1 (K 2) (K 50) signRest = 70 ∧ Verif.tokensLost (signMem acts2') m2 (K 2) (K 50) signRest = 30 :=
  spending2 (acts' := acts2') (fun m1 m2 =>
    ((m1 (K 2)).lamports + 300 = (signMem acts2 (K 2)).lamports ∧ (m2 (K 2)).lamports + 200 = (signMem acts2' (K 2)).lamports) ∧
    Verif.tokensLost (signMem acts2) m1 (K 2) (K 50) signRest = 70 ∧ Verif.tokensLost (signMem acts2') m2 (K 2) (K 50) signRest = 30)
    (by decide +kernel) (by decide +kernel)

example : (signWallet acts2).role? 1 = some ⟨1, 1, K 11, acts2⟩ ∧ Restricted ⟨1, 1, K 11, acts2⟩ ∧
    Role.limit? ⟨1, 1, K 11, acts2⟩ P.solLimit [] = none ∧
    (∃ d, Role.limit? ⟨1, 1, K 11, acts2⟩ P.solRecurringLimit [] = some d ∧ 0 < rd d 8 8) ∧
    Role.limit? ⟨1, 1, K 11, acts2⟩ P.tokenLimit (K 50) = none ∧
    ∃ d, Role.limit? ⟨1, 1, K 11, acts2⟩ P.tokenRecurringLimit (K 50) = some d ∧ 0 < rd d 32 8 :=
  ⟨rfl, by decide, by decide, ⟨_, rfl, by decide⟩, by decide, ⟨_, rfl, by decide⟩⟩

/-- The hypotheses of C74_sol_none hold: a role without SOL limits funds the wallet twice. -/
example : (∃ m1 m2, Open (signMem acts4) (K 1) (signWallet acts4) ∧ Spending (K 1) 1 (signMem acts4)
      [⟨signEnv, demoCpi, signMem acts4, m1, signSwig, signAddr, signRest, signIx [fundSol 100]⟩,
        ⟨signEnv, demoCpi, signMem acts4, m2, signSwig, signAddr, signRest, signIx [payToken 0, fundSol 7]⟩] m2 ∧
      (m2 (K 2)).lamports = (signMem acts4 (K 2)).lamports + 7) ∧
    (signWallet acts4).role? 1 = some ⟨1, 1, K 11, acts4⟩ ∧ Restricted ⟨1, 1, K 11, acts4⟩ ∧
    ∀ a ∈ acts4, a.ty ≠ P.solLimit ∧ a.ty ≠ P.solRecurringLimit ∧ a.ty ≠ P.solDestinationLimit ∧ a.ty ≠ P.solRecurringDestinationLimit :=
  ⟨spending2 (acts' := acts4) (fun _ m2 => (m2 (K 2)).lamports = (signMem acts4 (K 2)).lamports + 7) (by decide +kernel) (by decide +kernel),
    rfl, by decide, by decide⟩

/-- The secp256k1 role pays again, with the next counter. -/
def replayIx2 : Bytes :=
  natLE 2 11 ++ natLE 2 (1 :: paySol 9).length ++ natLE 4 1 ++ (1 :: paySol 9) ++ (natLE 8 95 ++ natLE 4 2 ++ (K 1 ++ K 3) ++ [27])

/-- The wallet after the first payment, and after the owner has then set a claimer. -/
def replayWallet1 : Wallet :=
  { wallet with roles := [root, ⟨3, 1, 2 :: zeros 32 ++ zeros 3 ++ natLE 4 1, [⟨1, natLE 8 493⟩, ⟨3, systemId⟩]⟩] }
def replayWallet2 : Wallet := { replayWallet1 with claimer := some (K 20) }

def anyEnv : Env := { signEnv with recover := fun _ _ _ => some (zeros 64) }

theorem anyFine {w : Wallet} {ix : Bytes} (h : decide (w.WF ∧ w.roles.length + 1 < 2 ^ 16 ∧ w.roleCounter + 1 < 2 ^ 32) = true) :
    Fine anyEnv demoCpi (mem w) replayMetas ix := by
  obtain ⟨h1, h2⟩ := of_decide_eq_true h
  exact fine (env := anyEnv) (m := mem w) (swig := signSwig) (fun _ => rfl) (by decide) ⟨rfl, h1, rfl⟩ (mem_typed _) rfl (by decide) h2

/-- The hypotheses of C75_counts, C75_counters_partial, C76_authenticates and C76_secp256k1 hold: two payments of the role with counters 1 and 2; in between the
owner sets a claimer. -/
example : ∃ b d, Open (mem replayWallet) (K 1) replayWallet ∧ (∃ r, replayWallet.role? 1 = some r ∧ r.authType = 3) ∧
    actingRole replayIx = 1 ∧ ¬ Rekeys replayIx 1 ∧ Fine anyEnv demoCpi (mem replayWallet) replayMetas replayIx ∧
    (∀ x ix y, (x (K 1)).owner = swigId → demoCpi x ix = .ok y → Steps (fun ix => ¬ Rekeys ix 1) (K 1) x y) ∧
    process anyEnv demoCpi (mem replayWallet) replayMetas replayIx = .ok b ∧ Steps (fun ix => ¬ Rekeys ix 1) (K 1) b (mem replayWallet2) ∧
    actingRole replayIx2 = 1 ∧ Fine anyEnv demoCpi (mem replayWallet2) replayMetas replayIx2 ∧
    process anyEnv demoCpi (mem replayWallet2) replayMetas replayIx2 = .ok d ∧
    rd (replayIx.drop (credentialAt replayIx)) 8 4 = 1 ∧ rd (replayIx2.drop (credentialAt replayIx2)) 8 4 = 2 := by
  have k1 : (match process anyEnv demoCpi (mem replayWallet) replayMetas replayIx with
    | .ok m' => decide ((m' (K 1)).data = replayWallet1.encode ∧ (m' (K 1)).owner = swigId) | _ => false) = true := by
    decide +kernel
  have k2 : (match process anyEnv demoCpi (mem replayWallet2) replayMetas replayIx2 with | .ok _ => true | _ => false) = true := by
    decide +kernel
  split at k1
  · rename_i b h1
    split at k2
    · rename_i d h2
      obtain ⟨g1, g2⟩ := of_decide_eq_true k1
      refine ⟨b, d, ⟨rfl, by decide +kernel, rfl⟩, ⟨_, rfl, rfl⟩, by decide, by unfold Rekeys; decide, anyFine (by decide +kernel),
        fun x ix y hx e => .outside (demoCpi_outside hx e).1 (demoCpi_outside hx e).2, h1,
        .trans (.outside g1.symm g2.symm) (step (w := replayWallet1) (w1 := replayWallet2) (swig := ⟨K 1, false, true⟩)
          (rest := [⟨K 10, true, true⟩, ⟨systemId, false, false⟩]) (ix := claimerIx) rfl rfl (by decide) (by decide +kernel) (by decide)
          (by unfold Rekeys; decide) (by decide +kernel)), by decide, anyFine (by decide +kernel), h2, by decide, by decide⟩
    · cases k2
  · cases k1

/-- The hypotheses of C76_ed25519 hold: the owner adds a role. -/
example : Open (mem afterPay) (K 1) afterPay ∧ Fine signEnv demoCpi (mem afterPay) (metas (K 10)) addIx ∧
    (∃ m', process signEnv demoCpi (mem afterPay) (metas (K 10)) addIx = .ok m') ∧ afterPay.role? (actingRole addIx) = some root ∧ root.authType = 1 :=
  ⟨⟨rfl, by decide +kernel, rfl⟩, fine (env := signEnv) (w := afterPay) (fun _ => rfl) (by decide) ⟨rfl, by decide +kernel, rfl⟩ (mem_typed _) rfl (by decide)
    (by decide), exists_of_ok (by decide +kernel), rfl, rfl⟩

end Sample

end Verif
