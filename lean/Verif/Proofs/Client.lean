import Verif.Spec.Client
import Verif.Props.Auth
import Verif.Proofs.Manage

/-! Lemmas about instructions built by the client library. -/

namespace Verif.Client

/-- The instructions `b` have been formed for the caller as the program expects: payload after `data`, signature over `signed`, the
index of the signer or of the instructions sysvar. -/
inductive Formed (env : Env) (data signed : Bytes) : Caller → Built → Prop
  | ed25519 {k accounts i m} (h : accounts[i.toNat]? = some m) (hk : m.key = k) (hs : m.signer = true) :
      Formed env data signed (.ed25519 k) (byEd accounts data i)
  | secp256k1 {sign slot counter accounts} (h : accounts.length ≤ 64) :
      Formed env data signed (.secp256k1 sign slot counter) (byK1 env accounts data signed sign slot counter)
  | secp256r1 {sign pk slot counter accounts i m} (h : accounts.length ≤ 64) (hi : accounts[i.toNat]? = some m)
      (hk : m.key = instructionsSysvarId) :
      Formed env data signed (.secp256r1 sign pk slot counter) (byR1 env accounts data signed sign pk slot counter i)
  | exec {p target accounts i m} (hi : accounts[i.toNat]? = some m) (hk : m.key = instructionsSysvarId) :
      Formed env data signed (.exec p target) (byExec p accounts data i target)

theorem accountsPayload_eq (ms : List Meta) : accountsPayload ms = accountRecords ms := by
  unfold accountsPayload accountRecords
  congr 1
  funext m
  simp [accountRecord]

theorem Promoted.at {built seen : List Meta} (h : Promoted built seen) {i : Nat} {a : Meta} (ha : built[i]? = some a) :
    ∃ a', seen[i]? = some a' ∧ a'.key = a.key ∧ (a.signer = true → a'.signer = true) := by
  have hk : (seen.map Meta.key)[i]? = some a.key := by rw [h.keys]; simp [ha]
  rw [List.getElem?_map] at hk
  cases hs : seen[i]? with
  | none => rw [hs] at hk; cases hk
  | some a' =>
    rw [hs] at hk
    refine ⟨a', rfl, by simpa using hk, fun hsig => ?_⟩
    obtain ⟨a'', h1, h2⟩ := h.signers i a ha hsig
    rw [hs] at h1
    injection h1 with h1
    rw [h1]; exact h2

theorem Promoted.nil {seen : List Meta} (h : Promoted [] seen) : seen = [] := by
  have := h.keys
  simpa using this

theorem Promoted.cons {a : Meta} {as seen : List Meta} (h : Promoted (a :: as) seen) :
    ∃ a' as', seen = a' :: as' ∧ a'.key = a.key ∧ (a.signer = true → a'.signer = true) ∧
      (a.writable = true → a.key ≠ systemId → a'.writable = true) ∧ Promoted as as' := by
  have hk := h.keys
  cases seen with
  | nil => simp at hk
  | cons a' as' =>
    simp only [List.map_cons, List.cons.injEq] at hk
    refine ⟨a', as', rfl, hk.1, fun hs => ?_, fun hw hn => ?_, hk.2, fun i x hx hs => ?_, fun i x hx hs hn => ?_⟩
    · obtain ⟨y, h1, h2⟩ := h.signers 0 a rfl hs
      simp only [List.getElem?_cons_zero, Option.some.injEq] at h1
      rw [h1]; exact h2
    · obtain ⟨y, h1, h2⟩ := h.writables 0 a rfl hw hn
      simp only [List.getElem?_cons_zero, Option.some.injEq] at h1
      rw [h1]; exact h2
    · simpa using h.signers (i + 1) x (by simpa using hx) hs
    · simpa using h.writables (i + 1) x (by simpa using hx) hs hn

theorem Promoted.length {built seen : List Meta} (h : Promoted built seen) : seen.length = built.length := by
  have := congrArg List.length h.keys
  simpa using this

theorem Promoted.cons2 {built seen : List Meta} (h : Promoted built seen) {a0 a1 : Meta} {as : List Meta}
    (hb : built = a0 :: a1 :: as) :
    ∃ s0 s1, seen[0]? = some s0 ∧ seen[1]? = some s1 ∧ s0.key = a0.key ∧ s1.key = a1.key := by
  obtain ⟨s0, h0, k0, _⟩ := h.at (i := 0) (a := a0) (by rw [hb]; rfl)
  obtain ⟨s1, h1, k1, _⟩ := h.at (i := 1) (a := a1) (by rw [hb]; rfl)
  exact ⟨s0, s1, h0, h1, k0, k1⟩

/-- The data of the precompile instruction the client builds pass the program's check. -/
theorem verifyR1_built {msg sig pk : Bytes} (hm : msg.length = 32) (hs : sig.length = 64) (hp : pk.length = 33) :
    verifyR1Data (r1Verify msg sig pk).data pk msg = .ok () := by
  have hd : (r1Verify msg sig pk).data = [1, 0] ++ natLE 2 49 ++ natLE 2 0xFFFF ++ natLE 2 16 ++ natLE 2 0xFFFF ++ natLE 2 113 ++
      natLE 2 32 ++ natLE 2 0xFFFF ++ pk ++ sig ++ msg := by
    simp [r1Verify, hm]
  generalize hD : (r1Verify msg sig pk).data = d at hd
  have hl : d.length = 145 := by rw [hd]; simp [hm, hs, hp]
  have h0 : (d.getD 0 0).toNat = 1 := by rw [hd]; rfl
  have r4 : rd d 4 2 = 0xFFFF := by
    have := rd_full 2 0xFFFF (by decide) ([1, 0] ++ natLE 2 49) (natLE 2 16 ++ natLE 2 0xFFFF ++ natLE 2 113 ++ natLE 2 32 ++ natLE 2 0xFFFF ++ pk ++ sig ++ msg) (i := 4) (by simp)
    rw [hd]; simpa [List.append_assoc] using this
  have r8 : rd d 8 2 = 0xFFFF := by
    have := rd_full 2 0xFFFF (by decide) ([1, 0] ++ natLE 2 49 ++ natLE 2 0xFFFF ++ natLE 2 16) (natLE 2 113 ++ natLE 2 32 ++ natLE 2 0xFFFF ++ pk ++ sig ++ msg) (i := 8) (by simp)
    rw [hd]; simpa [List.append_assoc] using this
  have r14 : rd d 14 2 = 0xFFFF := by
    have := rd_full 2 0xFFFF (by decide) ([1, 0] ++ natLE 2 49 ++ natLE 2 0xFFFF ++ natLE 2 16 ++ natLE 2 0xFFFF ++ natLE 2 113 ++ natLE 2 32) (pk ++ sig ++ msg) (i := 14) (by simp)
    rw [hd]; simpa [List.append_assoc] using this
  have r6 : rd d 6 2 = 16 := by
    have := rd_full 2 16 (by decide) ([1, 0] ++ natLE 2 49 ++ natLE 2 0xFFFF) (natLE 2 0xFFFF ++ natLE 2 113 ++ natLE 2 32 ++ natLE 2 0xFFFF ++ pk ++ sig ++ msg) (i := 6) (by simp)
    rw [hd]; simpa [List.append_assoc] using this
  have r10 : rd d 10 2 = 113 := by
    have := rd_full 2 113 (by decide) ([1, 0] ++ natLE 2 49 ++ natLE 2 0xFFFF ++ natLE 2 16 ++ natLE 2 0xFFFF) (natLE 2 32 ++ natLE 2 0xFFFF ++ pk ++ sig ++ msg) (i := 10) (by simp)
    rw [hd]; simpa [List.append_assoc] using this
  have r12 : rd d 12 2 = 32 := by
    have := rd_full 2 32 (by decide) ([1, 0] ++ natLE 2 49 ++ natLE 2 0xFFFF ++ natLE 2 16 ++ natLE 2 0xFFFF ++ natLE 2 113) (natLE 2 0xFFFF ++ pk ++ sig ++ msg) (i := 12) (by simp)
    rw [hd]; simpa [List.append_assoc] using this
  have sk : sl d 16 49 = pk := by
    rw [hd]
    have := sl_mid ([1, 0] ++ natLE 2 49 ++ natLE 2 0xFFFF ++ natLE 2 16 ++ natLE 2 0xFFFF ++ natLE 2 113 ++
      natLE 2 32 ++ natLE 2 0xFFFF) pk (sig ++ msg) (i := 16) (j := 49) (by simp) (by simp [hp])
    simpa [List.append_assoc] using this
  have sm : sl d 113 145 = msg := by
    rw [hd]
    have := sl_mid ([1, 0] ++ natLE 2 49 ++ natLE 2 0xFFFF ++ natLE 2 16 ++ natLE 2 0xFFFF ++ natLE 2 113 ++
      natLE 2 32 ++ natLE 2 0xFFFF ++ pk ++ sig) msg [] (i := 113) (j := 145) (by simp [hp, hs]) (by simp [hp, hs, hm])
    simpa [List.append_assoc] using this
  unfold verifyR1Data
  simp only
  rw [if_neg (by omega), if_neg (by omega), if_neg (by omega), if_neg (by omega), if_neg (by omega), if_neg (by omega),
    if_neg (by omega), if_neg (by omega), if_neg (by omega), hm, slice_ok (by omega) (by omega), ok_bind, sk, sm]
  simp

/-- Acceptance of a Secp256r1 payload: the preceding instruction is the one the client builds. -/
theorem r1_accepts {env : Env} {a : Auth} {pk pad : Bytes} {n slot counter : Nat} {metas : List Meta} {sign : Bytes → Bytes}
    {index : UInt8} {signed : Bytes} {pre rest : List TxIx} {x : Meta}
    (hh : HashLength env) (hw : a.WF) (hc : a.cred = .secp256r1 pk pad n) (hcnt : counter = (n + 1) % 2 ^ 32) (hslot : slot < 2 ^ 64)
    (hs1 : slot ≤ env.slot) (hs2 : env.slot ≤ slot + 60) (hsig : ∀ msg, (sign msg).length = 64) (hlen : metas.length ≤ 64)
    (hi : metas[index.toNat]? = some x) (hx : x.key = instructionsSysvarId)
    (htx : TxOk (pre ++ r1Verify (r1Digest env slot counter signed metas) (sign (r1Digest env slot counter signed metas)) pk :: rest)
      (pre.length + 1)) :
    ∃ b, authenticate env a.ty a.encode metas
      (sysvarEncode (pre ++ r1Verify (r1Digest env slot counter signed metas) (sign (r1Digest env slot counter signed metas)) pk :: rest)
        (pre.length + 1))
      (natLE 8 slot ++ natLE 4 counter ++ [index] ++ zeros 4) signed = .ok b := by
  generalize hV : r1Verify (r1Digest env slot counter signed metas) (sign (r1Digest env slot counter signed metas)) pk = V at htx
  obtain ⟨hk, ho, _⟩ := Cred.secp_fields hw.cred (pk := pk) (n := n) (by rw [hc]; rfl)
    (match a.session with | none => [] | some s => s.encode) 0
  change sl a.encode 0 33 = pk at hk
  change odometer a.encode = n at ho
  have hpk : pk.length = 33 := by have := hw.cred; rw [hc] at this; exact this.1
  have hclt : counter < 2 ^ 32 := by rw [hcnt]; exact Nat.mod_lt _ (by decide)
  generalize hP : natLE 8 slot ++ natLE 4 counter ++ [index] ++ zeros 4 = P
  have hPl : P.length = 17 := by rw [← hP]; simp
  have f1 : rd P 0 8 = slot := by
    have := rd_full 8 slot (by simpa using hslot) [] (natLE 4 counter ++ [index] ++ zeros 4) (i := 0) rfl
    rw [← hP]; simpa [List.append_assoc] using this
  have f2 : rd P 8 4 = counter := by
    have := rd_full 4 counter (by simpa using hclt) (natLE 8 slot) ([index] ++ zeros 4) (i := 8) (by simp)
    rw [← hP]; simpa [List.append_assoc] using this
  have f3 : P.getD 12 0 = index := by
    rw [← hP]; simp [List.getD]
  have f4 : P.drop 17 = [] := by rw [← hPl, List.drop_length]
  obtain ⟨A, B, he, hoff, _⟩ := sysIxOff_enc htx
  obtain ⟨g1, g2, g3⟩ := ix_fields htx.ix A B
  rw [authenticate_secp256r1 hc]
  unfold r1Authenticate
  rw [if_neg (by omega)]
  simp only
  rw [f2, ho, if_neg (by simpa using hcnt), f1, f3, f4, hk]
  have key : r1Core env pk signed slot metas (sysvarEncode (pre ++ V :: rest) (pre.length + 1)) index.toNat counter [] = .ok () := by
    unfold r1Core
    have hf : fresh slot env.slot := ⟨hs1, by omega⟩
    have q1 : r1Hash env signed metas slot counter = .ok (r1Digest env slot counter signed metas) := by
      unfold r1Hash r1Digest
      rw [if_neg (by omega), accountsPayload_eq]; rfl
    have q2 : ∀ h, r1Message env h [] = .ok h := by intro h; simp [r1Message]
    have q3 : getOr metas index.toNat E.au_invalidAuthorityPayload = .ok x := by simp [getOr, hi]
    have hprog : V.program = secp256r1Id := by rw [← hV]; rfl
    rw [if_neg (by simpa using hf), q1, ok_bind, q2, ok_bind, q3, ok_bind, if_neg (by simpa using hx), sysCurrent_enc htx, ok_bind,
      if_neg (by omega), Nat.add_sub_cancel, hoff, ok_bind, he, g1, ok_bind, if_neg (by simpa using hprog), g2, ok_bind]
    simp only
    rw [g3, ok_bind, ← hV]
    exact verifyR1_built (by unfold r1Digest; exact hh _) (hsig _) hpk
  rw [key, ok_bind]
  exact ⟨_, rfl⟩

/-- Acceptance of a program-exec payload: the preceding instruction proves the credential. -/
theorem exec_built {env : Env} {a : Auth} {program : Key} {plen : UInt8} {pad buf : Bytes} {metas built : List Meta} {p : TxIx}
    {s : UInt8} {target : Option UInt8} {signed : Bytes} {pre rest : List TxIx} {x : Meta}
    (hw : a.WF) (hc : a.cred = .exec program plen pad buf) (hp : Proves p program plen buf built) (hprom : Promoted built metas)
    (ht : ∀ i, target = some i → i.toNat = pre.length)
    (hi : metas[s.toNat]? = some x) (hx : x.key = instructionsSysvarId) (htx : TxOk (pre ++ p :: rest) (pre.length + 1)) :
    authenticate env a.ty a.encode metas (sysvarEncode (pre ++ p :: rest) (pre.length + 1))
      (match target with | some i => [s, i] | none => [s]) signed = .ok a.encode := by
  obtain ⟨m0, m1, ms, a0, a1, as, hacc, hb, k0, k1⟩ := hp.accounts
  obtain ⟨s0, s1, hs0, hs1, e0, e1⟩ := hprom.cons2 hb
  have hcur : pre.length < pre.length + 1 := by omega
  have hget : (pre ++ p :: rest)[pre.length]? = some p := by simp
  cases target with
  | some i =>
    have hti := ht i rfl
    exact C62_usable_partial env a program plen pad buf metas _ _ s i signed p s0 s1 m0 m1 x ms hw hc htx hi hx hs0 hs1
      (by omega) (by rw [hti]; exact hget) hp.program hacc (by rw [k0, e0]) (by rw [k1, e1]) hp.short hp.long hp.pfx hp.odd
  | none =>
    rw [authenticate_exec hc]
    have hwc := hw.cred
    rw [hc] at hwc
    obtain ⟨hpl, hpadl, hbl⟩ := hwc
    obtain ⟨rest', hrest⟩ : ∃ rest, a.encode = program ++ [plen] ++ pad ++ buf ++ rest :=
      ⟨_, by unfold Auth.encode; rw [hc]; rfl⟩
    have f1 : sl a.encode 0 32 = program := by
      rw [hrest]; simp only [List.append_assoc]
      rw [sl_left _ _ _ _ (by omega), ← hpl, sl_full]
    have f2 : a.encode.getD 32 0 = plen := by
      rw [hrest]; simp [List.getD, hpl]
    have f3 : sl a.encode 40 80 = buf := by
      rw [hrest]
      have := sl_mid (program ++ [plen] ++ pad) buf rest' (i := 40) (j := 80) (by simp [hpl, hpadl]) (by simp [hpl, hpadl, hbl])
      simpa [List.append_assoc] using this
    obtain ⟨A, B, he, ho, _⟩ := sysIxOff_enc htx
    have hok := htx.ix
    obtain ⟨g1, g2, g3⟩ := ix_fields hok A B
    have w0 := ix_meta hok A B (j := 0) (m := m0) (by rw [hacc]; rfl)
    have w1 := ix_meta hok A B (j := 1) (m := m1) (by rw [hacc]; rfl)
    have w2 := ix_data_u16 hok A B hp.odd.1
    have key : execAuthenticate a.encode metas (sysvarEncode (pre ++ p :: rest) (pre.length + 1)) [s] = .ok () := by
      unfold execAuthenticate
      rw [if_neg (by simp), f1, f2, f3]
      unfold programExecAuth
      have q0 : getOr metas (List.getD [s] 0 0).toNat E.au_invalidAuthorityPayload = .ok x := by
        simp [getOr, hi]
      have q1 : getOr metas 0 E.au_invalidAuthorityPayload = .ok s0 := by simp [getOr, hs0]
      have q2 : getOr metas 1 E.au_invalidAuthorityPayload = .ok s1 := by simp [getOr, hs1]
      have q3 : execTarget (pre.length + 1) (if List.length [s] = 2 then some (List.getD [s] 1 0).toNat else none) = .ok pre.length := by
        simp [execTarget]
      have hodd := hp.odd
      have hlong := hp.long
      have hshort := hp.short
      rw [q0, ok_bind, if_neg (by simpa using hx), q1, ok_bind, q2, ok_bind, sysCurrent_enc htx, ok_bind, q3, ok_bind, ho, ok_bind,
        he, g2, ok_bind]
      simp only
      rw [w2, ok_bind, if_neg (by omega), g1, ok_bind, if_neg (by simpa using hp.program), g3, ok_bind, if_neg (by omega),
        slice_ok (by omega) (by omega), ok_bind, if_neg (by simpa [sl] using hp.pfx), w0, ok_bind, w1, ok_bind,
        if_neg (by simp [k0, e0]), if_neg (by simp [k1, e1])]
    simp only
    rw [key, ok_bind]

/-- The main credential accepts what the library built. -/
theorem owns_accepts {env : Env} {m : Mem} {metas : List Meta} {a : Auth} {c : Caller} {b : Built} {data signed : Bytes}
    {pre post : List TxIx} (hh : HashLength env) (hw : a.WF) (hf : Formed env data signed c b) (ho : Owns env a metas b pre c)
    (hs : Sent m metas b pre post) :
    ∃ payload, b.data = data ++ payload ∧
      ∃ u, authenticate env a.ty a.encode metas (m instructionsSysvarId).data payload signed = .ok u := by
  cases hf with
  | ed25519 h hk hsig =>
    obtain ⟨x, hx, hxk, hxs⟩ := hs.accounts.at h
    refine ⟨_, rfl, a.encode, ?_⟩
    exact (C31_ed25519 env a _ metas _ _ signed a.encode hw ho).mpr ⟨rfl, _, rfl, x, hx, by rw [hxk, hk], hxs hsig⟩
  | secp256k1 h =>
    rename_i sign slot counter accounts
    obtain ⟨pk, pad, n, hc, hcnt, hslot, h1, h2, hsg, hm⟩ := ho
    obtain ⟨r, s, v, key, q1, q2, q3, q4, q5, q6, q7⟩ := hsg (k1Message env slot counter signed accounts)
    have hclt : counter < 2 ^ 32 := by rw [hcnt]; exact Nat.mod_lt _ (by decide)
    refine ⟨_, rfl, ({ a with cred := .secp256k1 pk pad counter } : Auth).encode, ?_⟩
    have hb : metas = accounts := hm
    have := (C31_secp256k1 env a pk pad n metas (m instructionsSysvarId).data signed
      (({ a with cred := .secp256k1 pk pad counter } : Auth).encode) slot counter r s v [] hw hc hslot hclt q2 q3).mpr
      ⟨rfl, hcnt, ⟨h1, h2⟩, by rw [hb]; exact h, q4, q5, key, by
        rw [← q6]; unfold k1Message; rw [accountsPayload_eq, hb]; rfl, q7⟩
    rw [q1]
    simpa [List.append_assoc] using this
  | secp256r1 h hi hk =>
    rename_i sign pk slot counter accounts i x
    obtain ⟨pad, n, hc, hcnt, hslot, h1, h2, hsg, hm⟩ := ho
    have hb : metas = accounts := hm
    subst hb
    refine ⟨_, rfl, ?_⟩
    rw [hs.shown]
    have hx := hs.fits
    simp only [byR1, List.length_singleton, List.append_assoc, List.singleton_append] at hx ⊢
    have := r1_accepts (index := i) (rest := _) hh hw hc hcnt hslot h1 h2 hsg h hi hk hx
    simpa [List.append_assoc] using this
  | exec hi hk =>
    rename_i p target accounts i x
    obtain ⟨program, plen, pad, buf, hc, hp, ht⟩ := ho
    refine ⟨_, rfl, a.encode, ?_⟩
    obtain ⟨x', hx', hxk, _⟩ := hs.accounts.at hi
    rw [hs.shown]
    have hx := hs.fits
    simp only [byExec, List.length_singleton, List.append_assoc, List.singleton_append] at hx ⊢
    exact exec_built hw hc hp hs.accounts ht hx' (by rw [hxk, hk]) hx

/-- The credential accepts what the library built, and the stored record afterwards is the used one. -/
theorem acts_accepts {env : Env} {m : Mem} {metas : List Meta} {a : Auth} {c : Caller} {b : Built} {data signed : Bytes}
    {pre post : List TxIx} (hh : HashLength env) (hw : a.WF) (hf : Formed env data signed c b) (ho : ActsFor env a metas b pre c)
    (hs : Sent m metas b pre post) :
    ∃ payload, b.data = data ++ payload ∧
      authRole env a.ty a.encode metas (m instructionsSysvarId).data payload signed = .ok (usedCred a.ty a.encode) := by
  suffices h : ∃ payload, b.data = data ++ payload ∧
      ∃ u, authRole env a.ty a.encode metas (m instructionsSysvarId).data payload signed = .ok u by
    obtain ⟨payload, h1, u, h2⟩ := h
    refine ⟨payload, h1, ?_⟩
    rw [h2, authRole_used (Auth.encode_length hw) h2]
  rcases ho with ⟨hn, ho⟩ | ⟨s, hsn, hexp, hc⟩
  · obtain ⟨payload, h1, h2⟩ := owns_accepts hh hw hf ho hs
    refine ⟨payload, h1, ?_⟩
    unfold authRole
    rw [Auth.sessionBased_iff, hn]
    exact h2
  · subst hc
    cases hf with
    | ed25519 h hk hsig =>
      obtain ⟨x, hx, hxk, hxs⟩ := hs.accounts.at h
      refine ⟨_, rfl, a.encode, ?_⟩
      unfold authRole
      rw [Auth.sessionBased_iff, hsn]
      simp only [Option.isSome_some, if_true]
      rw [C24_session_accepts env a s metas _ hw hsn hexp ⟨x, hx, by rw [hxk, hk], hxs hsig⟩, ok_bind]

end Verif.Client
