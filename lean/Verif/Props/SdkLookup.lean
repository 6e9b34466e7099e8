import Verif.Proofs.ClientActions
import Verif.Proofs.SdkLookup
import Verif.Props.Roles
import Verif.Spec.SampleSdk

/-!
# Opening a wallet with a credential

Property C83: which role the SDK takes for the role of a credential.
-/

namespace Verif
open Sdk Sample

/-! ## Lemmas -/

private theorem role?_of_mem {w : Wallet} (hw : w.WF) {r : Role} (h : r ∈ w.roles) : w.role? r.id = some r := by
  obtain ⟨before, after, e⟩ := List.append_of_mem h
  refine role?_split e rfl ?_
  intro x hx hid
  have := hw.idsNodup
  rw [e, List.map_append, List.map_cons] at this
  have := (List.nodup_append.mp this).2.2 x.id (List.mem_map_of_mem hx) r.id (by simp)
  exact this hid

private theorem Sdk.FirstNamed.mem {w : Wallet} {cred : Bytes} {r : Role} (h : FirstNamed w cred r) : r ∈ w.roles := by
  obtain ⟨b, a, e, _⟩ := h
  rw [e]; simp

private theorem secp_field {r : Role} {a : Auth} (h : r.Stores a) {pk : Bytes} {n : Nat} (hs : a.cred.secp = some (pk, n)) :
    rd r.auth 36 4 = n := by
  rw [← h.encode]
  exact (Cred.secp_fields h.wf.cred hs _ 0).2.1

private theorem secp_type {r : Role} {a : Auth} (h : r.Stores a) :
    (r.authType = T.secp256k1 ∨ r.authType = T.secp256k1Session ∨ r.authType = T.secp256r1 ∨ r.authType = T.secp256r1Session) ↔
      (∃ p, a.cred.secp = some p) := by
  rw [← h.ty]
  cases a with
  | mk c s => cases c <;> cases s <;> simp [Auth.ty, Cred.secp, T.secp256k1, T.secp256k1Session, T.secp256r1, T.secp256r1Session]

private theorem adopt_role {w : Wallet} (hw : w.WF) {r : Role} (hr : r ∈ w.roles) {a : Auth} (ha : r.Stores a) (h : Holder) :
    openWallet.adopt w.encode r.id h = match a.cred.secp with
      | some (_, n) => (h.setOdometer n).map fun h => (r.id, h)
      | none => some (r.id, h) := by
  rcases getRole_wallet hw r.id with ⟨g1, _⟩ | ⟨r', v, g1, g2, _, g3, g4, _⟩
  · rw [role?_of_mem hw hr] at g1; cases g1
  · rw [role?_of_mem hw hr] at g1
    cases g1
    unfold openWallet.adopt
    rw [g2]
    simp only []
    rw [g3, g4]
    cases hs : a.cred.secp with
    | none =>
      rw [if_neg]
      intro hc
      obtain ⟨p, hp⟩ := (secp_type ha).mp hc
      rw [hs] at hp; cases hp
    | some p =>
      rw [if_pos ((secp_type ha).mpr ⟨p, hs⟩), secp_field ha (pk := p.1) (n := p.2) hs]

private theorem lookup_eq {w : Wallet} (hw : w.WF) (hf : ∀ r ∈ w.roles, r.PrefixFits) {cred : Bytes} {r : Role}
    (h : FirstNamed w cred r) : lookupRoleId w.encode cred = .ok (some r.id) := by
  obtain ⟨b, t, e, ⟨a, ha, hn⟩, hb⟩ := h
  rcases lookupRoleId_encode hw hf cred with ⟨r', b', t', e', ⟨a', ha', hn'⟩, hb', hl⟩ | ⟨g1, _⟩
  · have : r = r' := by
      rw [e] at e'
      rcases List.append_eq_append_iff.mp e' with ⟨c, hc1, hc2⟩ | ⟨c, hc1, hc2⟩
      · cases c with
        | nil => simp at hc2; exact hc2.1
        | cons x c =>
          simp at hc2
          have : r ∈ b' := by rw [hc1, hc2.1]; simp
          exact absurd hn (hb' r this a ha)
      · cases c with
        | nil => simp at hc2; exact hc2.1.symm
        | cons x c =>
          simp at hc2
          have : r' ∈ b := by rw [hc1, hc2.1]; simp
          exact absurd hn' (hb r' this a' ha')
    rw [this, hl]
  · exact absurd hn (g1 r (by rw [e]; simp) a ha)

private theorem first_named {w : Wallet} {cred : Bytes} : (∃ r ∈ w.roles, ∃ a, r.Stores a ∧ a.Named cred) → ∃ r, FirstNamed w cred r := by
  have key : ∀ rs : List Role, (∃ r ∈ rs, ∃ a, r.Stores a ∧ a.Named cred) →
      ∃ r b t, rs = b ++ r :: t ∧ (∃ a, r.Stores a ∧ a.Named cred) ∧ ∀ x ∈ b, ∀ a, x.Stores a → ¬ a.Named cred := by
    intro rs
    induction rs with
    | nil => rintro ⟨r, hr, _⟩; cases hr
    | cons x xs ih =>
      intro h
      by_cases hx : ∃ a, x.Stores a ∧ a.Named cred
      · exact ⟨x, [], xs, rfl, hx, by simp⟩
      · obtain ⟨r, hr, ha⟩ := h
        simp only [List.mem_cons] at hr
        rcases hr with rfl | hr
        · exact absurd ha hx
        · obtain ⟨r', b, t, e, h1, h2⟩ := ih ⟨r, hr, ha⟩
          refine ⟨r', x :: b, t, by rw [e]; rfl, h1, ?_⟩
          intro y hy a' ha' hn
          simp only [List.mem_cons] at hy
          rcases hy with rfl | hy
          · exact hx ⟨a', ha', hn⟩
          · exact h2 y hy a' ha' hn
  intro h
  obtain ⟨r, b, t, h1, h2, h3⟩ := key w.roles h
  exact ⟨r, b, t, h1, h2, h3⟩

/-! ## Statements -/

/-- The lookup of a credential never fails on a wallet: it returns the id of the first role whose stored authority the bytes name, and
nothing if there is no such role. -/
theorem C83_lookup {w : Wallet} (hw : w.WF) (hf : ∀ r ∈ w.roles, r.PrefixFits) (cred : Bytes) :
    (∃ r, FirstNamed w cred r ∧ lookupRoleId w.encode cred = .ok (some r.id)) ∨
      ((∀ r ∈ w.roles, ∀ a, r.Stores a → ¬ a.Named cred) ∧ lookupRoleId w.encode cred = .ok none) := by
  rcases lookupRoleId_encode hw hf cred with ⟨r, b, t, e, h1, h2, h3⟩ | h
  · exact Or.inl ⟨r, ⟨b, t, e, h1, h2⟩, h3⟩
  · exact Or.inr h

/-- Stored prefixes fit their buffer: every credential a role is created with does. -/
theorem C83_prefix_fits {ty : Nat} {c : Bytes} {a : Auth} (h : initialAuth ty c = some a) : a.PrefixFits := by
  intro p n pad buf hc
  unfold initialAuth at h
  repeat' split at h
  all_goals first
    | (cases h; done)
    | (cases h
       first
       | (cases hc; done)
       | (cases hc; rename_i g; exact g.2.1))

/-- The credential of a holder of any kind is what the program creates its authority from. -/
theorem C83_creates {h : Holder} (hz : h.Sized) (hc : h.Creatable) : ∃ c, h.bytes = some c ∧ initialAuth h.ty c = some h.created := by
  cases h with
  | ed25519 k =>
    have hz : k.length = 32 := hz
    exact ⟨k, rfl, by simp [Holder.ty, initialAuth, hz, Holder.created]⟩
  | secp256k1 k f m =>
    have hz : k.length = 64 := hz
    exact ⟨k, by simp [Holder.bytes, hz], by simp [Holder.ty, T.secp256k1, initialAuth, hz, Holder.created]⟩
  | secp256r1 k f m =>
    have hz : k.length = 33 := hz
    exact ⟨k, rfl, by simp [Holder.ty, T.secp256r1, initialAuth, hz, Holder.created]⟩
  | ed25519Session k s n =>
    obtain ⟨h1, h2⟩ := hz
    have hc : n < 2 ^ 64 := hc
    refine ⟨_, rfl, ?_⟩
    simp [Holder.ty, initialAuth, Holder.created, Client.sl_skip, Client.sl_here, Client.rd_skip, Client.rd_only, h1, h2, hc]
  | secp256k1Session k s n f m =>
    obtain ⟨h1, h2⟩ := hz
    obtain ⟨hc, hk⟩ := hc
    refine ⟨_, rfl, ?_⟩
    have e1 : sl (k ++ (s ++ natLE 8 n)) 33 64 = k.drop 33 := by
      rw [sl_left _ _ _ _ (by omega), sl, List.take_of_length_le (by simp; omega)]
    simp [Holder.ty, T.secp256k1Session, initialAuth, Holder.created, Client.sl_skip, Client.sl_here, Client.rd_skip, Client.rd_only, h1, h2, hc, e1, hk]
  | secp256r1Session k s n f m =>
    obtain ⟨h1, h2⟩ := hz
    have hc : n < 2 ^ 64 := hc
    refine ⟨_, rfl, ?_⟩
    simp [Holder.ty, T.secp256r1Session, initialAuth, Holder.created, Client.sl_skip, Client.sl_here, Client.rd_skip, Client.rd_only, h1, h2, hc]
  | exec p x i =>
    have hz : p.length = 32 := hz
    have hc : p ≠ swigId := hc
    refine ⟨_, rfl, ?_⟩
    have e1 : (Holder.execData p x).length = 80 := by simp [Holder.execData, hz]; omega
    have e2 : (Holder.execData p x).getD 32 0 = UInt8.ofNat (min x.length 40) := by
      simp [Holder.execData, List.getD_eq_getElem?_getD, hz]
    have e3 : (UInt8.ofNat (min x.length 40)).toNat = min x.length 40 := by
      rw [UInt8.toNat_ofNat']; omega
    have e4 : sl (Holder.execData p x) 0 32 = p := by
      simp only [Holder.execData, List.append_assoc]; exact Client.sl_here _ _ _ hz
    have e5 : sl (Holder.execData p x) 40 (40 + min x.length 40) = x.take 40 := by
      simp only [Holder.execData, List.append_assoc]
      rw [Client.sl_skip _ _ _ _ (by omega), Client.sl_skip _ _ _ _ (by simp [hz]), Client.sl_skip _ _ _ _ (by simp [hz])]
      simp only [hz, List.length_cons, List.length_nil, zeros_length]
      rw [show 40 - 32 - (0 + 1) - 7 = 0 by omega]
      exact Client.sl_here _ _ _ (by simp only [List.length_take]; omega)
    have : initialAuth (Holder.exec p x i).ty (Holder.execData p x) = initialAuth 7 (Holder.execData p x) := rfl
    rw [this]
    simp only [initialAuth]
    rw [if_neg (by omega), if_neg (by omega), if_neg (by omega), if_neg (by omega), if_neg (by omega), if_neg (by omega), if_pos trivial,
      e2, e3, e4, e5, if_pos ⟨e1, by omega, hc⟩]
    rfl

/-- The role of a plain holder is found by the credential it was created from, however often its counter has moved since. -/
theorem C83_created_named {h : Holder} (hs : h.session = false) {c : Bytes} (hb : h.bytes = some c) {a₀ a : Auth}
    (hi : initialAuth h.ty c = some a₀) (n : Nat) (ha : a = { a₀ with cred := a₀.cred.withOdometer n }) : a.Named c := by
  subst ha
  cases h with
  | ed25519 k =>
    have hi : initialAuth 1 c = some a₀ := hi
    unfold initialAuth at hi
    rw [if_pos rfl] at hi
    split at hi <;> cases hi
    rfl
  | secp256k1 k f m =>
    have hi : initialAuth 3 c = some a₀ := hi
    unfold initialAuth at hi
    rw [if_neg (by omega), if_neg (by omega), if_pos rfl] at hi
    split at hi
    · cases hi; exact Or.inl rfl
    · split at hi
      · cases hi; rename_i g; exact Or.inr ⟨g, rfl⟩
      · cases hi
  | secp256r1 k f m =>
    have hi : initialAuth 5 c = some a₀ := hi
    unfold initialAuth at hi
    rw [if_neg (by omega), if_neg (by omega), if_neg (by omega), if_neg (by omega), if_pos rfl] at hi
    split at hi <;> cases hi
    rfl
  | ed25519Session => cases hs
  | secp256k1Session => cases hs
  | secp256r1Session => cases hs
  | exec p x i =>
    have hi : initialAuth 7 c = some a₀ := hi
    unfold initialAuth at hi
    rw [if_neg (by omega), if_neg (by omega), if_neg (by omega), if_neg (by omega), if_neg (by omega), if_neg (by omega), if_pos rfl] at hi
    split at hi
    · cases hi
      rename_i g
      refine ⟨g.1, by rw [sl_take], ?_⟩
      rw [List.take_append_of_le_length (by rw [sl_length_of_le (by omega)]; omega)]
      simp [sl, List.take_take]
    · cases hi

/-- A wallet in which some role is named by the credential of a holder opens: as the first such role, and with the counter stored for it if it
has one. -/
theorem C83_opens {w : Wallet} (hw : w.WF) (hf : ∀ r ∈ w.roles, r.PrefixFits) {h : Holder} (hz : h.Sized) {c : Bytes} (hb : h.bytes = some c)
    (hr : ∃ r ∈ w.roles, ∃ a, r.Stores a ∧ a.Named c) :
    ∃ r h', FirstNamed w c r ∧ openWallet w.encode h = some (r.id, h') ∧
      ∀ a, r.Stores a → ∀ pk n, a.cred.secp = some (pk, n) → h.odometer.isSome → h.ty ≠ T.ed25519 → h.ty ≠ T.ed25519Session →
        h'.odometer = some n := by
  obtain ⟨r, hr⟩ := first_named hr
  have hl := lookup_eq hw hf hr
  obtain ⟨a, ha, hn⟩ := hr.choose_spec.choose_spec.2.1
  have had := adopt_role hw hr.mem ha h
  have ho : openWallet w.encode h = openWallet.adopt w.encode r.id h := by
    unfold openWallet
    rw [hb, Option.bind_some, hl]
  have uniq : ∀ a' pk n, r.Stores a' → a'.cred.secp = some (pk, n) → ∃ pk', a.cred.secp = some (pk', n) := by
    intro a' pk n ha' hs
    obtain ⟨p, hp⟩ := (secp_type ha).mp ((secp_type ha').mpr ⟨_, hs⟩)
    refine ⟨p.1, ?_⟩
    rw [hp, ← secp_field ha' hs, secp_field ha (pk := p.1) (n := p.2) hp]
  cases hs : a.cred.secp with
  | none =>
    refine ⟨r, h, hr, by rw [ho, had, hs], ?_⟩
    intro a' ha' pk n hs'
    obtain ⟨pk', e⟩ := uniq a' pk n ha' hs'
    rw [hs] at e; cases e
  | some p =>
    have hset : ∃ h', h.setOdometer p.2 = some h' ∧ (h.odometer.isSome → h.ty ≠ T.ed25519 → h.ty ≠ T.ed25519Session → h'.odometer = some p.2) := by
      cases h with
      | ed25519 k => exact ⟨_, rfl, fun _ h => absurd rfl h⟩
      | secp256k1 k f m => exact ⟨_, rfl, fun _ _ _ => rfl⟩
      | secp256r1 k f m => exact ⟨_, rfl, fun _ _ _ => rfl⟩
      | ed25519Session k s m => exact ⟨_, rfl, fun _ _ h => absurd rfl h⟩
      | secp256k1Session k s m f n => exact ⟨_, rfl, fun _ _ _ => rfl⟩
      | secp256r1Session k s m f n => exact ⟨_, rfl, fun _ _ _ => rfl⟩
      | exec q x i =>
        exfalso
        have hq : q.length = 32 := hz
        have h80 : c.length = 80 := by
          simp only [Holder.bytes, Option.some.injEq] at hb
          rw [← hb]
          simp [Holder.execData, hq]
          omega
        cases a with
        | mk cr s =>
          have hc := ha.wf.cred
          cases cr with
          | ed25519 => cases hs
          | exec => cases hs
          | secp256k1 pk pad m =>
            have : pk.length = 33 := hc.1
            rcases hn with hn | hn
            · rw [hn] at h80; omega
            · omega
          | secp256r1 pk pad m =>
            have : pk.length = 33 := hc.1
            rw [show c = pk from hn] at h80; omega
    obtain ⟨h', e1, e2⟩ := hset
    refine ⟨r, h', hr, by rw [ho, had, hs]; simp [e1], ?_⟩
    intro a' ha' pk n hs' g1 g2 g3
    obtain ⟨pk', e⟩ := uniq a' pk n ha' hs'
    rw [hs] at e
    cases e
    exact e2 g1 g2 g3

/-- With no other role of the same credential, the wallet opens as the holder's own role. -/
theorem C83_opens_own {w : Wallet} (hw : w.WF) (hf : ∀ r ∈ w.roles, r.PrefixFits) {h : Holder} (hz : h.Sized) {c : Bytes} (hb : h.bytes = some c)
    {r : Role} (hr : r ∈ w.roles) {a : Auth} (ha : r.Stores a) (hn : a.Named c)
    (hu : ∀ x ∈ w.roles, ∀ b, x.Stores b → b.Named c → x = r) : ∃ h', openWallet w.encode h = some (r.id, h') := by
  obtain ⟨r', h', h1, h2, _⟩ := C83_opens hw hf hz hb ⟨r, hr, a, ha, hn⟩
  obtain ⟨b, hb1, hb2⟩ := h1.choose_spec.choose_spec.2.1
  rw [hu r' h1.mem b hb1 hb2] at h2
  exact ⟨h', h2⟩

/-- The credential of a session holder names no role of its kind: a wallet opens with it, if at all, as a role of a program. -/
theorem C83_session_roles {w : Wallet} (hw : w.WF) (hf : ∀ r ∈ w.roles, r.PrefixFits) {h : Holder} (hz : h.Sized) (hs : h.session = true)
    {id : Nat} {h' : Holder} (ho : openWallet w.encode h = some (id, h')) :
    ∃ r ∈ w.roles, r.id = id ∧ (r.authType = T.programExec ∨ r.authType = T.programExecSession) := by
  have hlen : ∃ c, h.bytes = some c ∧ c.length ≠ 32 ∧ c.length ≠ 33 ∧ c.length ≠ 64 := by
    cases h with
    | ed25519Session k s n =>
      refine ⟨_, rfl, ?_⟩
      simp only [Holder.Sized] at hz
      simp [hz.1, hz.2]
    | secp256k1Session k s n f m =>
      refine ⟨_, rfl, ?_⟩
      simp only [Holder.Sized] at hz
      simp [hz.1, hz.2]
    | secp256r1Session k s n f m =>
      refine ⟨_, rfl, ?_⟩
      simp only [Holder.Sized] at hz
      simp [hz.1, hz.2]
    | _ => cases hs
  obtain ⟨c, hc, l1, l2, l3⟩ := hlen
  unfold openWallet at ho
  rw [hc, Option.bind_some] at ho
  rcases C83_lookup hw hf c with ⟨r, hr, hl⟩ | ⟨_, hl⟩
  · rw [hl] at ho
    obtain ⟨a, ha, hn⟩ := hr.choose_spec.choose_spec.2.1
    have had := adopt_role hw hr.mem ha h
    simp only [] at ho
    rw [had] at ho
    have hid : r.id = id := by
      split at ho
      · cases hq : h.setOdometer _ with
        | none => rw [hq] at ho; cases ho
        | some q => rw [hq] at ho; cases ho; rfl
      · cases ho; rfl
    refine ⟨r, hr.mem, hid, ?_⟩
    rw [← ha.ty]
    have hw' := ha.wf.cred
    cases a with
    | mk cr s =>
      cases cr with
      | ed25519 pk => exact absurd (by rw [show c = pk from hn]; exact hw') l1
      | secp256k1 pk pad m =>
        rcases hn with hn | hn
        · exact absurd (by rw [hn]; exact hw'.1) l2
        · exact absurd hn.1 l3
      | secp256r1 pk pad m => exact absurd (by rw [show c = pk from hn]; exact hw'.1) l2
      | exec p n pad buf => cases s <;> simp [Auth.ty, T.programExec, T.programExecSession]
  · rw [hl] at ho; cases ho

/-! ## What goes wrong -/

theorem wallet3_fits : ∀ r ∈ SampleSdk.wallet3.roles, r.PrefixFits := by
  intro r hr a ha p n pad buf hc
  exfalso
  have ht : a.ty = 7 ∨ a.ty = 8 := by
    cases a with
    | mk c s => cases hc; cases s <;> simp [Auth.ty]
  rw [ha.ty] at ht
  simp only [SampleSdk.wallet3, List.mem_cons, List.not_mem_nil, or_false] at hr
  rcases hr with rfl | rfl | rfl <;> simp [SampleSdk.owner, SampleSdk.sessionFirst, SampleSdk.plainLater] at ht

/-- The full property, with session roles, is false: a wallet has a role created from the credential of a session holder, and the SDK
cannot open the wallet with that holder. -/
theorem C83_refuted : ∃ (w : Wallet) (h : Holder) (c : Bytes) (a : Auth) (r : Role), w.WF ∧ (∀ r ∈ w.roles, r.PrefixFits) ∧ h.Sized ∧
    h.bytes = some c ∧ initialAuth h.ty c = some a ∧ r ∈ w.roles ∧ r.Stores a ∧ openWallet w.encode h = none := by
  refine ⟨SampleSdk.wallet3, .ed25519Session (K 11) (K 12) 1000, _, ⟨.ed25519 (K 11), some ⟨K 12, 1000, 0⟩⟩, SampleSdk.sessionFirst,
    SampleSdk.wallet3_wf, wallet3_fits, ⟨rfl, rfl⟩, rfl, by decide +kernel, by simp [SampleSdk.wallet3],
    ⟨⟨rfl, fun s hs => ?_⟩, rfl, rfl⟩, ?_⟩
  · cases hs
    exact ⟨rfl, by decide, by decide⟩
  · have : (openWallet SampleSdk.wallet3.encode (.ed25519Session (K 11) (K 12) 1000)).isSome = false := by decide +kernel
    exact Option.not_isSome_iff_eq_none.mp (by rw [this]; decide)

/-- A plain key is taken for the session role that happens to come first with the same key, although it has a role of its own. -/
theorem C83_wrong_kind_refuted : ∃ (w : Wallet) (h : Holder) (r s : Role), w.WF ∧ (∀ r ∈ w.roles, r.PrefixFits) ∧ h.Sized ∧
    r ∈ w.roles ∧ r.authType = h.ty ∧ h.bytes = some r.auth ∧ s ∈ w.roles ∧ s.authType ≠ h.ty ∧
    (openWallet w.encode h).map (·.1) = some s.id :=
  ⟨SampleSdk.wallet3, .ed25519 (K 11), SampleSdk.plainLater, SampleSdk.sessionFirst, SampleSdk.wallet3_wf, wallet3_fits, rfl,
    by simp [SampleSdk.wallet3], rfl, rfl, by simp [SampleSdk.wallet3], by decide, by decide +kernel⟩

/-! ## Examples -/

section Examples

/-- C83_creates: a Secp256r1 role with sessions, and a role of a program. -/
example : (Holder.secp256r1Session (3 :: K 9) (K 12) 1000 id 0).Sized ∧ (Holder.secp256r1Session (3 :: K 9) (K 12) 1000 id 0).Creatable ∧
    (Holder.exec (K 30) [1, 2, 3] ⟨K 30, [], [1, 2, 3]⟩).Sized ∧ (Holder.exec (K 30) [1, 2, 3] ⟨K 30, [], [1, 2, 3]⟩).Creatable :=
  ⟨⟨rfl, rfl⟩, show 1000 < 2 ^ 64 by decide, rfl, show K 30 ≠ swigId by decide +kernel⟩

/-- The owner of a wallet with three roles opens it as role 0. -/
example : ∃ h', openWallet SampleSdk.wallet3.encode (.ed25519 (K 10)) = some (0, h') := by
  have hst : SampleSdk.owner.Stores ⟨.ed25519 (K 10), none⟩ := ⟨⟨rfl, fun s hs => by cases hs⟩, rfl, rfl⟩
  refine C83_opens_own SampleSdk.wallet3_wf wallet3_fits (h := .ed25519 (K 10)) rfl rfl (r := SampleSdk.owner) (by simp [SampleSdk.wallet3])
    hst rfl ?_
  intro x hx b hb hn
  simp only [SampleSdk.wallet3, List.mem_cons, List.not_mem_nil, or_false] at hx
  rcases hx with rfl | rfl | rfl
  · rfl
  · exfalso
    have := matchLong_named hb (wallet3_fits _ (by simp [SampleSdk.wallet3]) b hb) (K 10)
    rw [show Sdk.matchLong SampleSdk.sessionFirst.authType SampleSdk.sessionFirst.auth (K 10) = .ok false by decide +kernel] at this
    simp [hn] at this
  · exfalso
    have := matchLong_named hb (wallet3_fits _ (by simp [SampleSdk.wallet3]) b hb) (K 10)
    rw [show Sdk.matchLong SampleSdk.plainLater.authType SampleSdk.plainLater.auth (K 10) = .ok false by decide +kernel] at this
    simp [hn] at this

/-- Credentials of the four plain kinds create authorities that they name. -/
example (f : Bytes → Bytes) (i : TxIx) : ∃ a₁ a₂ a₃ a₄,
    initialAuth (Holder.ed25519 (K 10)).ty (K 10) = some a₁ ∧ a₁.Named (K 10) ∧
    initialAuth (Holder.secp256k1 (zeros 63 ++ [1]) f 0).ty (zeros 63 ++ [1]) = some a₂ ∧ a₂.Named (zeros 63 ++ [1]) ∧
    initialAuth (Holder.secp256r1 (2 :: K 9) f 0).ty (2 :: K 9) = some a₃ ∧ a₃.Named (2 :: K 9) ∧
    initialAuth (Holder.exec (K 9) [1, 2] i).ty (Holder.execData (K 9) [1, 2]) = some a₄ ∧ a₄.Named (Holder.execData (K 9) [1, 2]) := by
  refine ⟨⟨.ed25519 (K 10), none⟩, ⟨.secp256k1 (3 :: zeros 32) (zeros 3) 0, none⟩, ⟨.secp256r1 (2 :: K 9) (zeros 3) 0, none⟩,
    ⟨.exec (K 9) 2 (zeros 7) ([1, 2] ++ zeros 38), none⟩, ?_⟩
  have e1 : initialAuth 1 (K 10) = some ⟨.ed25519 (K 10), none⟩ := by decide +kernel
  have e2 : initialAuth 3 (zeros 63 ++ [1]) = some ⟨.secp256k1 (3 :: zeros 32) (zeros 3) 0, none⟩ := by decide +kernel
  have e3 : initialAuth 5 (2 :: K 9) = some ⟨.secp256r1 (2 :: K 9) (zeros 3) 0, none⟩ := by decide +kernel
  have e4 : initialAuth 7 (Holder.execData (K 9) [1, 2]) = some ⟨.exec (K 9) 2 (zeros 7) ([1, 2] ++ zeros 38), none⟩ := by decide +kernel
  exact ⟨e1, C83_created_named (h := .ed25519 (K 10)) rfl rfl e1 0 rfl,
    e2, C83_created_named (h := .secp256k1 (zeros 63 ++ [1]) f 0) rfl rfl e2 0 rfl,
    e3, C83_created_named (h := .secp256r1 (2 :: K 9) f 0) rfl rfl e3 0 rfl,
    e4, C83_created_named (h := .exec (K 9) [1, 2] i) rfl rfl e4 0 rfl⟩

end Examples

end Verif
