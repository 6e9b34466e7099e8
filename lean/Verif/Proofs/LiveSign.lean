import Verif.Proofs.SignV2
import Verif.Proofs.LiveSub
import Verif.Proofs.ClientBuild

/-! When signing succeeds. -/

namespace Verif
open Client

theorem parseSign_built {role : Nat} {ixs payload : Bytes} (hr : role < 2 ^ 32) (hl : ixs.length < 2 ^ 16) :
    parseSign (signData role ixs ++ payload) = .ok ⟨role, ixs, payload⟩ := by
  have hlen : (signData role ixs).length = 8 + ixs.length := by simp [signData]; omega
  have r2 : rd (signData role ixs ++ payload) 2 2 = ixs.length := by
    have := rd_full 2 ixs.length (by simpa using hl) (natLE 2 11) (natLE 4 role ++ ixs ++ payload) (i := 2) (by simp)
    simpa [List.append_assoc, signData] using this
  have r4 : rd (signData role ixs ++ payload) 4 4 = role := by
    have := rd_full 4 role (by simpa using hr) (natLE 2 11 ++ natLE 2 ixs.length) (ixs ++ payload) (i := 4) (by simp)
    simpa [List.append_assoc, signData] using this
  have s1 : sl (signData role ixs ++ payload) 8 (8 + ixs.length) = ixs := by
    have := sl_mid (natLE 2 11 ++ natLE 2 ixs.length ++ natLE 4 role) ixs payload (i := 8) (j := 8 + ixs.length) (by simp) (by simp)
    simpa [List.append_assoc, signData] using this
  unfold parseSign
  rw [if_neg (by simp [hlen]; omega), r2]
  dsimp only
  rw [if_neg (by simp [hlen]; omega), r4, s1, ← hlen, List.drop_left]

theorem parseSubSignV2_built {role id : Nat} {ixs payload : Bytes} (hr : role < 2 ^ 32) (hid : id < 2 ^ 32) (hl : ixs.length < 2 ^ 16) :
    parseSubSignV2 (subSignV2Data role id ixs ++ payload) = .ok ⟨role, id, ixs, subSignV2Data role id ixs, payload⟩ := by
  have hlen : (subSignV2Data role id ixs).length = 16 + ixs.length := by simp [subSignV2Data]; omega
  have r2 : rd (subSignV2Data role id ixs ++ payload) 2 2 = ixs.length := by
    have := rd_full 2 ixs.length (by simpa using hl) (natLE 2 20) (natLE 4 role ++ natLE 4 id ++ zeros 4 ++ ixs ++ payload) (i := 2) (by simp)
    simpa [List.append_assoc, subSignV2Data] using this
  have r4 : rd (subSignV2Data role id ixs ++ payload) 4 4 = role := by
    have := rd_full 4 role (by simpa using hr) (natLE 2 20 ++ natLE 2 ixs.length) (natLE 4 id ++ zeros 4 ++ ixs ++ payload) (i := 4) (by simp)
    simpa [List.append_assoc, subSignV2Data] using this
  have r8 : rd (subSignV2Data role id ixs ++ payload) 8 4 = id := by
    have := rd_full 4 id (by simpa using hid) (natLE 2 20 ++ natLE 2 ixs.length ++ natLE 4 role) (zeros 4 ++ ixs ++ payload) (i := 8) (by simp)
    simpa [List.append_assoc, subSignV2Data] using this
  have s1 : sl (subSignV2Data role id ixs ++ payload) 16 (16 + ixs.length) = ixs := by
    have := sl_mid (natLE 2 20 ++ natLE 2 ixs.length ++ natLE 4 role ++ natLE 4 id ++ zeros 4) ixs payload (i := 16)
      (j := 16 + ixs.length) (by simp) (by simp)
    simpa [List.append_assoc, subSignV2Data] using this
  unfold parseSubSignV2
  rw [if_neg (by simp [hlen]; omega), r2]
  dsimp only
  rw [if_neg (by simp [hlen]; omega), r4, r8, s1, ← hlen, List.drop_left, List.take_left]

theorem classifyGo_prefix {m : Mem} {cache : Option (List (Nat × Bytes))} : ∀ (rest prev : List Meta) (cls out : List Class),
    classifyGo m cache prev cls rest = .ok out → cls <+: out := by
  intro rest
  induction rest with
  | nil => intro prev cls out h; cases h; exact List.prefix_refl _
  | cons a rest ih =>
    intro prev cls out h
    simp only [classifyGo] at h
    obtain ⟨c, _, h⟩ := bind_ok_iff.mp h
    exact (List.prefix_append _ _).trans (ih _ _ _ h)

/-- Of a stored wallet with its System-owned address as second account, the first is classified as the wallet, the second as its
address. -/
theorem classifyAll_two {m : Mem} {s x : Meta} {rest : List Meta} {cls : List Class} (hc : isConfig m s.key = true)
    (ho : (m s.key).owner = swigId) (hx : (m x.key).owner = systemId) (h : classifyAll m (s :: x :: rest) = .ok cls) :
    ∃ tl, cls = .thisSwig (m s.key).lamports :: .wallet :: tl := by
  simp only [classifyAll] at h
  have h0 : classify m [] [] none s = .ok (.thisSwig (m s.key).lamports) := by
    unfold classify
    dsimp only
    rw [if_pos ho, if_neg (by rw [hc]; simp)]
    simp
  rw [h0, ok_bind] at h
  simp only [classifyGo] at h
  have h1 : ∀ cache, classify m [s] [.thisSwig (m s.key).lamports] cache x = .ok .wallet := by
    intro cache
    unfold classify
    dsimp only
    rw [if_neg (by rw [hx]; decide), if_pos ⟨hx, rfl⟩]
    simp [hc]
  rw [h1, ok_bind] at h
  obtain ⟨tl, rfl⟩ := classifyGo_prefix _ _ _ _ h
  exact ⟨tl, rfl⟩

theorem process_two {env : Env} {cpi : Cpi} {m : Mem} {f x : Meta} {rest : List Meta} {w : Wallet} {ix : Bytes} (hw : w.WF)
    (hd : (m f.key).data = w.encode) (ho : (m f.key).owner = swigId) (hx : (m x.key).owner = systemId)
    (hp : Plain m w (f :: x :: rest)) (hl : (f :: x :: rest).length ≤ 254) :
    ∃ tl, classifyAll m (f :: x :: rest) = .ok (.thisSwig (m f.key).lamports :: .wallet :: tl) ∧
      process env cpi m (f :: x :: rest) ix = dispatch env cpi m (f :: x :: rest) (.thisSwig (m f.key).lamports :: .wallet :: tl) ix := by
  obtain ⟨cls, h⟩ := classifyAll_of hw hd ho hp
  obtain ⟨tl, rfl⟩ := classifyAll_two (isConfig_enc hw hd ho) ho hx h
  refine ⟨tl, h, ?_⟩
  unfold process
  rw [require_of hl, ok_bind, h, ok_bind]

/-- Signing gets as far as executing the decoded instructions. -/
theorem signV2_reach {env : Env} {cpi : Cpi} {m : Mem} {swig wallet x3 : Meta} {rest : List Meta} {tl : List Class} {n : Nat} {ix : Bytes}
    {w : Wallet} {a : SignIx} {r : Role} {ixs : List Inner} (hw : w.WF) (hd : (m swig.key).data = w.encode)
    (hst : env.stackHeight = 1) (hp : parseSign ix = .ok a)
    (hact : ActsAs env m (swig :: wallet :: x3 :: rest) w a.role a.authPayload a.payload r)
    (hdec : decodeIxs (swig :: wallet :: x3 :: rest) wallet.key [] a.payload = .ok ixs) :
    ∃ before after, Placed ⟨swig.key, 48 + (rolesSize before + 16 + r.auth.length), (encActs 0 r.actions).length⟩ (w.used a.role) a.role
        { r with auth := usedCred r.authType r.auth } before after ∧
      signV2 env cpi m (swig :: wallet :: x3 :: rest) (.thisSwig n :: .wallet :: tl) ix =
        signWith env cpi (m.setData swig.key (w.used a.role).encode) (swig :: wallet :: x3 :: rest) (.thisSwig n :: .wallet :: tl) wallet.key
          (walletSeeds swig.key ++ [[w.walletBump]])
          ⟨swig.key, 48 + (rolesSize before + 16 + r.auth.length), (encActs 0 r.actions).length⟩ ixs := by
  obtain ⟨v, e1, e2, e3⟩ := actAs_of hw hact
  obtain ⟨r', before, after, g1, g2, g3, g4, g5, _, g7, g8, _⟩ := actAs_view hw e1
  obtain rfl : r' = r := Option.some.inj (g5.1.symm.trans hact.1)
  refine ⟨before, after, placed_used hw g1 g2 g3 g4, ?_⟩
  simp only [signV2]
  rw [require_of hst, ok_bind, require_of (show (List.getD (Class.thisSwig n :: .wallet :: tl) 0 .none).isSwig = true from rfl), ok_bind,
    require_of (show List.getD (Class.thisSwig n :: .wallet :: tl) 1 .none = .wallet from rfl), ok_bind, hp, ok_bind, hd, openSwig_enc hw,
    ok_bind, e1, ok_bind]
  dsimp only
  rw [hdec, ok_bind, Wallet.parts_bytes, g7, g8]
  rfl

theorem signWith_free {env : Env} {cpi : Cpi} {m : Mem} {metas : List Meta} {cls : List Class} {wallet : Key} {seeds : List Bytes}
    {loc : ActLoc} {ixs : List Inner} {w : Wallet} {id : Nat} {r : Role} {before after : List Role}
    (hp : Placed loc w id r before after) (hd : (m loc.swig).data = w.encode) (hf : ¬ Restricted r) :
    signWith env cpi m metas cls wallet seeds loc ixs = execAll env cpi metas wallet seeds m ixs := by
  have hc : All2 Act.Charged r.actions r.actions := All2.refl' Act.Charged.refl _
  have hm := hp.start hd
  have has : ∀ ty, repeatable ty = false → loc.has m ty [] = .ok (payload? r.actions ty []).isSome := by
    intro ty hr
    have := hp.has hc m ty [] (fun h => by rw [hr] at h; cases h)
    rw [← hm] at this
    exact this
  unfold signWith unrestricted
  rw [has P.all rfl, has P.allButManageAuthority rfl]
  simp only [ok_bind]
  by_cases h1 : (payload? r.actions P.all []).isSome = true
  · rw [if_pos h1]
    simp only [ok_bind, if_true]
  · rw [if_neg h1, ok_bind]
    by_cases h2 : (payload? r.actions P.allButManageAuthority []).isSome = true
    · rw [if_pos h2]
    · exfalso
      apply hf
      exact fun a ha => ⟨fun e => h1 ((payload?_isSome_iff rfl []).mpr ⟨a, ha, e⟩),
        fun e => h2 ((payload?_isSome_iff rfl []).mpr ⟨a, ha, e⟩)⟩

end Verif
