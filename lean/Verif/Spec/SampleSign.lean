import Verif.Spec.SampleCpi

/-!
# Concrete signings

A wallet with a restricted role (id 1, Ed25519 key `K 11`) and the demo programs; used beside the theorems about signing.
-/

namespace Verif

instance (r : Role) : Decidable r.WF :=
  decidable_of_iff (authLen r.authType = some r.auth.length ∧ 1 ≤ r.actions.length ∧ r.actions.length ≤ 255 ∧ (∀ a ∈ r.actions, a.WF) ∧
    NoV2Dup r.actions) ⟨fun ⟨a, b, c, d, e⟩ => ⟨a, b, c, d, e⟩, fun ⟨a, b, c, d, e⟩ => ⟨a, b, c, d, e⟩⟩

instance (w : Wallet) : Decidable (∀ k, w.claimer = some k → k.length = 32) :=
  match h : w.claimer with
  | none => .isTrue (by simp)
  | some k => if hk : k.length = 32 then .isTrue (by simpa using hk) else .isFalse (by simpa using hk)

instance (w : Wallet) : Decidable w.WF :=
  decidable_of_iff (w.id.length = 32 ∧ w.pad.length = 3 ∧ w.roleCounter < 2 ^ 32 ∧ w.subCounter < 2 ^ 32 ∧ w.roles.length < 2 ^ 16 ∧
    (∀ r ∈ w.roles, r.WF) ∧ (w.roles.map Role.id).Nodup ∧ (∀ r ∈ w.roles, r.id < w.roleCounter) ∧
    (∀ k, w.claimer = some k → k.length = 32) ∧ 48 + rolesSize w.roles + 40 < 2 ^ 31)
    ⟨fun ⟨a, b, c, d, e, f, g, h, i, j⟩ => ⟨a, b, c, d, e, f, g, h, i, j⟩,
     fun ⟨a, b, c, d, e, f, g, h, i, j⟩ => ⟨a, b, c, d, e, f, g, h, i, j⟩⟩

namespace Sample

/-- The wallet: the owner, and role 1 with the given actions. -/
def signWallet (acts : List Act) : Wallet := { wallet with roles := [root, ⟨1, 1, K 11, acts⟩] }

/-- A token account with mint `K 50`. -/
def tokenAcct (authority : Key) (n : Nat) : Acct := ⟨tokenId, 2039280, K 50 ++ authority ++ natLE 8 n ++ zeros 36 ++ [1] ++ zeros 56⟩

/-- The ledger: besides the wallet, its token account `K 30` with 1000 tokens and somebody's token account `K 31`. -/
def signMem (acts : List Act) : Mem :=
  ((mem (signWallet acts)).set (K 30) (tokenAcct (K 2) 1000)).set (K 31) (tokenAcct (K 77) 5)

/-- The other accounts of the request (index 2 and up). -/
def signRest : List Meta :=
  [⟨systemId, false, false⟩, ⟨tokenId, false, false⟩, ⟨K 11, true, true⟩, ⟨K 40, false, true⟩, ⟨K 30, false, true⟩, ⟨K 31, false, true⟩]

def signSwig : Meta := ⟨K 1, false, true⟩
def signAddr : Meta := ⟨K 2, false, true⟩

/-- Transfer of `n` lamports from the wallet address to `K 40`. -/
def paySol (n : Nat) : Bytes := [2, 2, 1, 5] ++ natLE 2 12 ++ natLE 4 2 ++ natLE 8 n
/-- Transfer of `n` lamports from the user `K 11` to the wallet address. -/
def fundSol (n : Nat) : Bytes := [2, 2, 4, 1] ++ natLE 2 12 ++ natLE 4 2 ++ natLE 8 n
/-- Transfer of `n` tokens from `K 30` to `K 31`. -/
def payToken (n : Nat) : Bytes := [3, 3, 6, 7, 1] ++ natLE 2 9 ++ [3] ++ natLE 8 n
/-- Close `K 30`, lamports to `K 40`. -/
def closeToken : Bytes := [3, 3, 6, 5, 1] ++ natLE 2 1 ++ [9]
/-- Assign the wallet address to another program. -/
def assignWallet (owner : Key) : Bytes := [2, 1, 1] ++ natLE 2 36 ++ natLE 4 1 ++ owner

/-- Role 1 signs the given inner instructions; its key is account 4. -/
def signIx (inner : List Bytes) : Bytes :=
  let p := UInt8.ofNat inner.length :: inner.flatten
  natLE 2 11 ++ natLE 2 p.length ++ natLE 4 1 ++ p ++ [4]

/-- The signing. -/
def runSign (acts : List Act) (inner : List Bytes) : R Mem :=
  process signEnv demoCpi (signMem acts) (signSwig :: signAddr :: signRest) (signIx inner)

theorem signMem_typed (acts : List Act) : (signMem acts).Typed := by
  intro k
  unfold signMem Mem.set mem
  have h : ∀ n : UInt8, (K n).length = 32 := fun n => by simp [K]
  split
  · exact ⟨by decide, by decide⟩
  · split
    · exact ⟨by decide, by decide⟩
    · split
      · exact ⟨(by decide : swigId.length = 32), (by decide : 2000000000 < 2 ^ 64)⟩
      · split
        · exact ⟨by decide, by decide⟩
        · split
          · exact ⟨by decide, by decide⟩
          · exact ⟨by decide, by decide⟩

/-- The hypotheses of the signing theorems hold for these runs. -/
theorem runSign_restricted {acts : List Act} {inner : List Bytes} {m' : Mem} (h : runSign acts inner = .ok m')
    (hwf : (signWallet acts).WF) (hix : rd (signIx inner) 0 2 = 11 ∧ rd (signIx inner) 4 4 = 1)
    (hres : Restricted ⟨1, 1, K 11, acts⟩) :
    RestrictedSign signEnv demoCpi (signMem acts) m' signSwig signAddr signRest (signIx inner) (signWallet acts) ⟨1, 1, K 11, acts⟩ where
  wf := hwf
  stored := by
    have h1 : signMem acts (K 1) = mem (signWallet acts) (K 1) := by
      unfold signMem Mem.set; rw [if_neg (by decide), if_neg (by decide)]
    show (signMem acts (K 1)).data = _
    rw [h1]; rfl
  number := hix.1
  role := by rw [hix.2]; rfl
  restricted := hres
  runtime := ⟨signMem_typed acts, demoCpi_typed, by decide, by decide, fun h => by cases h⟩
  runs := h

/-- The same as one existence statement, all of whose premises can be computed. -/
theorem runSign_exists (acts : List Act) (inner : List Bytes) (p : Mem → Prop) [∀ m, Decidable (p m)]
    (h : (match runSign acts inner with | .ok m' => decide (p m') | _ => false) = true)
    (hd : decide ((signWallet acts).WF ∧ (rd (signIx inner) 0 2 = 11 ∧ rd (signIx inner) 4 4 = 1) ∧ Restricted ⟨1, 1, K 11, acts⟩) = true) :
    ∃ m', RestrictedSign signEnv demoCpi (signMem acts) m' signSwig signAddr signRest (signIx inner) (signWallet acts)
      ⟨1, 1, K 11, acts⟩ ∧ p m' := by
  obtain ⟨h1, h2, h3⟩ := of_decide_eq_true hd
  split at h
  · rename_i m' hm
    exact ⟨m', runSign_restricted hm h1 h2 h3, of_decide_eq_true h⟩
  · cases h

/-- SOL limit 500, token limit 100 for mint `K 50`; may call the System and Token programs. -/
def acts1 : List Act := [⟨1, natLE 8 500⟩, ⟨3, systemId⟩, ⟨5, K 50 ++ natLE 8 100⟩, ⟨3, tokenId⟩]

/-- Recurring limits: 500 lamports and 100 tokens of mint `K 50` every 10 slots; may call every program. -/
def acts2 : List Act :=
  [⟨2, natLE 8 500 ++ natLE 8 10 ++ natLE 8 0 ++ natLE 8 200⟩, ⟨6, K 50 ++ natLE 8 10 ++ natLE 8 100 ++ natLE 8 20 ++ natLE 8 0⟩, ⟨P.programAll, []⟩]

/-- Destination limits: 500 lamports to `K 40`, 90 tokens of mint `K 50` to `K 31`. -/
def acts3 : List Act := [⟨P.solDestinationLimit, K 40 ++ natLE 8 500⟩, ⟨P.tokenDestinationLimit, K 50 ++ K 31 ++ natLE 8 90⟩, ⟨P.programAll, []⟩]

/-- May call every program, no limit at all. -/
def acts4 : List Act := [⟨P.programAll, []⟩]

/-- May call every program and close token accounts, no limit at all. -/
def acts5 : List Act := [⟨P.programAll, []⟩, ⟨P.closeSwigAuthority, []⟩]

end Sample
end Verif
