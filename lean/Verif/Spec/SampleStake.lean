import Verif.Spec.SampleSign
import Verif.Spec.Stake

/-!
# Concrete signings with a stake account and with an account of another program

The Stake program with `Withdraw` (4) and `Deactivate` (5), and a program `K 60` that keeps a balance in bytes 0-8 of its accounts and pays
out of it.
-/

namespace Verif.Sample

/-- Stake `Withdraw`: stake account, recipient, withdrawer.  What is delegated and the rent reserve stay. -/
def demoWithdraw (m : Mem) (a b auth : Meta) (n : Nat) : R Mem :=
  if auth.signer = true ∧ a.writable = true ∧ b.writable = true ∧ (m a.key).owner = stakeId ∧ a.key ≠ b.key ∧
      sl (m a.key).data 44 76 = auth.key ∧ n + stakedOf (m a.key) + rd (m a.key).data 4 8 ≤ (m a.key).lamports ∧
      (m b.key).lamports + n < 2 ^ 64 then
    .ok ((m.setLamports a.key ((m a.key).lamports - n)).setLamports b.key ((m b.key).lamports + n))
  else .error .runtime

/-- Stake `Deactivate`: stake account, staker.  Sets the deactivation epoch, bytes 172-180. -/
def demoDeactivate (m : Mem) (a auth : Meta) : R Mem :=
  if auth.signer = true ∧ a.writable = true ∧ (m a.key).owner = stakeId ∧ sl (m a.key).data 12 44 = auth.key then
    .ok (m.setData a.key (put (m a.key).data 172 (natLE 8 7)))
  else .error .runtime

/-- Program `K 60`, pay `n` out of the balance of an account: account, authority. -/
def demoPayOut (m : Mem) (a auth : Meta) (n : Nat) : R Mem :=
  if auth.signer = true ∧ a.writable = true ∧ (m a.key).owner = K 60 ∧ n ≤ rd (m a.key).data 0 8 then
    .ok (m.setData a.key (put (m a.key).data 0 (natLE 8 (rd (m a.key).data 0 8 - n))))
  else .error .runtime

def demoStake (m : Mem) (ix : CpiIx) : R Mem :=
  match ix.accounts with
  | a :: b :: more =>
    if rd ix.data 0 4 = 5 then demoDeactivate m a b
    else match more with
      | auth :: _ => if rd ix.data 0 4 = 4 then demoWithdraw m a b auth (rd ix.data 4 8) else .error .runtime
      | [] => .error .runtime
  | _ => .error .runtime

def demoVault (m : Mem) (ix : CpiIx) : R Mem :=
  match ix.accounts with
  | a :: auth :: _ => demoPayOut m a auth (rd ix.data 0 8)
  | _ => .error .runtime

def moreCpi : Cpi := fun m ix =>
  if ix.program = stakeId then demoStake m ix else if ix.program = K 60 then demoVault m ix else demoCpi m ix

theorem Mem.Typed.set {m : Mem} (hm : m.Typed) {k : Key} {a : Acct} (h1 : a.owner.length = 32) (h2 : a.lamports < 2 ^ 64) :
    (m.set k a).Typed := by
  intro x
  unfold Mem.set
  split
  · exact ⟨h1, h2⟩
  · exact hm x

theorem Mem.Typed.setLamports {m : Mem} (hm : m.Typed) {k : Key} {n : Nat} (h : n < 2 ^ 64) : (m.setLamports k n).Typed :=
  Mem.Typed.set hm (hm k).1 h

theorem moreCpi_typed : moreCpi.Typed := by
  intro m ix m' h hm
  unfold moreCpi at h
  split at h
  · unfold demoStake at h
    split at h
    · split at h
      · unfold demoDeactivate at h
        split at h
        · cases h; exact Mem.Typed.set hm (hm _).1 (hm _).2
        · cases h
      · split at h
        · split at h
          · unfold demoWithdraw at h
            split at h
            · rename_i hc
              cases h
              refine Mem.Typed.setLamports (Mem.Typed.setLamports hm ?_) hc.2.2.2.2.2.2.2
              exact Nat.lt_of_le_of_lt (Nat.sub_le _ _) (hm _).2
            · cases h
          · cases h
        · cases h
    · cases h
  · split at h
    · unfold demoVault at h
      split at h
      · unfold demoPayOut at h
        split at h
        · cases h; exact Mem.Typed.set hm (hm _).1 (hm _).2
        · cases h
      · cases h
    · exact demoCpi_typed m ix m' h hm

/-- The ledger: a wallet and one more account `K 80`. -/
def moreMem (w : Wallet) (a : Acct) : Mem := (mem w).set (K 80) a

/-- The other accounts of the request (index 2 and up). -/
def moreRest : List Meta :=
  [⟨systemId, false, false⟩, ⟨stakeId, false, false⟩, ⟨K 11, true, true⟩, ⟨K 40, false, true⟩, ⟨K 80, false, true⟩, ⟨K 60, false, false⟩]

/-- Withdraw `n` lamports from the stake account `K 80` to `K 40`. -/
def withdrawStake (n : Nat) : Bytes := [3, 3, 6, 5, 1] ++ natLE 2 12 ++ natLE 4 4 ++ natLE 8 n
/-- Deactivate the stake account `K 80`. -/
def deactivateStake : Bytes := [3, 2, 6, 1] ++ natLE 2 4 ++ natLE 4 5
/-- Pay `n` out of the account `K 80` of program `K 60`. -/
def payOut (n : Nat) : Bytes := [7, 2, 6, 1] ++ natLE 2 8 ++ natLE 8 n

theorem moreMem_typed (w : Wallet) (a : Acct) (h : a.owner.length = 32 ∧ a.lamports < 2 ^ 64) : (moreMem w a).Typed := by
  refine Mem.Typed.set (fun k => ?_) h.1 h.2
  unfold mem
  split
  · exact ⟨(by decide : swigId.length = 32), (by decide : 2000000000 < 2 ^ 64)⟩
  · split
    · exact ⟨by decide, by decide⟩
    · split
      · exact ⟨by decide, by decide⟩
      · exact ⟨by decide, by decide⟩

/-- Role 1 (Ed25519 key `K 11`) of the wallet signs. -/
def runMore (w : Wallet) (a : Acct) (inner : List Bytes) : R Mem :=
  process signEnv moreCpi (moreMem w a) (signSwig :: signAddr :: moreRest) (signIx inner)

theorem runMore_restricted {w : Wallet} {r : Role} {a : Acct} {inner : List Bytes} {m' : Mem} (h : runMore w a inner = .ok m')
    (ha : a.owner.length = 32 ∧ a.lamports < 2 ^ 64) (hwf : w.WF) (hix : rd (signIx inner) 0 2 = 11 ∧ rd (signIx inner) 4 4 = 1)
    (hr : w.role? 1 = some r) (hres : Restricted r) :
    RestrictedSign signEnv moreCpi (moreMem w a) m' signSwig signAddr moreRest (signIx inner) w r where
  wf := hwf
  stored := by
    show (moreMem w a (K 1)).data = _
    unfold moreMem Mem.set
    rw [if_neg (by decide)]
    rfl
  number := hix.1
  role := by rw [hix.2]; exact hr
  restricted := hres
  runtime := ⟨moreMem_typed w a ha, moreCpi_typed, by decide, by decide, fun h => by cases h⟩
  runs := h

theorem runMore_exists (w : Wallet) (r : Role) (a : Acct) (inner : List Bytes) (p : Mem → Prop) [∀ m, Decidable (p m)]
    (h : (match runMore w a inner with | .ok m' => decide (p m') | _ => false) = true)
    (hd : decide ((a.owner.length = 32 ∧ a.lamports < 2 ^ 64) ∧ w.WF ∧ (rd (signIx inner) 0 2 = 11 ∧ rd (signIx inner) 4 4 = 1) ∧
      w.role? 1 = some r ∧ Restricted r) = true) :
    ∃ m', RestrictedSign signEnv moreCpi (moreMem w a) m' signSwig signAddr moreRest (signIx inner) w r ∧ p m' := by
  obtain ⟨h0, h1, h2, h3, h4⟩ := of_decide_eq_true hd
  split at h
  · rename_i m' hm
    exact ⟨m', runMore_restricted hm h0 h1 h2 h3 h4, of_decide_eq_true h⟩
  · cases h

/-- A delegated stake account of the wallet address: reserve 2282880, 5000 delegated, 700 free. -/
def stakeAcct : Acct :=
  ⟨stakeId, 2282880 + 5700, natLE 4 2 ++ natLE 8 2282880 ++ K 2 ++ K 2 ++ zeros 48 ++ K 90 ++ natLE 8 5000 ++ zeros 8 ++ natLE 8 (2 ^ 64 - 1) ++
    zeros 20⟩

end Verif.Sample
