import Verif.Spec.Sdk
import Verif.Spec.SampleClient

/-! A wallet for the queries of the Rust SDK. -/

namespace Verif.SampleSdk
open Client Sample

/-- A member with two token limits, a recurring SOL limit of 50 per 100 slots of which 20 are left, a fixed SOL limit and a program. -/
def memberActs : List Act :=
  [(Action.tokenLimit (K 5) 30).toAct, (Action.solRecurringLimit 50 100 1000 20).toAct, (Action.tokenLimit (K 6) 40).toAct,
    (Action.solLimit 70).toAct, (Action.program (K 30)).toAct]

/-- A program scope on an account, a sub-account that exists and the right to close the wallet. -/
def hiddenActs : List Act :=
  [(Action.programScope 0 500 0 0 (K 30) (K 50) 1 3 8 16).toAct, (Action.subAccount (K 60) 254 true (zeros 2) 2 (K 70)).toAct,
    Action.closeSwigAuthority.toAct]

def owner : Role := ⟨1, 0, SampleClient.auth0.encode, [⟨P.all, []⟩]⟩
def member : Role := ⟨1, 1, K 11, memberActs⟩
def hidden : Role := ⟨3, 2, SampleClient.auth2.encode, hiddenActs⟩
def twin : Role := ⟨2, 5, (Auth.encode ⟨.ed25519 (K 11), some ⟨K 12, 1000, 100⟩⟩), [(Action.allButManageAuthority).toAct]⟩
def exec : Role := ⟨7, 6, SampleClient.auth4.encode, [(Action.solRecurringLimit 50 100 1000 20).toAct, (Action.solLimit 10).toAct]⟩
def k1Session : Role := ⟨4, 7, (Auth.encode ⟨.secp256k1 SampleClient.pk1 (zeros 3) 7, some ⟨K 12, 1000, 100⟩⟩), [⟨P.all, []⟩]⟩
def r1Session : Role := ⟨6, 8, (Auth.encode ⟨.secp256r1 SampleClient.pk2 (zeros 3) 9, some ⟨K 12, 1000, 100⟩⟩), [⟨P.all, []⟩]⟩

def roles : List Role := [owner, member, hidden, twin, exec, k1Session, r1Session]

/-- Seven roles; the ids 3 and 4 have been removed. -/
def wallet : Wallet := ⟨255, K 70, 9, 254, zeros 3, 0, roles, none⟩

theorem wallet_wf : wallet.WF where
  idLen := by decide
  padLen := by decide
  counter := by decide
  subCounter := by decide
  count := by decide
  roles := by
    intro r hr
    simp only [wallet, roles, List.mem_cons, List.not_mem_nil, or_false] at hr
    rcases hr with rfl | rfl | rfl | rfl | rfl | rfl | rfl <;> constructor <;> decide +kernel
  idsNodup := by decide
  idsLt := by decide
  claimer := by simp [wallet]
  size := by decide +kernel

/-- Limits for two tokens and a program. -/
def teller : Role := ⟨1, 1, K 11, [(Action.tokenLimit (K 5) 30).toAct, (Action.tokenLimit (K 6) 40).toAct, (Action.program (K 30)).toAct]⟩

/-- A recurring limit of 50, of which 20 are left, and the right to close the wallet. -/
def closer : Role := ⟨1, 2, K 12, [(Action.solRecurringLimit 50 100 90 20).toAct, Action.closeSwigAuthority.toAct]⟩

def wallet2 : Wallet := ⟨255, K 70, 3, 254, zeros 3, 0, [owner, teller, closer], none⟩

theorem wallet2_wf : wallet2.WF where
  idLen := by decide
  padLen := by decide
  counter := by decide
  subCounter := by decide
  count := by decide
  roles := by
    intro r hr
    simp only [wallet2, List.mem_cons, List.not_mem_nil, or_false] at hr
    rcases hr with rfl | rfl | rfl <;> constructor <;> decide +kernel
  idsNodup := by decide
  idsLt := by decide
  claimer := by simp [wallet2]
  size := by decide +kernel

/-- A session role as it is created, and after it a plain role with the same key. -/
def sessionFirst : Role := ⟨2, 1, (Auth.encode ⟨.ed25519 (K 11), some ⟨K 12, 1000, 0⟩⟩), [(Action.allButManageAuthority).toAct]⟩
def plainLater : Role := ⟨1, 2, K 11, [⟨P.all, []⟩]⟩

def wallet3 : Wallet := ⟨255, K 70, 3, 254, zeros 3, 0, [owner, sessionFirst, plainLater], none⟩

theorem wallet3_wf : wallet3.WF where
  idLen := by decide
  padLen := by decide
  counter := by decide
  subCounter := by decide
  count := by decide
  roles := by
    intro r hr
    simp only [wallet3, List.mem_cons, List.not_mem_nil, or_false] at hr
    rcases hr with rfl | rfl | rfl <;> constructor <;> decide +kernel
  idsNodup := by decide
  idsLt := by decide
  claimer := by simp [wallet3]
  size := by decide +kernel

/-- Whether a request succeeds and the ledger after it has a property. -/
def leads (x : R Mem) (p : Mem → Bool) : Bool :=
  match x with
  | .ok m => p m
  | .error _ => false

theorem exists_of_leads {x : R Mem} {p : Mem → Bool} (h : leads x p = true) : ∃ m, x = .ok m ∧ p m = true := by
  cases x with
  | ok m => exact ⟨m, rfl, h⟩
  | error e => cases h

end Verif.SampleSdk
