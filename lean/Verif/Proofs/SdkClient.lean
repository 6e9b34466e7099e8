import Verif.Spec.SdkClient
import Verif.Spec.Authn
import Verif.Proofs.ClientActions

/-! Lemmas about the requests of the wallet object: where the credential is and what it says. -/

namespace Verif.Sdk
open Client

/-- Instruction data up to the credential: wherever it is continued, the credential begins at its end, and it names number and acting role. -/
def Frame (D : Bytes) (num role : Nat) : Prop :=
  ∀ p, credentialAt (D ++ p) = D.length ∧ actingRole (D ++ p) = role ∧ rd (D ++ p) 0 2 = num

section
variable {role : Nat} (hr : role < 2 ^ 32)
include hr

theorem addData_frame {ty : Nat} {cred : Bytes} {as : List Action} (h1 : cred.length < 2 ^ 16) (h2 : (writeActions as).length < 2 ^ 16) :
    Frame (Client.addData role ty cred as) 1 role := by
  intro p
  have e0 : rd (Client.addData role ty cred as ++ p) 0 2 = 1 := by simp [Client.addData, Client.rd_here]
  have e1 : rd (Client.addData role ty cred as ++ p) 2 2 = cred.length := by simp [Client.addData, Client.rd_skip]; exact rd_here _ _ _ (by simpa using h1)
  have e2 : rd (Client.addData role ty cred as ++ p) 4 2 = (writeActions as).length := by
    simp [Client.addData, Client.rd_skip]; exact rd_here _ _ _ (by simpa using h2)
  have e3 : rd (Client.addData role ty cred as ++ p) 12 4 = role := by
    simp [Client.addData, Client.rd_skip, -List.singleton_append, -List.cons_append]; exact rd_here 4 role _ (by simpa using hr)
  refine ⟨?_, ?_, e0⟩
  · unfold credentialAt
    rw [e0, e1, e2]
    simp [Client.addData]; omega
  · unfold actingRole
    rw [e0, e3]; rfl

theorem removeData_frame {n target : Nat} : Frame (Client.removeData n role target) 2 role := by
  intro p
  have e0 : rd (Client.removeData n role target ++ p) 0 2 = 2 := by simp [Client.removeData, Client.rd_here]
  have e3 : rd (Client.removeData n role target ++ p) 8 4 = role := by
    simp [Client.removeData, Client.rd_skip]; exact rd_here _ _ _ (by simpa using hr)
  refine ⟨?_, ?_, e0⟩
  · unfold credentialAt
    rw [e0]
    simp [Client.removeData]
  · unfold actingRole
    rw [e0, e3]; rfl

theorem updateData_frame {target : Nat} {c : Client.Change} (h : c.bytes.length < 2 ^ 16) : Frame (Client.updateData role target c) 3 role := by
  intro p
  have e0 : rd (Client.updateData role target c ++ p) 0 2 = 3 := by simp [Client.updateData, Client.rd_here]
  have e1 : rd (Client.updateData role target c ++ p) 2 2 = c.bytes.length := by
    simp [Client.updateData, Client.rd_skip]; exact rd_here _ _ _ (by simpa using h)
  have e3 : rd (Client.updateData role target c ++ p) 8 4 = role := by
    simp [Client.updateData, Client.rd_skip, -List.singleton_append, -List.cons_append]; exact rd_here 4 role _ (by simpa using hr)
  refine ⟨?_, ?_, e0⟩
  · unfold credentialAt
    rw [e0, e1]
    simp [Client.updateData]; omega
  · unfold actingRole
    rw [e0, e3]; rfl

theorem sessionData_frame {n : Nat} {key : Key} (hk : key.length = 32) : Frame (Client.sessionData role n key) 5 role := by
  intro p
  have e0 : rd (Client.sessionData role n key ++ p) 0 2 = 5 := by simp [Client.sessionData, Client.rd_here]
  have e3 : rd (Client.sessionData role n key ++ p) 4 4 = role := by
    simp [Client.sessionData, Client.rd_skip]; exact rd_here _ _ _ (by simpa using hr)
  refine ⟨?_, ?_, e0⟩
  · unfold credentialAt
    rw [e0]
    simp [Client.sessionData, hk]
  · unfold actingRole
    rw [e0, e3]; rfl

theorem claimerData_frame {key : Key} (hk : key.length = 32) : Frame (Client.claimerData role key) 17 role := by
  intro p
  have e0 : rd (Client.claimerData role key ++ p) 0 2 = 17 := by simp [Client.claimerData, Client.rd_here]
  have e3 : rd (Client.claimerData role key ++ p) 4 4 = role := by
    simp [Client.claimerData, Client.rd_skip]; exact rd_here _ _ _ (by simpa using hr)
  refine ⟨?_, ?_, e0⟩
  · unfold credentialAt
    rw [e0]
    simp [Client.claimerData, hk]
  · unfold actingRole
    rw [e0, e3]; rfl

theorem signData_frame {x : Bytes} (h : x.length < 2 ^ 16) : Frame (Client.signData role x) 11 role := by
  intro p
  have e0 : rd (Client.signData role x ++ p) 0 2 = 11 := by simp [Client.signData, Client.rd_here]
  have e1 : rd (Client.signData role x ++ p) 2 2 = x.length := by simp [Client.signData, Client.rd_skip]; exact rd_here _ _ _ (by simpa using h)
  have e3 : rd (Client.signData role x ++ p) 4 4 = role := by
    simp [Client.signData, Client.rd_skip]; exact rd_here _ _ _ (by simpa using hr)
  refine ⟨?_, ?_, e0⟩
  · unfold credentialAt
    rw [e0, e1]
    simp [Client.signData]; omega
  · unfold actingRole
    rw [e0, e3]; rfl

theorem createSubData_frame {b : UInt8} : Frame (Client.createSubData role b) 6 role := by
  intro p
  have e0 : rd (Client.createSubData role b ++ p) 0 2 = 6 := by simp [Client.createSubData, Client.rd_here]
  have e3 : rd (Client.createSubData role b ++ p) 4 4 = role := by
    simp [Client.createSubData, Client.rd_skip]; exact rd_here _ _ _ (by simpa using hr)
  refine ⟨?_, ?_, e0⟩
  · unfold credentialAt
    rw [e0]
    simp [Client.createSubData]
  · unfold actingRole
    rw [e0, e3]; rfl

theorem withdrawSubData_frame {n : Nat} : Frame (Client.withdrawSubData role n) 7 role := by
  intro p
  have e0 : rd (Client.withdrawSubData role n ++ p) 0 2 = 7 := by simp [Client.withdrawSubData, Client.rd_here]
  have e3 : rd (Client.withdrawSubData role n ++ p) 4 4 = role := by
    simp [Client.withdrawSubData, Client.rd_skip]; exact rd_here _ _ _ (by simpa using hr)
  refine ⟨?_, ?_, e0⟩
  · unfold credentialAt
    rw [e0]
    simp [Client.withdrawSubData]
  · unfold actingRole
    rw [e0, e3]; rfl

theorem subSignData_frame {x : Bytes} (h : x.length < 2 ^ 16) : Frame (Client.subSignData role x) 9 role := by
  intro p
  have e0 : rd (Client.subSignData role x ++ p) 0 2 = 9 := by simp [Client.subSignData, Client.rd_here]
  have e1 : rd (Client.subSignData role x ++ p) 2 2 = x.length := by simp [Client.subSignData, Client.rd_skip]; exact rd_here _ _ _ (by simpa using h)
  have e3 : rd (Client.subSignData role x ++ p) 4 4 = role := by
    simp [Client.subSignData, Client.rd_skip]; exact rd_here _ _ _ (by simpa using hr)
  refine ⟨?_, ?_, e0⟩
  · unfold credentialAt
    rw [e0, e1]
    simp [Client.subSignData]; omega
  · unfold actingRole
    rw [e0, e3]; rfl

theorem toggleSubData_frame {t : Nat} {b : Bool} : Frame (Client.toggleSubData t role b) 10 role := by
  intro p
  have e0 : rd (Client.toggleSubData t role b ++ p) 0 2 = 10 := by simp [Client.toggleSubData, Client.rd_here]
  have e3 : rd (Client.toggleSubData t role b ++ p) 12 4 = role := by
    simp [Client.toggleSubData, Client.rd_skip, -List.singleton_append, -List.cons_append]; exact rd_here 4 role _ (by simpa using hr)
  refine ⟨?_, ?_, e0⟩
  · unfold credentialAt
    rw [e0]
    simp [Client.toggleSubData]
  · unfold actingRole
    rw [e0, e3]; rfl

theorem createSubV2Data_frame {a b : UInt8} : Frame (Client.createSubV2Data role a b) 18 role := by
  intro p
  have e0 : rd (Client.createSubV2Data role a b ++ p) 0 2 = 18 := by simp [Client.createSubV2Data, Client.rd_here]
  have e3 : rd (Client.createSubV2Data role a b ++ p) 4 4 = role := by
    simp [Client.createSubV2Data, Client.rd_skip]; exact rd_here _ _ _ (by simpa using hr)
  refine ⟨?_, ?_, e0⟩
  · unfold credentialAt
    rw [e0]
    simp [Client.createSubV2Data]
  · unfold actingRole
    rw [e0, e3]; rfl

theorem toggleSubV2Data_frame {id : Nat} {b : Bool} : Frame (Client.toggleSubV2Data role id b) 19 role := by
  intro p
  have e0 : rd (Client.toggleSubV2Data role id b ++ p) 0 2 = 19 := by simp [Client.toggleSubV2Data, Client.rd_here]
  have e3 : rd (Client.toggleSubV2Data role id b ++ p) 4 4 = role := by
    simp [Client.toggleSubV2Data, Client.rd_skip, -List.singleton_append, -List.cons_append]; exact rd_here 4 role _ (by simpa using hr)
  refine ⟨?_, ?_, e0⟩
  · unfold credentialAt
    rw [e0]
    simp [Client.toggleSubV2Data]
  · unfold actingRole
    rw [e0, e3]; rfl

theorem subSignV2Data_frame {id : Nat} {x : Bytes} (h : x.length < 2 ^ 16) : Frame (Client.subSignV2Data role id x) 20 role := by
  intro p
  have e0 : rd (Client.subSignV2Data role id x ++ p) 0 2 = 20 := by simp [Client.subSignV2Data, Client.rd_here]
  have e1 : rd (Client.subSignV2Data role id x ++ p) 2 2 = x.length := by
    simp [Client.subSignV2Data, Client.rd_skip]; exact rd_here _ _ _ (by simpa using h)
  have e3 : rd (Client.subSignV2Data role id x ++ p) 4 4 = role := by
    simp [Client.subSignV2Data, Client.rd_skip]; exact rd_here _ _ _ (by simpa using hr)
  refine ⟨?_, ?_, e0⟩
  · unfold credentialAt
    rw [e0, e1]
    simp [Client.subSignV2Data]; omega
  · unfold actingRole
    rw [e0, e3]; rfl

theorem withdrawSubV2Data_frame {id n : Nat} : Frame (Client.withdrawSubV2Data role id n) 21 role := by
  intro p
  have e0 : rd (Client.withdrawSubV2Data role id n ++ p) 0 2 = 21 := by simp [Client.withdrawSubV2Data, Client.rd_here]
  have e3 : rd (Client.withdrawSubV2Data role id n ++ p) 4 4 = role := by
    simp [Client.withdrawSubV2Data, Client.rd_skip]; exact rd_here _ _ _ (by simpa using hr)
  refine ⟨?_, ?_, e0⟩
  · unfold credentialAt
    rw [e0]
    simp [Client.withdrawSubV2Data]
  · unfold actingRole
    rw [e0, e3]; rfl

end

/-- What a builder appends as the credential of a caller. -/
inductive Pays : Caller → Bytes → Prop
  | ed (k : Key) (i : UInt8) : Pays (.ed25519 k) [i]
  | k1 (sign : Bytes → Bytes) (slot counter : Nat) (m : Bytes) :
      Pays (.secp256k1 sign slot counter) (natLE 8 slot ++ natLE 4 counter ++ sign m)
  | k1Old (sign : Bytes → Bytes) (slot counter : Nat) (m : Bytes) : Pays (.secp256k1 sign slot counter) (natLE 8 slot ++ sign m)
  | r1 (sign : Bytes → Bytes) (pk : Bytes) (slot counter : Nat) (i : UInt8) :
      Pays (.secp256r1 sign pk slot counter) (natLE 8 slot ++ natLE 4 counter ++ [i] ++ zeros 4)
  | r1Old (sign : Bytes → Bytes) (pk : Bytes) (slot counter : Nat) (i : UInt8) :
      Pays (.secp256r1 sign pk slot counter) (natLE 8 slot ++ natLE 4 counter ++ [i])
  | exec (p : TxIx) (i : UInt8) : Pays (.exec p none) [i]
  | execAt (p : TxIx) (i j : UInt8) : Pays (.exec p (some j)) [i, j]

theorem pays_exec (p : TxIx) (t : Option UInt8) (i : UInt8) : Pays (.exec p t) (match t with | some j => [i, j] | none => [i]) := by
  cases t with
  | none => exact .exec p i
  | some j => exact .execAt p i j

theorem manageBy_split (env : Env) (swig payer : Key) (D : Bytes) (c : Caller) : ∃ p, (manageBy env swig payer D c).data = D ++ p ∧ Pays c p := by
  cases c with
  | ed25519 k => exact ⟨_, rfl, .ed k 3⟩
  | secp256k1 sign slot counter => exact ⟨_, rfl, .k1 sign slot counter _⟩
  | secp256r1 sign pk slot counter => exact ⟨_, rfl, .r1 sign pk slot counter 3⟩
  | exec p t => exact ⟨_, rfl, pays_exec p t 3⟩

theorem signV2_split (env : Env) (swig wallet payer : Key) (role : Nat) (inner : FullIx) (signers : List Key) (c : Caller) :
    ∃ x p, (Client.signV2 env swig wallet payer role inner signers c).data = Client.signData role x ++ p ∧ Pays c p := by
  cases c with
  | ed25519 k => exact ⟨_, _, rfl, .ed k 2⟩
  | secp256k1 sign slot counter => exact ⟨_, _, rfl, .k1 sign slot counter _⟩
  | secp256r1 sign pk slot counter => exact ⟨_, _, rfl, .r1 sign pk slot counter 3⟩
  | exec p t => exact ⟨_, _, rfl, pays_exec p t _⟩

/-- Every instruction of a request is a frame followed by the credential of the caller. -/
theorem build_split {env : Env} {o : Obj} {c : Caller} {q : Req} {bs : List Built} {b : Built} (h : o.build env c q = some bs) (hb : b ∈ bs)
    (hs : b.data.length ≤ 1232) (hrole : o.role < 2 ^ 32) (hq : q.Sized) :
    ∃ D p, b.data = D ++ p ∧ Pays c p ∧ Frame D q.number (q.acting o.role) := by
  cases q with
  | addAuthority ty cred ps =>
    cases h
    simp only [List.mem_singleton] at hb
    subst hb
    obtain ⟨p, h1, h2⟩ := manageBy_split env o.swig o.payer (Client.addData o.role ty (o.holder.newAuthority cred) (toClientActions ps)) c
    refine ⟨_, p, h1, h2, ?_⟩
    have : (Client.addData o.role ty (o.holder.newAuthority cred) (toClientActions ps)).length ≤ 1232 := by
      have := congrArg List.length h1
      rw [List.length_append] at this
      have hs : (manageBy env o.swig o.payer (Client.addData o.role ty (o.holder.newAuthority cred) (toClientActions ps)) c).data.length ≤ 1232 := hs
      omega
    simp only [Client.addData, List.length_append] at this
    exact addData_frame hrole (by omega) (by omega)
  | removeAuthority target =>
    cases h
    simp only [List.mem_singleton] at hb
    subst hb
    have key : ∃ n p, (Client.removeAuthority env o.swig o.payer o.role target c).data = Client.removeData n o.role target ++ p ∧ Pays c p := by
      cases c with
      | ed25519 k => obtain ⟨p, h⟩ := manageBy_split env o.swig o.payer (Client.removeData 1 o.role target) (.ed25519 k); exact ⟨1, p, h⟩
      | secp256k1 f s n => obtain ⟨p, h⟩ := manageBy_split env o.swig o.payer (Client.removeData 65 o.role target) (.secp256k1 f s n); exact ⟨65, p, h⟩
      | secp256r1 f k s n => obtain ⟨p, h⟩ := manageBy_split env o.swig o.payer (Client.removeData 17 o.role target) (.secp256r1 f k s n); exact ⟨17, p, h⟩
      | exec x t => obtain ⟨p, h⟩ := manageBy_split env o.swig o.payer (Client.removeData 1 o.role target) (.exec x t); exact ⟨1, p, h⟩
    obtain ⟨n, p, h1, h2⟩ := key
    exact ⟨_, p, h1, h2, removeData_frame hrole⟩
  | updateAuthority target u =>
    cases h
    simp only [List.mem_singleton] at hb
    subst hb
    obtain ⟨p, h1, h2⟩ := manageBy_split env o.swig o.payer (Client.updateData o.role target u.toChange) c
    refine ⟨_, p, h1, h2, ?_⟩
    have : (Client.updateData o.role target u.toChange).length ≤ 1232 := by
      have := congrArg List.length h1
      rw [List.length_append] at this
      have hs : (manageBy env o.swig o.payer (Client.updateData o.role target u.toChange) c).data.length ≤ 1232 := hs
      omega
    simp only [Client.updateData, List.length_append] at this
    exact updateData_frame hrole (by omega)
  | createSession key n =>
    cases h
    simp only [List.mem_singleton] at hb
    subst hb
    have split : ∃ p, (Client.createSession env o.swig o.payer o.role n key c).data = Client.sessionData o.role n key ++ p ∧ Pays c p := by
      cases c with
      | ed25519 k => exact ⟨_, rfl, .ed k 2⟩
      | secp256k1 f s m => exact manageBy_split env o.swig o.payer (Client.sessionData o.role n key) (.secp256k1 f s m)
      | secp256r1 f k s m => exact manageBy_split env o.swig o.payer (Client.sessionData o.role n key) (.secp256r1 f k s m)
      | exec x t => exact manageBy_split env o.swig o.payer (Client.sessionData o.role n key) (.exec x t)
    obtain ⟨p, h1, h2⟩ := split
    exact ⟨_, p, h1, h2, sessionData_frame hrole hq⟩
  | setRentClaimer k =>
    have split : ∀ b, Client.setRentClaimer env o.swig o.payer o.role k c = some b →
        ∃ p, b.data = Client.claimerData o.role k ++ p ∧ Pays c p := by
      intro b hb
      cases c with
      | exec x t => cases hb
      | ed25519 k' => cases hb; exact manageBy_split env o.swig o.payer (Client.claimerData o.role k) (.ed25519 k')
      | secp256k1 f s m => cases hb; exact manageBy_split env o.swig o.payer (Client.claimerData o.role k) (.secp256k1 f s m)
      | secp256r1 f k' s m => cases hb; exact manageBy_split env o.swig o.payer (Client.claimerData o.role k) (.secp256r1 f k' s m)
    simp only [Obj.build, Option.map_eq_some_iff] at h
    obtain ⟨b', h', rfl⟩ := h
    simp only [List.mem_singleton] at hb
    subst hb
    obtain ⟨p, h1, h2⟩ := split _ h'
    exact ⟨_, p, h1, h2, claimerData_frame hrole hq⟩
  | signV2 inner =>
    cases h
    have key : ∃ i, b = Client.signV2 env o.swig o.wallet o.payer o.role i [o.payer] c := by
      unfold Obj.signs at hb
      split at hb
      · simp only [List.mem_singleton] at hb; exact ⟨_, hb⟩
      · obtain ⟨i, _, rfl⟩ := List.mem_map.mp hb; exact ⟨i, rfl⟩
    obtain ⟨i, rfl⟩ := key
    obtain ⟨x, p, h1, h2⟩ := signV2_split env o.swig o.wallet o.payer o.role i [o.payer] c
    refine ⟨_, p, h1, h2, ?_⟩
    rw [h1, List.length_append] at hs
    simp only [Client.signData, List.length_append] at hs
    exact signData_frame hrole (by omega)
  | createSubV1 sub bump =>
    cases h
    simp only [List.mem_singleton] at hb
    subst hb
    have split : ∃ p, (Client.createSubV1 env o.swig o.payer sub o.role bump c).data = Client.createSubData o.role bump ++ p ∧ Pays c p := by
      cases c with
      | ed25519 k => exact ⟨_, rfl, .ed k 4⟩
      | secp256k1 f s m => exact ⟨_, rfl, .k1Old f s m _⟩
      | secp256r1 f k s m => exact ⟨_, rfl, .r1Old f k s m 4⟩
      | exec x t => exact ⟨_, rfl, pays_exec x t 4⟩
    obtain ⟨p, h1, h2⟩ := split
    exact ⟨_, p, h1, h2, createSubData_frame hrole⟩
  | signSubV1 sub inner =>
    cases h
    simp only [List.mem_singleton] at hb
    subst hb
    have split : ∃ x p, (Client.subSignV1 env o.swig o.subPayer sub o.role inner c).data = Client.subSignData o.role x ++ p ∧ Pays c p := by
      cases c with
      | ed25519 k => exact ⟨_, _, rfl, .ed k 3⟩
      | secp256k1 f s m => exact ⟨_, _, rfl, .k1Old f s m _⟩
      | secp256r1 f k s m => exact ⟨_, _, rfl, .r1Old f k s m 4⟩
      | exec x t => exact ⟨_, _, rfl, pays_exec x t 4⟩
    obtain ⟨x, p, h1, h2⟩ := split
    refine ⟨_, p, h1, h2, ?_⟩
    rw [h1, List.length_append] at hs
    simp only [Client.subSignData, List.length_append] at hs
    exact subSignData_frame hrole (by omega)
  | withdrawSubV1 sub amount =>
    cases h
    simp only [List.mem_singleton] at hb
    subst hb
    have split : ∃ p, (Client.withdrawSubV1 env o.swig o.payer sub o.wallet o.role amount c).data =
        Client.withdrawSubData o.role amount ++ p ∧ Pays c p := by
      cases c with
      | ed25519 k => exact ⟨_, rfl, .ed k 3⟩
      | secp256k1 f s m => exact ⟨_, rfl, .k1Old f s m _⟩
      | secp256r1 f k s m => exact ⟨_, rfl, .r1 f k s m 3⟩
      | exec x t => exact ⟨_, rfl, pays_exec x t 5⟩
    obtain ⟨p, h1, h2⟩ := split
    exact ⟨_, p, h1, h2, withdrawSubData_frame hrole⟩
  | withdrawSubTokenV1 sub t amount =>
    cases h
    simp only [List.mem_singleton] at hb
    subst hb
    have split : ∃ p, (Client.withdrawSubTokenV1 env o.swig o.payer sub o.wallet t o.role amount c).data =
        Client.withdrawSubData o.role amount ++ p ∧ Pays c p := by
      cases c with
      | ed25519 k => exact ⟨_, rfl, .ed k 3⟩
      | secp256k1 f s m => exact ⟨_, rfl, .k1Old f s m _⟩
      | secp256r1 f k s m => exact ⟨_, rfl, .r1Old f k s m 3⟩
      | exec x t => exact ⟨_, rfl, pays_exec x t 8⟩
    obtain ⟨p, h1, h2⟩ := split
    exact ⟨_, p, h1, h2, withdrawSubData_frame hrole⟩
  | toggleSubV1 sub role authRole enabled =>
    cases h
    simp only [List.mem_singleton] at hb
    subst hb
    have split : ∃ p, (Client.toggleSubV1 env o.swig o.payer sub role authRole enabled c).data =
        Client.toggleSubData role authRole enabled ++ p ∧ Pays c p := by
      cases c with
      | ed25519 k => exact ⟨_, rfl, .ed k 3⟩
      | secp256k1 f s m => exact ⟨_, rfl, .k1Old f s m _⟩
      | secp256r1 f k s m => exact ⟨_, rfl, .r1Old f k s m 4⟩
      | exec x t => exact ⟨_, rfl, pays_exec x t 3⟩
    obtain ⟨p, h1, h2⟩ := split
    exact ⟨_, p, h1, h2, toggleSubData_frame hq.2⟩
  | createSubV2 state sub sb ab =>
    have split : ∀ b, Client.createSubV2 env o.swig o.payer state sub o.role sb ab c = some b →
        ∃ p, b.data = Client.createSubV2Data o.role sb ab ++ p ∧ Pays c p := by
      intro b hb
      cases c with
      | exec x t => cases hb
      | ed25519 k => cases hb; exact ⟨_, rfl, .ed k 5⟩
      | secp256k1 f s m => cases hb; exact ⟨_, rfl, .k1 f s m _⟩
      | secp256r1 f k s m => cases hb; exact ⟨_, rfl, .r1 f k s m 5⟩
    simp only [Obj.build, Option.map_eq_some_iff] at h
    obtain ⟨b', h', rfl⟩ := h
    simp only [List.mem_singleton] at hb
    subst hb
    obtain ⟨p, h1, h2⟩ := split _ h'
    exact ⟨_, p, h1, h2, createSubV2Data_frame hrole⟩
  | signSubV2 state sub id inner =>
    have split : ∀ b, Client.subSignV2 env o.swig state sub o.role id inner c = some b →
        ∃ x p, b.data = Client.subSignV2Data o.role id x ++ p ∧ Pays c p := by
      intro b hb
      cases c with
      | exec x t => cases hb
      | ed25519 k => cases hb; exact ⟨_, _, rfl, .ed k 4⟩
      | secp256k1 f s m => cases hb; exact ⟨_, _, rfl, .k1 f s m _⟩
      | secp256r1 f k s m => cases hb; exact ⟨_, _, rfl, .r1 f k s m 4⟩
    simp only [Obj.build, Option.map_eq_some_iff] at h
    obtain ⟨b', h', rfl⟩ := h
    simp only [List.mem_singleton] at hb
    subst hb
    obtain ⟨x, p, h1, h2⟩ := split _ h'
    refine ⟨_, p, h1, h2, ?_⟩
    rw [h1, List.length_append] at hs
    simp only [Client.subSignV2Data, List.length_append] at hs
    exact subSignV2Data_frame hrole (by omega)
  | withdrawSubV2 state sub t id amount =>
    have split : ∀ b, Client.withdrawSubV2 env o.swig o.payer state sub o.wallet t o.role id amount c = some b →
        ∃ p, b.data = Client.withdrawSubV2Data o.role id amount ++ p ∧ Pays c p := by
      intro b hb
      cases c with
      | exec x t => cases hb
      | ed25519 k => cases hb; exact ⟨_, rfl, .ed k 5⟩
      | secp256k1 f s m => cases hb; exact ⟨_, rfl, .k1 f s m _⟩
      | secp256r1 f k s m => cases hb; exact ⟨_, rfl, .r1 f k s m 5⟩
    simp only [Obj.build, Option.map_eq_some_iff] at h
    obtain ⟨b', h', rfl⟩ := h
    simp only [List.mem_singleton] at hb
    subst hb
    obtain ⟨p, h1, h2⟩ := split _ h'
    exact ⟨_, p, h1, h2, withdrawSubV2Data_frame hrole⟩
  | toggleSubV2 state id enabled =>
    have split : ∀ b, Client.toggleSubV2 env o.swig o.payer state o.role id enabled c = some b →
        ∃ p, b.data = Client.toggleSubV2Data o.role id enabled ++ p ∧ Pays c p := by
      intro b hb
      cases c with
      | exec x t => cases hb
      | ed25519 k => cases hb; exact ⟨_, rfl, .ed k 3⟩
      | secp256k1 f s m => cases hb; exact ⟨_, rfl, .k1 f s m _⟩
      | secp256r1 f k s m => cases hb; exact ⟨_, rfl, .r1 f k s m 4⟩
    simp only [Obj.build, Option.map_eq_some_iff] at h
    obtain ⟨b', h', rfl⟩ := h
    simp only [List.mem_singleton] at hb
    subst hb
    obtain ⟨p, h1, h2⟩ := split _ h'
    exact ⟨_, p, h1, h2, toggleSubV2Data_frame hrole⟩

end Verif.Sdk
