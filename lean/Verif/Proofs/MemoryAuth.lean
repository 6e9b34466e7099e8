import Verif.Proofs.Safe
import Verif.Proofs.Sysvar
import Verif.Spec.Memory

/-!
Credential checks stay inside their buffers when the instructions sysvar holds a transaction.
-/

namespace Verif

theorem TxIx.encode_length (i : TxIx) (h : i.program.length = 32) : 36 ≤ i.encode.length := by
  unfold TxIx.encode
  simp only [List.length_append, natLE_length, h]; omega

/-- Every read of an earlier instruction stays inside the sysvar. -/
theorem TxData.at {ixs : List TxIx} {cur i : Nat} (hx : TxOk ixs cur) (hi : i < cur) :
    ∃ o p n, sysIxOff (sysvarEncode ixs cur) i = .ok o ∧ Safe (sysProgram (sysvarEncode ixs cur) o) ∧
      sysDataAt (sysvarEncode ixs cur) o = .ok (p, n) ∧ Safe (rdU (sysvarEncode ixs cur) p 2) ∧
      Safe (slU (sysvarEncode ixs cur) p (p + n)) ∧ Safe (sysMetaKey (sysvarEncode ixs cur) o 0) ∧
      Safe (sysMetaKey (sysvarEncode ixs cur) o 1) := by
  have hin := hx.inTx
  have hlt : i + 1 < ixs.length := by omega
  have hsplit : ixs = ixs.take i ++ ixs[i] :: ixs.drop (i + 1) := by
    rw [List.getElem_cons_drop, List.take_append_drop]
  have htl : (ixs.take i).length = i := by simp; omega
  have hx' : TxOk (ixs.take i ++ ixs[i] :: ixs.drop (i + 1)) cur := by rw [← hsplit]; exact hx
  obtain ⟨pre, post, he, ho, hpost⟩ := sysIxOff_enc hx'
  rw [htl, ← hsplit] at ho
  rw [← hsplit] at he
  have hix := hx'.ix
  have hB : 36 ≤ ((ixs.drop (i + 1)).flatMap TxIx.encode).length := by
    rw [List.drop_eq_getElem_cons hlt, List.flatMap_cons, List.length_append]
    have := TxIx.encode_length ixs[i + 1] (hx.keys _ (List.getElem_mem hlt)).1
    omega
  have hE := TxIx.encode_length ixs[i] (hx.keys _ (List.getElem_mem (by omega))).1
  obtain ⟨g1, g2, g3⟩ := ix_fields hix pre post
  have hlen : (sysvarEncode ixs cur).length = pre.length + (ixs[i].encode.length + post.length) := by
    rw [he, List.length_append, List.length_append]
  have hp : pre.length + 2 + 33 * ixs[i].accounts.length + 34 + ixs[i].data.length = pre.length + ixs[i].encode.length := by
    have hk : ∀ l : List Meta, (∀ m ∈ l, m.key.length = 32) →
        (l.flatMap (fun m => UInt8.ofNat ((if m.signer then 1 else 0) + (if m.writable then 2 else 0)) :: m.key)).length =
          33 * l.length := by
      intro l
      induction l with
      | nil => intro _; rfl
      | cons a t ih =>
        intro h
        rw [List.flatMap_cons, List.length_append, ih (fun m hm => h m (List.mem_cons_of_mem _ hm)), List.length_cons,
          List.length_cons, h a List.mem_cons_self]; omega
    have h2 := (hx.keys _ (List.getElem_mem (show i < ixs.length by omega)))
    unfold TxIx.encode
    simp only [List.length_append, natLE_length, hk _ h2.2, h2.1]; omega
  rw [← he] at g1 g2 g3
  refine ⟨_, _, _, ho, .of_ok g1, g2, .of_ok (rdU_ok (by omega)), .of_ok g3, ?_, ?_⟩
  · exact .of_ok (slU_ok (by omega) (by omega))
  · exact .of_ok (slU_ok (by omega) (by omega))

theorem r1Core_safe {env : Env} {key dp : Bytes} {sl : Nat} {metas : List Meta} {b : Bytes} {si c : Nat} {x : Bytes}
    (hb : TxData b) : Safe (r1Core env key dp sl metas b si c x) := by
  obtain ⟨ixs, cur, hx, rfl⟩ := hb.tx
  unfold r1Core r1Hash
  refine .ite (fun _ => .error (by decide)) fun _ => ?_
  refine .bind (by safe) fun hash _ => .bind (by safe) fun msg _ => .bind (by safe) fun m _ => ?_
  refine .ite (fun _ => .error (by decide)) fun _ => ?_
  rw [sysCurrent_enc hx, ok_bind]
  refine .ite (fun _ => .error (by decide)) fun h0 => ?_
  obtain ⟨o, p, n, h1, h2, h3, h4, h5, h6, h7⟩ := TxData.at hx (show cur - 1 < cur by omega)
  rw [h1, ok_bind]
  refine .bind h2 fun prog _ => ?_
  refine .ite (fun _ => .error (by decide)) fun _ => ?_
  rw [h3, ok_bind]
  exact .bind h5 fun d _ => by safe

theorem r1Authenticate_safe {env : Env} {auth : Bytes} {metas : List Meta} {b pl dp : Bytes} (hb : TxData b) :
    Safe (r1Authenticate env auth metas b pl dp) := by
  unfold r1Authenticate
  dsimp only
  refine .ite (fun _ => .error (by decide)) fun _ => .ite (fun _ => .error (by decide)) fun _ => ?_
  exact .bind (r1Core_safe hb) fun _ _ => .ok _

theorem execTarget_safe {c : Nat} {t : Option Nat} : Safe (execTarget c t) := by unfold execTarget; safe

theorem execTarget_lt {c i : Nat} {t : Option Nat} (h : execTarget c t = .ok i) : i < c := by
  unfold execTarget at h
  cases t <;> dsimp only at h <;> split at h <;> cases h <;> omega

theorem programExecAuth_safe {metas : List Meta} {b : Bytes} {si : Nat} {pr pf : Bytes} {pl : Nat} {t : Option Nat}
    (hb : TxData b) : Safe (programExecAuth metas b si pr pf pl t) := by
  obtain ⟨ixs, cur, hx, rfl⟩ := hb.tx
  unfold programExecAuth
  refine .bind (by safe) fun m _ => ?_
  refine .ite (fun _ => .error (by decide)) fun _ => ?_
  refine .bind (by safe) fun config _ => .bind (by safe) fun wallet _ => ?_
  rw [sysCurrent_enc hx, ok_bind]
  refine .bind execTarget_safe fun i hi => ?_
  obtain ⟨o, p, n, h1, h2, h3, h4, h5, h6, h7⟩ := TxData.at hx (execTarget_lt hi)
  rw [h1, ok_bind, h3, ok_bind]
  dsimp only
  refine .bind h4 fun na _ => .ite (fun _ => .error (by decide)) fun _ => ?_
  refine .bind h2 fun prog _ => .ite (fun _ => .error (by decide)) fun _ => ?_
  refine .bind h5 fun d _ => .ite (fun _ => .error (by decide)) fun _ => ?_
  refine .bind (by safe) fun w _ => .ite (fun _ => .error (by decide)) fun _ => ?_
  exact .bind h6 fun a0 _ => .bind h7 fun a1 _ => by safe

theorem authenticate_safe {env : Env} {ty : Nat} {auth : Bytes} {metas : List Meta} {b pl dp : Bytes} (hb : TxData b) :
    Safe (authenticate env ty auth metas b pl dp) := by
  unfold authenticate execAuthenticate
  refine .ite (fun _ => by safe) fun _ => .ite (fun _ => by safe) fun _ => .ite (fun _ => r1Authenticate_safe hb) fun _ => ?_
  exact .bind (.ite (fun _ => .error (by decide)) fun _ => programExecAuth_safe hb) fun _ _ => .ok _

theorem authRole_safe {env : Env} {ty : Nat} {auth : Bytes} {metas : List Meta} {b pl dp : Bytes} (hb : TxData b) :
    Safe (authRole env ty auth metas b pl dp) := by
  unfold authRole
  exact .ite (fun _ => .bind (by safe) fun _ _ => .ok _) fun _ => authenticate_safe hb

end Verif
