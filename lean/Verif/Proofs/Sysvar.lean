import Verif.Proofs.Auth

/-! Reading the instructions sysvar. -/

namespace Verif

theorem ixOffsets_append (o : Nat) (A B : List TxIx) :
    ixOffsets o (A ++ B) = ixOffsets o A ++ ixOffsets (o + (A.flatMap TxIx.encode).length) B := by
  induction A generalizing o with
  | nil => simp [ixOffsets]
  | cons a as ih => simp only [List.cons_append, ixOffsets, ih, List.flatMap_cons, List.length_append, Nat.add_assoc]

theorem ixOffsets_length (o : Nat) (A : List TxIx) : (ixOffsets o A).length = A.length := by
  induction A generalizing o with
  | nil => rfl
  | cons a as ih => simp [ixOffsets, ih]

theorem flatMap_natLE_length (k : Nat) (l : List Nat) : (l.flatMap (natLE k)).length = k * l.length := by
  induction l with
  | nil => simp
  | cons a as ih => simp [ih, Nat.mul_add]; omega

theorem rdU_ok {b : Bytes} {i k : Nat} (h : i + k ≤ b.length) : rdU b i k = .ok (rd b i k) := by simp [rdU, h]

theorem slU_ok {b : Bytes} {i j : Nat} (h1 : i ≤ j) (h2 : j ≤ b.length) : slU b i j = .ok (sl b i j) := by simp [slU, h1, h2]

theorem rd_full (k n : Nat) (h : n < 256 ^ k) (pre post : Bytes) {i : Nat} (hi : i = pre.length) :
    rd (pre ++ (natLE k n ++ post)) i k = n := by
  subst hi
  have := rd_append3 pre (natLE k n) post 0 k (by simp)
  rw [Nat.add_zero] at this
  rw [this, rd, Nat.zero_add]
  have e : sl (natLE k n) 0 k = natLE k n := by simpa using sl_full (natLE k n)
  rw [e, leNat_natLE_of_lt h]

theorem sysCurrent_enc {ixs : List TxIx} {cur : Nat} (h : TxOk ixs cur) : sysCurrent (sysvarEncode ixs cur) = .ok cur := by
  have hc : cur < 2 ^ 16 := by
    have := h.size
    have h2 := h.inTx
    simp only [sysvarEncode, List.length_append, natLE_length, flatMap_natLE_length, ixOffsets_length] at this
    omega
  unfold sysCurrent
  have hl : ¬ (sysvarEncode ixs cur).length < 2 := by simp [sysvarEncode]
  rw [if_neg hl, rdU_ok (by omega)]
  congr 1
  have := rd_full 2 cur (by simpa using hc)
    (natLE 2 ixs.length ++ (ixOffsets (2 + 2 * ixs.length) ixs).flatMap (natLE 2) ++ ixs.flatMap TxIx.encode) []
    (i := (sysvarEncode ixs cur).length - 2) (by simp [sysvarEncode]; omega)
  simpa [sysvarEncode] using this

/-- Where an instruction is stored. -/
theorem sysIxOff_enc {A : List TxIx} {ix : TxIx} {B : List TxIx} {cur : Nat} (h : TxOk (A ++ ix :: B) cur) :
    ∃ pre post, sysvarEncode (A ++ ix :: B) cur = pre ++ (ix.encode ++ post) ∧
      sysIxOff (sysvarEncode (A ++ ix :: B) cur) A.length = .ok pre.length ∧ post.length = (B.flatMap TxIx.encode).length + 2 := by
  have hsz := h.size
  have hlen : (A ++ ix :: B).length = A.length + 1 + B.length := by simp; omega
  refine ⟨natLE 2 (A ++ ix :: B).length ++ (ixOffsets (2 + 2 * (A ++ ix :: B).length) (A ++ ix :: B)).flatMap (natLE 2) ++
    A.flatMap TxIx.encode, B.flatMap TxIx.encode ++ natLE 2 cur, ?_, ?_, ?_⟩
  · simp [sysvarEncode, List.append_assoc]
  · unfold sysIxOff
    have hb : 2 + 2 * A.length + 2 ≤ (sysvarEncode (A ++ ix :: B) cur).length := by
      simp only [sysvarEncode, List.length_append, natLE_length, flatMap_natLE_length, ixOffsets_length]
      simp; omega
    rw [rdU_ok hb]
    congr 1
    have hoff := ixOffsets_append (2 + 2 * (A ++ ix :: B).length) A (ix :: B)
    simp only [ixOffsets] at hoff
    have hlt : 2 + 2 * (A ++ ix :: B).length + (A.flatMap TxIx.encode).length < 256 ^ 2 := by
      simp only [sysvarEncode, List.length_append, natLE_length, flatMap_natLE_length, ixOffsets_length, List.flatMap_append] at hsz
      simp only [List.length_append]
      omega
    have := rd_full 2 _ hlt (natLE 2 (A ++ ix :: B).length ++ (ixOffsets (2 + 2 * (A ++ ix :: B).length) A).flatMap (natLE 2))
      ((ixOffsets (2 + 2 * (A ++ ix :: B).length + (A.flatMap TxIx.encode).length + ix.encode.length) B).flatMap (natLE 2) ++
        ((A ++ ix :: B).flatMap TxIx.encode ++ natLE 2 cur)) (i := 2 + 2 * A.length)
      (by simp only [List.length_append, natLE_length, flatMap_natLE_length, ixOffsets_length])
    have e : sysvarEncode (A ++ ix :: B) cur = (natLE 2 (A ++ ix :: B).length ++ (ixOffsets (2 + 2 * (A ++ ix :: B).length) A).flatMap (natLE 2)) ++
      (natLE 2 (2 + 2 * (A ++ ix :: B).length + (A.flatMap TxIx.encode).length) ++
      ((ixOffsets (2 + 2 * (A ++ ix :: B).length + (A.flatMap TxIx.encode).length + ix.encode.length) B).flatMap (natLE 2) ++
        ((A ++ ix :: B).flatMap TxIx.encode ++ natLE 2 cur))) := by
      unfold sysvarEncode
      rw [hoff]
      simp [List.append_assoc]
    rw [e, this]
    simp only [List.length_append, natLE_length, flatMap_natLE_length, ixOffsets_length]
  · simp

/-- Serialised account records. -/
theorem metaRecords_length (ms : List Meta) (h : ∀ m ∈ ms, m.key.length = 32) (f : Meta → UInt8) :
    (ms.flatMap (fun m => f m :: m.key)).length = 33 * ms.length := by
  induction ms with
  | nil => rfl
  | cons m ms ih =>
    simp only [List.flatMap_cons, List.length_append, List.length_cons, h m (by simp), ih (fun x hx => h x (by simp [hx]))]
    omega

structure IxOk (ix : TxIx) : Prop where
  program : ix.program.length = 32
  accounts : ∀ m ∈ ix.accounts, m.key.length = 32
  nAccounts : ix.accounts.length < 2 ^ 16
  nData : ix.data.length < 2 ^ 16

theorem TxOk.ix {A : List TxIx} {ix : TxIx} {B : List TxIx} {cur : Nat} (h : TxOk (A ++ ix :: B) cur) : IxOk ix := by
  have hk := h.keys ix (by simp)
  obtain ⟨pre, post, he, _, _⟩ := sysIxOff_enc h
  have hsz := h.size
  rw [he] at hsz
  simp only [List.length_append, TxIx.encode, natLE_length, metaRecords_length _ hk.2] at hsz
  exact ⟨hk.1, hk.2, by omega, by omega⟩

/-- The number of accounts of the instruction. -/
theorem ix_count {ix : TxIx} (h : IxOk ix) (pre post : Bytes) :
    rdU (pre ++ (ix.encode ++ post)) pre.length 2 = .ok ix.accounts.length := by
  have hm := metaRecords_length ix.accounts h.accounts
    (fun m => UInt8.ofNat ((if m.signer then 1 else 0) + (if m.writable then 2 else 0)))
  have hlen : ix.encode.length = 2 + 33 * ix.accounts.length + 32 + 2 + ix.data.length := by
    simp only [TxIx.encode, List.length_append, natLE_length, hm, h.program]
  rw [rdU_ok (by simp only [List.length_append, hlen]; omega)]
  congr 1
  have := rd_full 2 ix.accounts.length (by simpa using h.nAccounts) pre
    (ix.accounts.flatMap (fun m => UInt8.ofNat ((if m.signer then 1 else 0) + (if m.writable then 2 else 0)) :: m.key) ++
      (ix.program ++ (natLE 2 ix.data.length ++ (ix.data ++ post)))) rfl
  simpa [TxIx.encode, List.append_assoc] using this

/-- Reading an instruction record. -/
theorem ix_fields {ix : TxIx} (h : IxOk ix) (pre post : Bytes) :
    sysProgram (pre ++ (ix.encode ++ post)) pre.length = .ok ix.program ∧
    sysDataAt (pre ++ (ix.encode ++ post)) pre.length =
      .ok (pre.length + 2 + 33 * ix.accounts.length + 34, ix.data.length) ∧
    slU (pre ++ (ix.encode ++ post)) (pre.length + 2 + 33 * ix.accounts.length + 34)
      (pre.length + 2 + 33 * ix.accounts.length + 34 + ix.data.length) = .ok ix.data := by
  have hm := metaRecords_length ix.accounts h.accounts
    (fun m => UInt8.ofNat ((if m.signer then 1 else 0) + (if m.writable then 2 else 0)))
  have hlen : ix.encode.length = 2 + 33 * ix.accounts.length + 32 + 2 + ix.data.length := by
    simp only [TxIx.encode, List.length_append, natLE_length, hm, h.program]
  have hn := ix_count h pre post
  refine ⟨?_, ?_, ?_⟩
  · unfold sysProgram
    rw [hn, ok_bind, slU_ok (by omega) (by simp only [List.length_append, hlen]; omega)]
    congr 1
    have := sl_mid (pre ++ (natLE 2 ix.accounts.length ++
      ix.accounts.flatMap (fun m => UInt8.ofNat ((if m.signer then 1 else 0) + (if m.writable then 2 else 0)) :: m.key)))
      ix.program (natLE 2 ix.data.length ++ (ix.data ++ post)) (i := pre.length + 2 + 33 * ix.accounts.length)
      (j := pre.length + 2 + 33 * ix.accounts.length + 32)
      (by simp only [List.length_append, natLE_length, hm]; omega)
      (by simp only [List.length_append, natLE_length, hm, h.program]; omega)
    simpa [TxIx.encode, List.append_assoc] using this
  · unfold sysDataAt
    rw [hn, ok_bind, rdU_ok (by simp only [List.length_append, hlen]; omega)]
    have := rd_full 2 ix.data.length (by simpa using h.nData) (pre ++ (natLE 2 ix.accounts.length ++
      (ix.accounts.flatMap (fun m => UInt8.ofNat ((if m.signer then 1 else 0) + (if m.writable then 2 else 0)) :: m.key) ++ ix.program)))
      (ix.data ++ post) (i := pre.length + 2 + 33 * ix.accounts.length + 32)
      (by simp only [List.length_append, natLE_length, hm, h.program]; omega)
    have e : rd (pre ++ (ix.encode ++ post)) (pre.length + 2 + 33 * ix.accounts.length + 32) 2 = ix.data.length := by
      simpa [TxIx.encode, List.append_assoc] using this
    rw [e]
    rfl
  · rw [slU_ok (by omega) (by simp only [List.length_append, hlen]; omega)]
    congr 1
    have := sl_mid (pre ++ (natLE 2 ix.accounts.length ++
      (ix.accounts.flatMap (fun m => UInt8.ofNat ((if m.signer then 1 else 0) + (if m.writable then 2 else 0)) :: m.key) ++ (ix.program ++
      natLE 2 ix.data.length)))) ix.data post (i := pre.length + 2 + 33 * ix.accounts.length + 34)
      (j := pre.length + 2 + 33 * ix.accounts.length + 34 + ix.data.length)
      (by simp only [List.length_append, natLE_length, hm, h.program]; omega)
      (by simp only [List.length_append, natLE_length, hm, h.program]; omega)
    simpa [TxIx.encode, List.append_assoc] using this

/-- Reading the key of the `j`-th account. -/
theorem ix_meta {ix : TxIx} (h : IxOk ix) (pre post : Bytes) {j : Nat} {m : Meta} (hj : ix.accounts[j]? = some m) :
    sysMetaKey (pre ++ (ix.encode ++ post)) pre.length j = .ok m.key := by
  obtain ⟨hlt, hm⟩ := List.getElem?_eq_some_iff.mp hj
  have hml := metaRecords_length ix.accounts h.accounts
    (fun m => UInt8.ofNat ((if m.signer then 1 else 0) + (if m.writable then 2 else 0)))
  have hlen : ix.encode.length = 2 + 33 * ix.accounts.length + 32 + 2 + ix.data.length := by
    simp only [TxIx.encode, List.length_append, natLE_length, hml, h.program]
  unfold sysMetaKey
  rw [slU_ok (by omega) (by simp only [List.length_append, hlen]; omega)]
  congr 1
  have hsplit : ix.accounts = ix.accounts.take j ++ m :: ix.accounts.drop (j + 1) := by
    rw [← hm, List.getElem_cons_drop, List.take_append_drop]
  have hA := metaRecords_length (ix.accounts.take j) (fun x hx => h.accounts x (List.mem_of_mem_take hx))
    (fun m => UInt8.ofNat ((if m.signer then 1 else 0) + (if m.writable then 2 else 0)))
  have hk : m.key.length = 32 := h.accounts m (by rw [← hm]; exact List.getElem_mem hlt)
  have htl : (ix.accounts.take j).length = j := by simp; omega
  have e : ix.accounts.flatMap (fun m => UInt8.ofNat ((if m.signer then 1 else 0) + (if m.writable then 2 else 0)) :: m.key) =
      (ix.accounts.take j).flatMap (fun m => UInt8.ofNat ((if m.signer then 1 else 0) + (if m.writable then 2 else 0)) :: m.key) ++
      (UInt8.ofNat ((if m.signer then 1 else 0) + (if m.writable then 2 else 0)) :: m.key ++
      (ix.accounts.drop (j + 1)).flatMap (fun m => UInt8.ofNat ((if m.signer then 1 else 0) + (if m.writable then 2 else 0)) :: m.key)) := by
    conv => lhs; rw [hsplit]
    rw [List.flatMap_append, List.flatMap_cons]
  have := sl_mid (pre ++ (natLE 2 ix.accounts.length ++
    ((ix.accounts.take j).flatMap (fun m => UInt8.ofNat ((if m.signer then 1 else 0) + (if m.writable then 2 else 0)) :: m.key) ++
    [UInt8.ofNat ((if m.signer then 1 else 0) + (if m.writable then 2 else 0))]))) m.key
    ((ix.accounts.drop (j + 1)).flatMap (fun m => UInt8.ofNat ((if m.signer then 1 else 0) + (if m.writable then 2 else 0)) :: m.key) ++
     (ix.program ++ (natLE 2 ix.data.length ++ (ix.data ++ post))))
    (i := pre.length + 2 + 33 * j + 1) (j := pre.length + 2 + 33 * j + 33)
    (by simp only [List.length_append, natLE_length, hA, htl, List.length_singleton]; omega)
    (by simp only [List.length_append, natLE_length, hA, htl, List.length_singleton, hk]; omega)
  unfold TxIx.encode
  rw [e]
  simpa [List.append_assoc] using this

/-- The first two data bytes. -/
theorem ix_data_u16 {ix : TxIx} (h : IxOk ix) (pre post : Bytes) (hd : 2 ≤ ix.data.length) :
    rdU (pre ++ (ix.encode ++ post)) (pre.length + 2 + 33 * ix.accounts.length + 34) 2 = .ok (rd ix.data 0 2) := by
  have hm := metaRecords_length ix.accounts h.accounts
    (fun m => UInt8.ofNat ((if m.signer then 1 else 0) + (if m.writable then 2 else 0)))
  have hlen : ix.encode.length = 2 + 33 * ix.accounts.length + 32 + 2 + ix.data.length := by
    simp only [TxIx.encode, List.length_append, natLE_length, hm, h.program]
  rw [rdU_ok (by simp only [List.length_append, hlen]; omega)]
  congr 1
  have := rd_append3 (pre ++ (natLE 2 ix.accounts.length ++
      (ix.accounts.flatMap (fun m => UInt8.ofNat ((if m.signer then 1 else 0) + (if m.writable then 2 else 0)) :: m.key) ++ (ix.program ++
      natLE 2 ix.data.length)))) ix.data post 0 2 (by omega)
  have e : (pre ++ (natLE 2 ix.accounts.length ++
      (ix.accounts.flatMap (fun m => UInt8.ofNat ((if m.signer then 1 else 0) + (if m.writable then 2 else 0)) :: m.key) ++ (ix.program ++
      natLE 2 ix.data.length)))).length + 0 = pre.length + 2 + 33 * ix.accounts.length + 34 := by
    simp only [List.length_append, natLE_length, hm, h.program]; omega
  rw [e] at this
  rw [← this]
  simp [TxIx.encode, List.append_assoc]

end Verif
