import Verif.Props.Auth
import Verif.Props.Approve
import Verif.Proofs.ReplaceHandler

/-!
# C112: each kind of credential is accepted exactly when its stated conditions hold

C31 gives the two directions for Ed25519 and Secp256k1, C108 for program-execution roles whose request names the approving instruction.  Here are
the rest: sessions of every kind, Secp256r1, and program-execution requests that leave the instruction out.
-/
namespace Verif

/-! ### Specification -/

/-- The data of an instruction for the secp256r1 precompile with one signature, in the layout the program insists on: the header, the key, a signature,
the message, anything.  The position of the signature in the header (`at'`) is free: the precompile reads it, the program does not. -/
def PrecompileData (d key msg : Bytes) : Prop :=
  ∃ (x : UInt8) (at' : Nat) (sig rest : Bytes), sig.length = 64 ∧ msg.length < 2 ^ 16 ∧ 32 ≤ msg.length + rest.length ∧
    d = [1, x] ++ natLE 2 at' ++ natLE 2 0xFFFF ++ natLE 2 16 ++ natLE 2 0xFFFF ++ natLE 2 113 ++ natLE 2 msg.length ++ natLE 2 0xFFFF ++
      key ++ sig ++ msg ++ rest

/-- Credentials whose sessions demand a payload of one byte. -/
def Cred.oneByte : Cred → Bool
  | .ed25519 .. => true
  | .exec .. => true
  | _ => false

/-! ### Sessions -/

/-- Exactly when a session is accepted: it has not expired, the first byte of the payload is the position of an account that holds the session key and
signed, and for Ed25519 and program-execution roles there is no further byte.  Neither the request nor the long-term credential counts. -/
theorem C112_session (env : Env) (a : Auth) (s : Session) (metas : List Meta) (payload : Bytes) (hw : a.WF) (hs : a.session = some s) :
    authenticateSession env a.ty a.encode metas payload = .ok () ↔
      env.slot ≤ s.expiry ∧ ∃ i rest, payload = i :: rest ∧ SignedBy metas i.toNat s.key ∧ (a.cred.oneByte = true → rest = []) := by
  obtain ⟨hk, hm, he⟩ := Auth.session_fields hw hs
  have hpay : ∀ i rest, sessionPayloadOk a.ty (i :: rest) = .ok () ↔ (a.cred.oneByte = true → rest = []) := by
    intro i rest
    cases a with | mk c t =>
    cases hs
    cases c <;> cases rest <;> simp [sessionPayloadOk, Auth.ty, Cred.oneByte, T.ed25519Session, T.programExecSession, T.secp256r1Session]
  unfold authenticateSession
  rw [if_neg (by simp [Auth.sessionBased_iff, hs]), hk, he]
  cases payload with
  | nil =>
    constructor
    · intro h
      obtain ⟨_, _, h⟩ := bind_ok_iff.mp h
      split at h <;> simp at h
    · rintro ⟨_, i, rest, h, _⟩; cases h
  | cons i rest =>
    have e : (i :: rest).getD 0 0 = i := rfl
    rw [e]
    constructor
    · intro h
      obtain ⟨_, h1, h2⟩ := bind_ok_iff.mp h
      split at h2
      · cases h2
      · rename_i hx
        rw [if_neg (by simp)] at h2
        exact ⟨by omega, i, rest, rfl, (ed25519Auth_iff metas i.toNat s.key).mp h2, (hpay i rest).mp h1⟩
    · rintro ⟨h1, i', rest', h2, h3, h4⟩
      cases h2
      rw [(hpay i rest).mpr h4, ok_bind, if_neg (by omega), if_neg (by simp)]
      exact (ed25519Auth_iff metas i.toNat s.key).mpr h3

/-! ### Secp256r1 -/

private theorem sl_cons_all (d : Bytes) {n : Nat} (hn : 113 + n ≤ d.length) :
    d = sl d 0 1 ++ sl d 1 2 ++ sl d 2 4 ++ sl d 4 6 ++ sl d 6 8 ++ sl d 8 10 ++ sl d 10 12 ++ sl d 12 14 ++ sl d 14 16 ++ sl d 16 49 ++ sl d 49 113 ++
      sl d 113 (113 + n) ++ sl d (113 + n) d.length := by
  rw [← sl_split d 0 1 2 (by omega) (by omega), ← sl_split d 0 2 4 (by omega) (by omega), ← sl_split d 0 4 6 (by omega) (by omega),
    ← sl_split d 0 6 8 (by omega) (by omega), ← sl_split d 0 8 10 (by omega) (by omega), ← sl_split d 0 10 12 (by omega) (by omega),
    ← sl_split d 0 12 14 (by omega) (by omega), ← sl_split d 0 14 16 (by omega) (by omega), ← sl_split d 0 16 49 (by omega) (by omega),
    ← sl_split d 0 49 113 (by omega) (by omega), ← sl_split d 0 113 _ (by omega) (by omega), ← sl_split d 0 _ _ (by omega) (by omega), sl_full]

theorem verifyR1Data_iff {d key msg : Bytes} (hk : key.length = 33) : verifyR1Data d key msg = .ok () ↔ PrecompileData d key msg := by
  constructor
  · intro h
    unfold verifyR1Data at h
    by_cases h0 : d.length < 16
    · simp only [if_pos h0] at h; cases h
    by_cases h1 : (d.getD 0 0).toNat ≠ 1
    · simp only [if_neg h0, if_pos h1] at h; cases h
    by_cases hb : d.length < 113 + 32
    · simp only [if_neg h0, if_neg h1, if_pos hb] at h; cases h
    by_cases h2 : rd d 4 2 ≠ 0xFFFF
    · simp only [if_neg h0, if_neg h1, if_neg hb, if_pos h2] at h; cases h
    by_cases h3 : rd d 8 2 ≠ 0xFFFF
    · simp only [if_neg h0, if_neg h1, if_neg hb, if_neg h2, if_pos h3] at h; cases h
    by_cases h4 : rd d 14 2 ≠ 0xFFFF
    · simp only [if_neg h0, if_neg h1, if_neg hb, if_neg h2, if_neg h3, if_pos h4] at h; cases h
    by_cases h5 : rd d 6 2 ≠ 16
    · simp only [if_neg h0, if_neg h1, if_neg hb, if_neg h2, if_neg h3, if_neg h4, if_pos h5] at h; cases h
    by_cases h6 : rd d 10 2 ≠ 113
    · simp only [if_neg h0, if_neg h1, if_neg hb, if_neg h2, if_neg h3, if_neg h4, if_neg h5, if_pos h6] at h; cases h
    by_cases h7 : rd d 12 2 ≠ msg.length
    · simp only [if_neg h0, if_neg h1, if_neg hb, if_neg h2, if_neg h3, if_neg h4, if_neg h5, if_neg h6, if_pos h7] at h; cases h
    simp only [if_neg h0, if_neg h1, if_neg hb, if_neg h2, if_neg h3, if_neg h4, if_neg h5, if_neg h6, if_neg h7] at h
    obtain ⟨m, hm, h'⟩ := bind_ok_iff.mp h
    obtain ⟨_, hle, hm⟩ := slice_eq_ok hm
    subst hm
    by_cases h8 : sl d 16 49 ≠ key
    · rw [if_pos h8] at h'; cases h'
    rw [if_neg h8] at h'
    by_cases h9 : sl d 113 (113 + msg.length) ≠ msg
    · rw [if_pos h9] at h'; cases h'
    have h1 := Decidable.of_not_not h1
    have h2 := Decidable.of_not_not h2
    have h3 := Decidable.of_not_not h3
    have h4 := Decidable.of_not_not h4
    have h5 := Decidable.of_not_not h5
    have h6 := Decidable.of_not_not h6
    have h7 := Decidable.of_not_not h7
    have h8 := Decidable.of_not_not h8
    have h9 := Decidable.of_not_not h9
    refine ⟨d.getD 1 0, rd d 2 2, sl d 49 113, sl d (113 + msg.length) d.length, sl_length_of_le (by omega), ?_, ?_, ?_⟩
    · have := rd_lt d 12 2; rw [h7] at this; simpa using this
    · rw [sl_length_of_le (by omega)]; omega
    · have e0 : sl d 0 1 = [1] := by
        rw [← getD_sl d 0 (by omega)]
        exact congrArg (fun z => [z]) (UInt8.toNat_inj.mp h1)
      have e1 := getD_sl d 1 (by omega)
      have e2 := natLE_sl d 2 2 (by omega)
      have e4 := natLE_sl d 4 2 (by omega)
      have e6 := natLE_sl d 6 2 (by omega)
      have e8 := natLE_sl d 8 2 (by omega)
      have e10 := natLE_sl d 10 2 (by omega)
      have e12 := natLE_sl d 12 2 (by omega)
      have e14 := natLE_sl d 14 2 (by omega)
      rw [h2] at e4
      rw [h5] at e6
      rw [h3] at e8
      rw [h6] at e10
      rw [h7] at e12
      rw [h4] at e14
      have all := sl_cons_all d hle
      rw [e0, ← e1, ← e2, ← e4, ← e6, ← e8, ← e10, ← e12, ← e14, h8, h9] at all
      exact all
  · rintro ⟨x, p, sig, rest, hs, hm, hr, rfl⟩
    simp only [List.append_assoc]
    generalize hd : ([1, x] ++ (natLE 2 p ++ (natLE 2 0xFFFF ++ (natLE 2 16 ++ (natLE 2 0xFFFF ++ (natLE 2 113 ++ (natLE 2 msg.length ++
      (natLE 2 0xFFFF ++ (key ++ (sig ++ (msg ++ rest))))))))) : Bytes)) = d
    have hlen : d.length = 113 + msg.length + rest.length := by
      rw [← hd]; simp only [List.length_append, natLE_length, List.length_cons, List.length_nil, hk, hs]; omega
    have f0 : d.getD 0 0 = 1 := by rw [← hd]; rfl
    have f4 : rd d 4 2 = 0xFFFF := by
      have := rd_full 2 0xFFFF (by decide) ([1, x] ++ natLE 2 p) (natLE 2 16 ++ (natLE 2 0xFFFF ++ (natLE 2 113 ++ (natLE 2 msg.length ++
        (natLE 2 0xFFFF ++ (key ++ (sig ++ (msg ++ rest)))))))) (i := 4) (by simp)
      rw [← hd]; simpa only [List.append_assoc] using this
    have f6 : rd d 6 2 = 16 := by
      have := rd_full 2 16 (by decide) ([1, x] ++ natLE 2 p ++ natLE 2 0xFFFF) (natLE 2 0xFFFF ++ (natLE 2 113 ++ (natLE 2 msg.length ++
        (natLE 2 0xFFFF ++ (key ++ (sig ++ (msg ++ rest))))))) (i := 6) (by simp)
      rw [← hd]; simpa only [List.append_assoc] using this
    have f8 : rd d 8 2 = 0xFFFF := by
      have := rd_full 2 0xFFFF (by decide) ([1, x] ++ natLE 2 p ++ natLE 2 0xFFFF ++ natLE 2 16) (natLE 2 113 ++ (natLE 2 msg.length ++
        (natLE 2 0xFFFF ++ (key ++ (sig ++ (msg ++ rest)))))) (i := 8) (by simp)
      rw [← hd]; simpa only [List.append_assoc] using this
    have f10 : rd d 10 2 = 113 := by
      have := rd_full 2 113 (by decide) ([1, x] ++ natLE 2 p ++ natLE 2 0xFFFF ++ natLE 2 16 ++ natLE 2 0xFFFF) (natLE 2 msg.length ++
        (natLE 2 0xFFFF ++ (key ++ (sig ++ (msg ++ rest))))) (i := 10) (by simp)
      rw [← hd]; simpa only [List.append_assoc] using this
    have f12 : rd d 12 2 = msg.length := by
      have := rd_full 2 msg.length (by simpa using hm) ([1, x] ++ natLE 2 p ++ natLE 2 0xFFFF ++ natLE 2 16 ++ natLE 2 0xFFFF ++ natLE 2 113)
        (natLE 2 0xFFFF ++ (key ++ (sig ++ (msg ++ rest)))) (i := 12) (by simp)
      rw [← hd]; simpa only [List.append_assoc] using this
    have f14 : rd d 14 2 = 0xFFFF := by
      have := rd_full 2 0xFFFF (by decide) ([1, x] ++ natLE 2 p ++ natLE 2 0xFFFF ++ natLE 2 16 ++ natLE 2 0xFFFF ++ natLE 2 113 ++ natLE 2 msg.length)
        (key ++ (sig ++ (msg ++ rest))) (i := 14) (by simp)
      rw [← hd]; simpa only [List.append_assoc] using this
    have fk : sl d 16 49 = key := by
      have := sl_mid ([1, x] ++ natLE 2 p ++ natLE 2 0xFFFF ++ natLE 2 16 ++ natLE 2 0xFFFF ++ natLE 2 113 ++ natLE 2 msg.length ++ natLE 2 0xFFFF)
        key (sig ++ (msg ++ rest)) (i := 16) (j := 49) (by simp) (by simp [hk])
      rw [← hd]; simpa only [List.append_assoc] using this
    have fm : sl d 113 (113 + msg.length) = msg := by
      have := sl_mid ([1, x] ++ natLE 2 p ++ natLE 2 0xFFFF ++ natLE 2 16 ++ natLE 2 0xFFFF ++ natLE 2 113 ++ natLE 2 msg.length ++ natLE 2 0xFFFF ++ key ++ sig)
        msg rest (i := 113) (j := 113 + msg.length) (by simp [hk, hs]) (by simp [hk, hs])
      rw [← hd]; simpa only [List.append_assoc] using this
    unfold verifyR1Data
    simp only [f0, f4, f6, f8, f10, f12, f14, fk]
    rw [if_neg (by omega), if_neg (by decide), if_neg (by omega), if_neg (by decide), if_neg (by decide), if_neg (by decide), if_neg (by decide),
      if_neg (by decide), if_neg (by simp), slice_ok (by omega) (by omega), ok_bind, if_neg (by simp), fm, if_neg (by simp)]

/-- Exactly when a request of a Secp256r1 role is accepted.  `payload` holds the slot, the counter, the position of the instructions sysvar among the
accounts, four bytes that nobody reads and the WebAuthn part (empty if the hash itself is signed). -/
theorem C112_secp256r1 (env : Env) (a : Auth) (pk pad : Bytes) (n : Nat) (metas : List Meta) (ixs : List TxIx) (cur : Nat) (payload data b : Bytes)
    (hw : a.WF) (hc : a.cred = .secp256r1 pk pad n) (hx : TxOk ixs cur) :
    authenticate env a.ty a.encode metas (sysvarEncode ixs cur) payload data = .ok b ↔
    b = ({ a with cred := .secp256r1 pk pad ((n + 1) % 2 ^ 32) } : Auth).encode ∧
    17 ≤ payload.length ∧ rd payload 8 4 = (n + 1) % 2 ^ 32 ∧
    (rd payload 0 8 ≤ env.slot ∧ env.slot ≤ rd payload 0 8 + 60) ∧ metas.length ≤ 64 ∧
    (∃ sys, metas[(payload.getD 12 0).toNat]? = some sys ∧ sys.key = instructionsSysvarId) ∧
    ∃ msg ix i, r1Message env (env.keccak (data ++ accountRecords metas ++ natLE 8 (rd payload 0 8) ++ natLE 4 (rd payload 8 4)))
        (payload.drop 17) = .ok msg ∧
      i + 1 = cur ∧ ixs[i]? = some ix ∧ ix.program = secp256r1Id ∧ PrecompileData ix.data pk msg := by
  have hwc := hw.cred
  rw [hc] at hwc
  obtain ⟨hpkl, _, _⟩ := hwc
  obtain ⟨hk, ho, _⟩ := Cred.secp_fields hw.cred (pk := pk) (n := n) (by rw [hc]; rfl)
    (match a.session with | none => [] | some s => s.encode) 0
  change sl a.encode 0 33 = pk at hk
  change odometer a.encode = n at ho
  -- what the core demands
  have core : r1Core env pk data (rd payload 0 8) metas (sysvarEncode ixs cur) (payload.getD 12 0).toNat (rd payload 8 4) (payload.drop 17) = .ok () ↔
      (rd payload 0 8 ≤ env.slot ∧ env.slot ≤ rd payload 0 8 + 60) ∧ metas.length ≤ 64 ∧
      (∃ sys, metas[(payload.getD 12 0).toNat]? = some sys ∧ sys.key = instructionsSysvarId) ∧
      ∃ msg ix i, r1Message env (env.keccak (data ++ accountRecords metas ++ natLE 8 (rd payload 0 8) ++ natLE 4 (rd payload 8 4)))
        (payload.drop 17) = .ok msg ∧
        i + 1 = cur ∧ ixs[i]? = some ix ∧ ix.program = secp256r1Id ∧ PrecompileData ix.data pk msg := by
    have step : ∀ i, i + 1 = cur → ∃ ix o p, ixs[i]? = some ix ∧ sysIxOff (sysvarEncode ixs cur) i = .ok o ∧
        sysProgram (sysvarEncode ixs cur) o = .ok ix.program ∧ sysDataAt (sysvarEncode ixs cur) o = .ok (p, ix.data.length) ∧
        slU (sysvarEncode ixs cur) p (p + ix.data.length) = .ok ix.data := by
      intro i hi
      have hlt : i < ixs.length := by have := hx.inTx; omega
      have hsplit : ixs = ixs.take i ++ ixs[i] :: ixs.drop (i + 1) := by
        rw [List.getElem_cons_drop, List.take_append_drop]
      have htl : (ixs.take i).length = i := by simp; omega
      have hx' : TxOk (ixs.take i ++ ixs[i] :: ixs.drop (i + 1)) cur := by rw [← hsplit]; exact hx
      obtain ⟨pre, post, he, ho, _⟩ := sysIxOff_enc hx'
      rw [htl, ← hsplit] at ho
      rw [← hsplit] at he
      obtain ⟨g1, g2, g3⟩ := ix_fields hx'.ix pre post
      exact ⟨ixs[i], pre.length, _, List.getElem?_eq_getElem hlt, ho, by rw [he]; exact g1, by rw [he]; exact g2, by rw [he]; exact g3⟩
    unfold r1Core r1Hash signedMessage
    constructor
    · intro h
      by_cases hf : fresh (rd payload 0 8) env.slot
      case neg => rw [if_pos hf] at h; cases h
      rw [if_neg (fun h => h hf)] at h
      by_cases hm : metas.length > 64
      case pos => rw [if_pos hm] at h; cases h
      rw [if_neg hm, ok_bind] at h
      obtain ⟨msg, hmsg, h⟩ := bind_ok_iff.mp h
      obtain ⟨sys, hsys, h⟩ := bind_ok_iff.mp h
      by_cases hid : sys.key ≠ instructionsSysvarId
      case pos => rw [if_pos hid] at h; cases h
      rw [if_neg hid, sysCurrent_enc hx, ok_bind] at h
      by_cases h0 : cur = 0
      case pos => rw [if_pos h0] at h; cases h
      rw [if_neg h0] at h
      obtain ⟨ix, o, p, k1, k2, k3, k4, k5⟩ := step (cur - 1) (by omega)
      rw [k2, ok_bind, k3, ok_bind] at h
      by_cases hp : ix.program ≠ secp256r1Id
      case pos => rw [if_pos hp] at h; cases h
      rw [if_neg hp, k4, ok_bind] at h
      simp only at h
      rw [k5, ok_bind] at h
      unfold fresh at hf
      exact ⟨by omega, by omega, ⟨sys, getOr_ok hsys, Decidable.of_not_not hid⟩, msg, ix, cur - 1, hmsg, by omega, k1, Decidable.of_not_not hp,
        (verifyR1Data_iff hpkl).mp h⟩
    · rintro ⟨hf, hm, ⟨sys, hsys, hid⟩, msg, ix, i, hmsg, hi, hix, hp, hd⟩
      obtain ⟨ix', o, p, k1, k2, k3, k4, k5⟩ := step i hi
      rw [hix] at k1
      cases k1
      have hff : fresh (rd payload 0 8) env.slot := by unfold fresh; omega
      have hcur : cur - 1 = i := by omega
      rw [if_neg (fun h => h hff), if_neg (by omega), ok_bind, hmsg, ok_bind]
      have hg : getOr metas (payload.getD 12 0).toNat E.au_invalidAuthorityPayload = .ok sys := by unfold getOr; rw [hsys]
      rw [hg, ok_bind, if_neg (by simp [hid]), sysCurrent_enc hx, ok_bind, if_neg (by omega), hcur, k2, ok_bind, k3, ok_bind, if_neg (by simp [hp]), k4, ok_bind]
      simp only
      rw [k5, ok_bind]
      exact (verifyR1Data_iff hpkl).mpr hd
  constructor
  · intro h
    have hstep := C28_step a pk n ⟨env, metas, sysvarEncode ixs cur, payload, data⟩ b hw (by rw [hc]; rfl) h
    rw [authenticate_secp256r1 hc] at h
    unfold r1Authenticate at h
    by_cases hl : payload.length < 17
    case pos => rw [if_pos hl] at h; cases h
    rw [if_neg hl] at h
    simp only at h
    split at h
    · cases h
    · obtain ⟨_, h1, _⟩ := bind_ok_iff.mp h
      rw [hk] at h1
      obtain ⟨g1, g2, g3⟩ := core.mp h1
      refine ⟨?_, by omega, hstep.1, g1, g2, g3⟩
      rw [hstep.2, hc]
      rfl
  · rintro ⟨hb, hl, hcnt, hrest⟩
    have ok : ∃ b', authenticate env a.ty a.encode metas (sysvarEncode ixs cur) payload data = .ok b' := by
      rw [authenticate_secp256r1 hc]
      unfold r1Authenticate
      rw [if_neg (by omega)]
      simp only
      rw [ho, if_neg (by simp [hcnt]), hk, core.mpr hrest, ok_bind]
      exact ⟨_, rfl⟩
    obtain ⟨b', hb'⟩ := ok
    have hstep := C28_step a pk n ⟨env, metas, sysvarEncode ixs cur, payload, data⟩ b' hw (by rw [hc]; rfl) hb'
    rw [hb', hstep.2, hb, hc]
    rfl

/-! ### Program execution without naming the instruction -/

/-- A program-execution request of one byte means the instruction just before; the first instruction of a transaction cannot use it.  Any other
payload is refused. -/
theorem C112_exec_previous (env : Env) (a : Auth) {program : Key} {plen : UInt8} {pad buf : Bytes} (metas : List Meta) {ixs : List TxIx} {cur : Nat}
    {s t : UInt8} (data b : Bytes) (hc : a.cred = .exec program plen pad buf) (hx : TxOk ixs cur) (ht : t.toNat + 1 = cur) :
    authenticate env a.ty a.encode metas (sysvarEncode ixs cur) [s] data = .ok b ↔
      authenticate env a.ty a.encode metas (sysvarEncode ixs cur) [s, t] data = .ok b := by
  rw [authenticate_exec hc, authenticate_exec hc]
  have e : execAuthenticate a.encode metas (sysvarEncode ixs cur) [s] = execAuthenticate a.encode metas (sysvarEncode ixs cur) [s, t] := by
    unfold execAuthenticate programExecAuth
    rw [sysCurrent_enc hx]
    have e1 : execTarget cur none = .ok t.toNat := by
      unfold execTarget
      simp only
      rw [if_neg (by omega)]
      exact congrArg Except.ok (by omega)
    have e2 : execTarget cur (some t.toNat) = .ok t.toNat := by
      unfold execTarget
      simp only
      rw [if_neg (by omega)]
    simp only [List.length_cons, List.length_nil, ok_bind, List.getD_cons_zero, List.getD_cons_succ]
    simp [e1, e2]
  rw [e]

theorem C112_exec_first (env : Env) (a : Auth) {program : Key} {plen : UInt8} {pad buf : Bytes} (metas : List Meta) {ixs : List TxIx}
    (payload data b : Bytes) (hc : a.cred = .exec program plen pad buf) (hx : TxOk ixs 0) :
    authenticate env a.ty a.encode metas (sysvarEncode ixs 0) payload data ≠ .ok b := by
  rw [authenticate_exec hc]
  intro h
  obtain ⟨_, h, _⟩ := bind_ok_iff.mp h
  unfold execAuthenticate at h
  split at h
  · cases h
  · unfold programExecAuth at h
    obtain ⟨m, _, h⟩ := bind_ok_iff.mp h
    split at h
    · cases h
    · obtain ⟨_, _, h⟩ := bind_ok_iff.mp h
      obtain ⟨_, _, h⟩ := bind_ok_iff.mp h
      rw [sysCurrent_enc hx, ok_bind] at h
      obtain ⟨i, h1, _⟩ := bind_ok_iff.mp h
      unfold execTarget at h1
      split at h1 <;> simp at h1

theorem C112_exec_payload (env : Env) (a : Auth) {program : Key} {plen : UInt8} {pad buf : Bytes} (metas : List Meta)
    (sysvar payload data b : Bytes) (hc : a.cred = .exec program plen pad buf)
    (h : authenticate env a.ty a.encode metas sysvar payload data = .ok b) : (∃ s, payload = [s]) ∨ ∃ s t, payload = [s, t] := by
  rw [authenticate_exec hc] at h
  obtain ⟨_, h, _⟩ := bind_ok_iff.mp h
  unfold execAuthenticate at h
  split at h
  · cases h
  · rename_i hp
    match payload, hp with
    | [s], _ => exact .inl ⟨s, rfl⟩
    | [s, t], _ => exact .inr ⟨s, t, rfl⟩
    | [], hp => simp at hp
    | _ :: _ :: _ :: _, hp => simp at hp

/-! ### Worked cases -/
namespace Sample

private def credEnv (slot : Nat) : Env :=
  ⟨slot, fun n => (n + 128) * 6960, fun _ => none, fun b => b, fun b => b, fun _ _ _ => none, 1⟩
private def key33 : Bytes := 2 :: K 9
private def edSess : Auth := ⟨.ed25519 (K 1), some ⟨K 2, 100, 50⟩⟩
private def k1Sess : Auth := ⟨.secp256k1 key33 [0, 0, 0] 4, some ⟨K 2, 100, 50⟩⟩
private def r1Auth : Auth := ⟨.secp256r1 key33 [0, 0, 0] 4, none⟩
private def credMetas : List Meta := [⟨K 1, false, true⟩, ⟨K 2, true, false⟩, ⟨instructionsSysvarId, false, false⟩]

example : edSess.WF ∧ k1Sess.WF ∧ r1Auth.WF :=
  ⟨⟨show (K 1).length = 32 by decide, by intro s h; cases h; exact ⟨by decide, by decide, by decide⟩⟩, ⟨⟨by decide, by decide, by decide⟩, by intro s h; cases h; exact ⟨by decide, by decide, by decide⟩⟩,
    ⟨⟨by decide, by decide, by decide⟩, by intro s h; cases h⟩⟩

/-- A session is accepted until its last slot; a further byte matters for Ed25519 only. -/
example : authenticateSession (credEnv 50) edSess.ty edSess.encode credMetas [1] = .ok () ∧
    authenticateSession (credEnv 51) edSess.ty edSess.encode credMetas [1] ≠ .ok () ∧
    authenticateSession (credEnv 50) edSess.ty edSess.encode credMetas [0] ≠ .ok () ∧
    authenticateSession (credEnv 50) edSess.ty edSess.encode credMetas [1, 0] ≠ .ok () ∧
    authenticateSession (credEnv 50) k1Sess.ty k1Sess.encode credMetas [1, 0] = .ok () := by decide +kernel

/-- What the role `r1Auth` signs at slot 100, for the request `[7]`. -/
private def r1Msg : Bytes := [7] ++ accountRecords credMetas ++ natLE 8 100 ++ natLE 4 5
private def r1Data : Bytes :=
  [1, 0] ++ natLE 2 49 ++ natLE 2 0xFFFF ++ natLE 2 16 ++ natLE 2 0xFFFF ++ natLE 2 113 ++ natLE 2 r1Msg.length ++ natLE 2 0xFFFF ++
    key33 ++ zeros 64 ++ r1Msg ++ []
private def r1Tx : List TxIx := [⟨secp256r1Id, [], r1Data⟩, ⟨swigId, credMetas, [7]⟩]
private def r1Payload : Bytes := natLE 8 100 ++ natLE 4 5 ++ [2] ++ zeros 4

example : TxOk r1Tx 1 := ⟨by decide, by decide +kernel, by decide +kernel⟩
example : PrecompileData r1Data key33 r1Msg := ⟨0, 49, zeros 64, [], by decide, by decide +kernel, by decide +kernel, rfl⟩

/-- Accepted at slot 160, not at slot 161, not for another request, not without the sysvar, not if the precompile call is not just before. -/
example : authenticate (credEnv 160) r1Auth.ty r1Auth.encode credMetas (sysvarEncode r1Tx 1) r1Payload [7] =
      .ok (⟨.secp256r1 key33 [0, 0, 0] 5, none⟩ : Auth).encode ∧
    authenticate (credEnv 161) r1Auth.ty r1Auth.encode credMetas (sysvarEncode r1Tx 1) r1Payload [7] ≠
      .ok (⟨.secp256r1 key33 [0, 0, 0] 5, none⟩ : Auth).encode ∧
    authenticate (credEnv 160) r1Auth.ty r1Auth.encode credMetas (sysvarEncode r1Tx 1) r1Payload [8] ≠
      .ok (⟨.secp256r1 key33 [0, 0, 0] 5, none⟩ : Auth).encode ∧
    authenticate (credEnv 160) r1Auth.ty r1Auth.encode credMetas (sysvarEncode r1Tx 1) (natLE 8 100 ++ natLE 4 5 ++ [1] ++ zeros 4) [7] ≠
      .ok (⟨.secp256r1 key33 [0, 0, 0] 5, none⟩ : Auth).encode ∧
    authenticate (credEnv 160) r1Auth.ty r1Auth.encode credMetas (sysvarEncode (r1Tx ++ [⟨swigId, credMetas, [7]⟩]) 2) r1Payload [7] ≠
      .ok (⟨.secp256r1 key33 [0, 0, 0] 5, none⟩ : Auth).encode := by decide +kernel

/-- The approval of C108's transaction, named and left out. -/
example : TxOk apprTx 1 ∧
    authenticate (credEnv 5) apprAuth.ty apprAuth.encode apprMetas (sysvarEncode apprTx 1) [3] [] = .ok apprAuth.encode ∧
    authenticate (credEnv 5) apprAuth.ty apprAuth.encode apprMetas (sysvarEncode apprTx 1) [3, 0] [] = .ok apprAuth.encode ∧
    authenticate (credEnv 5) apprAuth.ty apprAuth.encode apprMetas (sysvarEncode apprTx 2) [3] [] ≠ .ok apprAuth.encode :=
  ⟨⟨by decide, by decide +kernel, by decide +kernel⟩, by decide +kernel⟩

end Sample

end Verif
