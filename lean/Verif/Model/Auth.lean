import Verif.Model.AuthLayout
import Verif.Model.WebAuthn

/-!
# Authentication

`authenticate`, `authenticate_session` and `start_session` of the eight authority types, `state/src/authority/*.rs`.  An
authority is its stored byte record; a function that mutates it returns the new record.
-/

namespace Verif

/-- `ed25519_authenticate`, state/src/authority/ed25519.rs:316-328. -/
def ed25519Auth (metas : List Meta) (idx : Nat) (key : Key) : R Unit := do
  let m ← getOr metas idx E.au_invalidAuthorityEd25519MissingAuthorityAccount
  if key = m.key ∧ m.signer = true then .ok () else .error E.au_permissionDenied

/-- `AccountsPayload::from(account)` as bytes, state/src/authority/secp256k1.rs:582-625: key, writable, signer, six
zero bytes. -/
def accountRecord (m : Meta) : Bytes :=
  m.key ++ [if m.writable then 1 else 0, if m.signer then 1 else 0] ++ zeros 6

def accountRecords (ms : List Meta) : Bytes := ms.flatMap accountRecord

/-- The message both secp authorities sign, before hashing: state/src/authority/secp256k1.rs:487-492, secp256r1.rs:580-585. -/
def signedMessage (dataPayload : Bytes) (metas : List Meta) (slot counter : Nat) : Bytes :=
  dataPayload ++ accountRecords metas ++ natLE 8 slot ++ natLE 4 counter

/-- Big-endian value of a byte string. -/
def beNat (b : Bytes) : Nat := leNat b.reverse

/-- Order of the secp256k1 group. -/
def secpN : Nat := 0xFFFFFFFFFFFFFFFFFFFFFFFFFFFFFFFEBAAEDCE6AF48A03BBFD25E8CD0364141

/-- `libsecp256k1::Signature::parse_standard_slice(..)` succeeds and `s` is not high
(state/src/authority/secp256k1.rs:458-463): both scalars below the group order, `s` at most half of it. -/
def lowS (sig : Bytes) : Bool :=
  beNat (sl sig 0 32) < secpN && beNat (sl sig 32 64) < secpN && beNat (sl sig 32 64) ≤ secpN / 2

/-- `current_slot < authority_slot || current_slot - authority_slot > 60` negated. -/
def fresh (authSlot slot : Nat) : Prop := authSlot ≤ slot ∧ slot - authSlot ≤ 60

instance decFreshSlot (a s : Nat) : Decidable (fresh a s) := inferInstanceAs (Decidable (_ ∧ _))

/-- The hash handed to public-key recovery: state/src/authority/secp256k1.rs:496-526. -/
def k1Hash (env : Env) (dataPayload : Bytes) (metas : List Meta) (authSlot counter : Nat) (pfx : Bytes) : Bytes :=
  env.keccak (pfx ++ hexEncode (env.sha256 (signedMessage dataPayload metas authSlot counter)))

/-- `secp256k1_authenticate`, state/src/authority/secp256k1.rs:439-551. -/
def k1Core (env : Env) (key sig65 dataPayload : Bytes) (authSlot : Nat) (metas : List Meta) (pfx : Bytes)
    (counter : Nat) : R Unit :=
  if ¬ fresh authSlot env.slot then .error E.au_permissionDeniedSecp256k1InvalidSignature
  else if metas.length > 64 then .error E.au_invalidAuthorityPayload
  else if lowS (sl sig65 0 64) = false then .error E.au_permissionDeniedSecp256k1InvalidSignature
  else
    let recId := if sig65.getD 64 0 = 27 then 0 else 1
    match env.recover (k1Hash env dataPayload metas authSlot counter pfx) recId (sl sig65 0 64) with
    | none => .error E.au_permissionDeniedSecp256k1InvalidSignature
    | some pk => if compressKey pk = key then .ok () else .error E.au_permissionDenied

/-- Replay counter of a secp authority: `signature_odometer` at byte 36. -/
def odometer (auth : Bytes) : Nat := rd auth 36 4

/-- `secp_authority_authenticate`, `secp_session_authority_authenticate`,
state/src/authority/secp256k1.rs:343-385, 396-430 (the two records agree on bytes 0..40). -/
def k1Authenticate (env : Env) (auth : Bytes) (metas : List Meta) (payload dataPayload : Bytes) : R Bytes :=
  if payload.length < 77 then .error E.au_invalidAuthorityPayload
  else
    let counter := rd payload 8 4
    if counter ≠ (odometer auth + 1) % 2 ^ 32 then .error E.au_permissionDeniedSecp256k1SignatureReused
    else do
      k1Core env (sl auth 0 33) (sl payload 12 77) dataPayload (rd payload 0 8) metas (payload.drop 77) counter
      .ok (put auth 36 (natLE 4 counter))

/-! ## Instructions sysvar (`pinocchio::sysvars::instructions`): raw reads -/

/-- `Instructions::load_current_index`: the last two bytes. -/
def sysCurrent (b : Bytes) : R Nat := if b.length < 2 then .error .ub else rdU b (b.length - 2) 2

/-- `deserialize_instruction_unchecked(i)`: offset of the instruction record. -/
def sysIxOff (b : Bytes) (i : Nat) : R Nat := rdU b (2 + 2 * i) 2

/-- `IntrospectedInstruction::get_program_id`: after the account records of 33 bytes each. -/
def sysProgram (b : Bytes) (o : Nat) : R Key := do
  let n ← rdU b o 2
  slU b (o + 2 + 33 * n) (o + 2 + 33 * n + 32)

/-- `IntrospectedInstruction::get_instruction_data`: offset and length. -/
def sysDataAt (b : Bytes) (o : Nat) : R (Nat × Nat) := do
  let n ← rdU b o 2
  let len ← rdU b (o + 2 + 33 * n + 32) 2
  .ok (o + 2 + 33 * n + 34, len)

/-- `get_account_meta_at_unchecked(i)`: key of the `i`-th account record (one flag byte, 32 key bytes); no check
against the number of accounts. -/
def sysMetaKey (b : Bytes) (o i : Nat) : R Key := slU b (o + 2 + 33 * i + 1) (o + 2 + 33 * i + 33)

/-- `verify_secp256r1_instruction_data`, state/src/authority/secp256r1.rs:607-667. -/
def verifyR1Data (d key msg : Bytes) : R Unit :=
  let eIx := E.au_permissionDeniedSecp256r1InvalidInstruction
  if d.length < 16 then .error eIx
  else if (d.getD 0 0).toNat ≠ 1 then .error eIx
  else if d.length < 113 + 32 then .error eIx
  else if rd d 4 2 ≠ 0xFFFF then .error eIx
  else if rd d 8 2 ≠ 0xFFFF then .error eIx
  else if rd d 14 2 ≠ 0xFFFF then .error eIx
  else if rd d 6 2 ≠ 16 then .error eIx
  else if rd d 10 2 ≠ 113 then .error eIx
  else if rd d 12 2 ≠ msg.length then .error eIx
  else do
    let m ← slice d 113 (113 + msg.length)
    if sl d 16 49 ≠ key then .error E.au_permissionDeniedSecp256r1InvalidPubkey
    else if m ≠ msg then .error E.au_permissionDeniedSecp256r1InvalidMessageHash
    else .ok ()

/-- The message expected in the precompile instruction, state/src/authority/secp256r1.rs:503-527. -/
def r1Message (env : Env) (hash extra : Bytes) : R Bytes :=
  if extra = [] then .ok hash
  else if extra.length < 2 then .error eMsg
  else if rd extra 0 2 = 1 then webauthnMessage env extra hash
  else if rd extra 0 2 = 2 then webauthnRawMessage env extra hash
  else .error E.au_permissionDeniedSecp256r1InvalidAuthenticationKind

/-- `compute_message_hash`, state/src/authority/secp256r1.rs:559-602. -/
def r1Hash (env : Env) (dataPayload : Bytes) (metas : List Meta) (authSlot counter : Nat) : R Bytes :=
  if metas.length > 64 then .error E.au_invalidAuthorityPayload
  else .ok (env.keccak (signedMessage dataPayload metas authSlot counter))

/-- `secp256r1_authenticate`, state/src/authority/secp256r1.rs:479-556.  `sysvar` is the data of the instructions sysvar. -/
def r1Core (env : Env) (key dataPayload : Bytes) (authSlot : Nat) (metas : List Meta) (sysvar : Bytes) (sysIdx counter : Nat)
    (extra : Bytes) : R Unit :=
  if ¬ fresh authSlot env.slot then .error E.au_permissionDeniedSecp256k1InvalidSignatureAge
  else do
    let hash ← r1Hash env dataPayload metas authSlot counter
    let msg ← r1Message env hash extra
    let m ← getOr metas sysIdx E.au_invalidAuthorityPayload
    if m.key ≠ instructionsSysvarId then .error E.au_permissionDeniedSecp256r1InvalidInstruction
    else do
      let cur ← sysCurrent sysvar
      if cur = 0 then .error E.au_permissionDeniedSecp256r1InvalidInstruction
      else do
        let o ← sysIxOff sysvar (cur - 1)
        let prog ← sysProgram sysvar o
        if prog ≠ secp256r1Id then .error E.au_permissionDeniedSecp256r1InvalidInstruction
        else do
          let (p, n) ← sysDataAt sysvar o
          let d ← slU sysvar p (p + n)
          verifyR1Data d key msg

/-- `secp256r1_authority_authenticate`, `secp256r1_session_authority_authenticate`,
state/src/authority/secp256r1.rs:374-420, 431-469. -/
def r1Authenticate (env : Env) (auth : Bytes) (metas : List Meta) (sysvar payload dataPayload : Bytes) : R Bytes :=
  if payload.length < 17 then .error E.au_invalidAuthorityPayload
  else
    let counter := rd payload 8 4
    if counter ≠ (odometer auth + 1) % 2 ^ 32 then .error E.au_permissionDeniedSecp256r1SignatureReused
    else do
      r1Core env (sl auth 0 33) dataPayload (rd payload 0 8) metas sysvar (payload.getD 12 0).toNat counter
        (payload.drop 17)
      .ok (put auth 36 (natLE 4 counter))

/-- Which instruction of the transaction a program-exec authority looks at,
state/src/authority/programexec/mod.rs:275-294. -/
def execTarget (cur : Nat) (target : Option Nat) : R Nat :=
  let e := E.au_permissionDeniedProgramExecInvalidInstruction
  match target with
  | some i => if i ≥ cur then .error e else .ok i
  | none => if cur = 0 then .error e else .ok (cur - 1)

/-- `program_exec_authenticate`, state/src/authority/programexec/mod.rs:240-346.  The "number of accounts" is read from the first
two bytes of the instruction *data* (lines 298-300), not from the account count. -/
def programExecAuth (metas : List Meta) (sysvar : Bytes) (sysIdx : Nat) (program pfx : Bytes) (prefixLen : Nat)
    (target : Option Nat) : R Unit := do
  let m ← getOr metas sysIdx E.au_invalidAuthorityPayload
  if m.key ≠ instructionsSysvarId then .error E.au_permissionDeniedProgramExecInvalidInstruction
  else do
    let config ← getOr metas 0 E.au_invalidAuthorityPayload
    let wallet ← getOr metas 1 E.au_invalidAuthorityPayload
    let cur ← sysCurrent sysvar
    let i ← execTarget cur target
    let o ← sysIxOff sysvar i
    let (p, n) ← sysDataAt sysvar o
    let numAccounts ← rdU sysvar p 2
    if numAccounts < 2 then .error E.au_permissionDeniedProgramExecInvalidInstructionData
    else do
      let prog ← sysProgram sysvar o
      if prog ≠ program then .error E.au_permissionDeniedProgramExecInvalidProgram
      else do
        let d ← slU sysvar p (p + n)
        if d.length < prefixLen then .error E.au_permissionDeniedProgramExecInvalidInstructionData
        else do
          let want ← slice pfx 0 prefixLen
          if sl d 0 prefixLen ≠ want then .error E.au_permissionDeniedProgramExecInvalidInstructionData
          else do
            let a0 ← sysMetaKey sysvar o 0
            let a1 ← sysMetaKey sysvar o 1
            if a0 ≠ config.key then .error E.au_permissionDeniedProgramExecInvalidConfigAccount
            else if a1 ≠ wallet.key then .error E.au_permissionDeniedProgramExecInvalidWalletAccount
            else .ok ()

/-- `ProgramExecAuthority::authenticate`, `ProgramExecSessionAuthority::authenticate`,
state/src/authority/programexec/mod.rs:170-204, session.rs:265-299. -/
def execAuthenticate (auth : Bytes) (metas : List Meta) (sysvar payload : Bytes) : R Unit :=
  if payload.length = 0 ∨ payload.length > 2 then .error E.au_invalidAuthorityPayload
  else
    programExecAuth metas sysvar (payload.getD 0 0).toNat (sl auth 0 32) (sl auth 40 80) (auth.getD 32 0).toNat
      (if payload.length = 2 then some (payload.getD 1 0).toNat else none)

/-- `AuthorityInfo::authenticate` (main credential): the new stored record. -/
def authenticate (env : Env) (ty : Nat) (auth : Bytes) (metas : List Meta) (sysvar payload dataPayload : Bytes) : R Bytes :=
  if ty = T.ed25519 ∨ ty = T.ed25519Session then
    if payload.length ≠ 1 then .error E.au_invalidAuthorityPayload
    else do
      ed25519Auth metas (payload.getD 0 0).toNat (sl auth 0 32)
      .ok auth
  else if ty = T.secp256k1 ∨ ty = T.secp256k1Session then
    k1Authenticate env auth metas payload dataPayload
  else if ty = T.secp256r1 ∨ ty = T.secp256r1Session then
    r1Authenticate env auth metas sysvar payload dataPayload
  else do
    execAuthenticate auth metas sysvar payload
    .ok auth

/-- Offset of `session_key`, `max_session_length`/`max_session_age`, `current_session_expiration` (32, 8, 8 bytes, in this
order) in the four session records. -/
def sessionOff (ty : Nat) : Nat :=
  if ty = T.ed25519Session then 32 else if ty = T.programExecSession then 80 else 40

def sessionKey (ty : Nat) (auth : Bytes) : Key := sl auth (sessionOff ty) (sessionOff ty + 32)
def sessionMax (ty : Nat) (auth : Bytes) : Nat := rd auth (sessionOff ty + 32) 8
def sessionExpiry (ty : Nat) (auth : Bytes) : Nat := rd auth (sessionOff ty + 40) 8

/-- Payload checks of `authenticate_session`: exactly one byte for Ed25519 and program exec (ed25519.rs:275, session.rs:252), not
empty for Secp256r1 (secp256r1.rs:331), none for Secp256k1, where indexing an empty payload panics after the expiry
check (secp256k1.rs:301-308). -/
def sessionPayloadOk (ty : Nat) (payload : Bytes) : R Unit :=
  if ty = T.ed25519Session ∨ ty = T.programExecSession then
    if payload.length ≠ 1 then .error E.au_invalidAuthorityPayload else .ok ()
  else if ty = T.secp256r1Session then
    if payload = [] then .error E.au_invalidAuthorityPayload else .ok ()
  else .ok ()

/-- `AuthorityInfo::authenticate_session`: ed25519.rs:268-286, secp256k1.rs:294-309, secp256r1.rs:322-345,
programexec/session.rs:245-263; the default (authority/mod.rs:75-83) refuses. -/
def authenticateSession (env : Env) (ty : Nat) (auth : Bytes) (metas : List Meta) (payload : Bytes) : R Unit :=
  if sessionBased ty = false then .error E.au_authorityDoesNotSupportSessionBasedAuth
  else do
    sessionPayloadOk ty payload
    if env.slot > sessionExpiry ty auth then .error E.au_permissionDeniedSessionExpired
    else if payload = [] then .error .panic
    else ed25519Auth metas (payload.getD 0 0).toNat (sessionKey ty auth)

/-- `AuthorityInfo::start_session`: ed25519.rs:254-266, secp256k1.rs:311-323, secp256r1.rs:347-359, session.rs:229-241;
the default (authority/mod.rs:91-98) refuses.  `current_slot + duration` wraps in a release build. -/
def startSession (ty : Nat) (auth : Bytes) (key : Key) (slot duration : Nat) : R Bytes :=
  if sessionBased ty = false then .error E.au_authorityDoesNotSupportSessionBasedAuth
  else if duration > sessionMax ty auth then .error E.au_invalidSessionDuration
  else .ok (put auth (sessionOff ty)
    (key ++ natLE 8 (sessionMax ty auth) ++ natLE 8 ((slot + duration) % 2 ^ 64)))

/-- The call every handler but session creation makes: `authenticate_session` for session roles, `authenticate` for the
others (for instance program/src/actions/add_authority_v1.rs:205-219).  Returns the new stored record. -/
def authRole (env : Env) (ty : Nat) (auth : Bytes) (metas : List Meta) (sysvar payload dataPayload : Bytes) : R Bytes :=
  if sessionBased ty then do
    authenticateSession env ty auth metas payload
    .ok auth
  else authenticate env ty auth metas sysvar payload dataPayload

end Verif
