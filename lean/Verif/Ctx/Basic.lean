/-
`SpdmContext` (spdmlib/src/common/mod.rs): configuration, negotiated and runtime information, provisioning, session table.
-/
import Verif.Session.Session
import Verif.Transport.Basic
import Verif.Msg.Message

namespace Verif

/-- `SpdmConnectionState` (common/mod.rs:27-47). -/
inductive ConnState where
  | notStarted | afterVersion | afterCapabilities | negotiated | afterDigest | afterCertificate | authenticated
  deriving Repr, DecidableEq

/-- `SpdmConnectionState::get_u8` (common/mod.rs:27-47): `AfterCertificate` and `Authenticated` have the same code. -/
def ConnState.code : ConnState → Nat
  | .notStarted => 0 | .afterVersion => 1 | .afterCapabilities => 2 | .negotiated => 3 | .afterDigest => 4
  | .afterCertificate => 5 | .authenticated => 5

/-- `SpdmConfigInfo` (common/mod.rs:1037-1059); `spdm_version` has three entries. -/
structure Config where
  version0 : SpdmVersion := .unknown 0
  version1 : SpdmVersion := .unknown 0
  version2 : SpdmVersion := .unknown 0
  reqCaps : UInt32 := 0
  rspCaps : UInt32 := 0
  reqCt : UInt8 := 0
  rspCt : UInt8 := 0
  measSpec : MeasSpec := 0
  measHash : MeasHash := 0
  baseHash : BaseHash := 0
  baseAsym : BaseAsym := 0
  dhe : Dhe := 0
  aead : Aead := 0
  reqAsym : ReqAsym := 0
  keySchedule : KeySchedule := 0
  opaqueSupport : UInt8 := 0
  sessionPolicy : UInt8 := 0
  contentChange : Bool := false
  dts : UInt32 := 0
  mms : UInt32 := 0
  heartbeat : UInt8 := 0
  secureVersions : List UInt8 := []
  deriving Repr, DecidableEq

/-- `SpdmRuntimeInfo` with `hashed-transcript-data` (common/mod.rs:1420-1434). -/
structure Runtime where
  state : ConnState := .notStarted
  lastSession : Option UInt32 := none
  localSlot : UInt8 := 0
  peerSlot : UInt8 := 0
  needSummary : Bool := false
  needSig : Bool := false
  messageA : Bytes := []
  m1m2 : Option HashCtx := none
  l1l2 : Option HashCtx := none
  contentChanged : UInt8 := 0
  deriving Repr, DecidableEq

/-- `SpdmProvisionInfo` (common/mod.rs:1470-1475): eight slots; a chain is the used part of its buffer. -/
structure Provision where
  chainData : Fin 8 → Option Bytes := fun _ => none
  chain : Fin 8 → Option Bytes := fun _ => none
  peerRoot : Option Bytes := none

/-- `SpdmPeerInfo` (common/mod.rs:1477-1481). -/
structure PeerInfo where
  chain : Fin 8 → Option Bytes := fun _ => none
  temp : Option Bytes := none

/-- `SpdmContext` (common/mod.rs:130-145) without the `mut-auth` part.  `sent` is a ghost: the packets handed to
`device_io.send`, oldest first, whether or not the device reported success.  The session table is a list, so the theorems
hold for every `MAX_SPDM_SESSION_COUNT`. -/
structure Ctx where
  config : Config := {}
  neg : Neg := {}
  rt : Runtime := {}
  prov : Provision := {}
  peer : PeerInfo := {}
  sessions : List Session := []
  sent : List Bytes := []

/-- What the code gets from outside during one step: callbacks registered by the integrator (`crypto`, `secret`,
application and vendor handlers), the transport binding and the device.  Every theorem quantifies over it; results may
differ from step to step. -/
structure Env where
  crypto : Crypto
  tr : Transport
  /-- `device_io.send` (common/mod.rs:76) of the `n`-th packet; `none` is `Ok(())` -/
  send : Nat → Bytes → Option Status
  /-- `crypto::rand::get_random` (crypto/mod.rs): `none` is `Err` -/
  random : Nat → Option Bytes
  /-- `secret::asym_sign::sign` (secret/mod.rs) -/
  sign : BaseHash → BaseAsym → Bytes → Option Bytes
  /-- `crypto::asym_verify::verify` (crypto/mod.rs): certificate chain, data, signature; `true` is `Ok` -/
  verify : BaseHash → BaseAsym → Bytes → Bytes → Bytes → Bool
  /-- `crypto::dhe::generate_key_pair` (crypto/mod.rs) and `compute_final_key` of the returned context -/
  dheGen : Dhe → Option (Bytes × (Bytes → Option Bytes))
  /-- `secret::measurement::measurement_collection` (secret/mod.rs:54-72) -/
  measure : SpdmVersion → MeasSpec → MeasHash → Nat → Option MeasRecord
  /-- `secret::measurement::generate_measurement_summary_hash` (secret/mod.rs:73-92) -/
  summary : SpdmVersion → BaseHash → MeasSpec → MeasHash → SummaryHashType → Option Bytes
  /-- `crypto::cert_operation::get_cert_from_cert_chain` (crypto/mod.rs): chain, index; begin and end offsets -/
  certFromChain : Bytes → Int → Option (Nat × Nat)
  /-- `crypto::cert_operation::verify_cert_chain` (crypto/mod.rs) -/
  verifyChain : Bytes → Bool
  /-- `dispatch_secured_app_message_cb` (responder/app_message_handler.rs:41-51); `none` is `Err`.  The callback may in
  principle mutate the context it is handed; the model assumes it does not. -/
  app : UInt32 → Bytes → Option Bytes
  /-- `vendor_defined_request_handler` (message/vendor.rs:253-): request length field and payload; response length field
  and payload; `none` is `Err` -/
  vendor : UInt16 → Bytes → Option (UInt16 × Bytes)
  /-- whether spdmlib is compiled with the feature `mut-auth` (spdmlib/Cargo.toml:44), off by default -/
  asksMutual : Bool := false

/-- the mutual authentication a responder asks for (responder/key_exchange_rsp.rs:232-235): MUT_AUTH_REQ_WITH_GET_DIGESTS with the
feature `mut-auth`, nothing without. -/
def Env.mutAuth (e : Env) : UInt8 := if e.asksMutual then 4 else 0

namespace Ctx

/-- the part of the context the message codecs look at. -/
def cc (c : Ctx) : Cc := ⟨c.neg, c.rt.needSummary, c.rt.needSig⟩

/-- `SpdmContext::new` (common/mod.rs:147-165) with `n` sessions. -/
def new (cfg : Config) (prov : Provision) (n : Nat) : Ctx :=
  { config := cfg, prov := prov, sessions := List.replicate n Session.new }

/-- `reset_context` (common/mod.rs:189-197). -/
def reset (c : Ctx) : Ctx :=
  { c with rt := {}, neg := {}, peer := {}, sessions := c.sessions.map Session.setDefault }

/-- `get_session_via_id`, `get_immutable_session_via_id` (common/mod.rs:199-209): the first session with that id. -/
def session? (c : Ctx) (sid : UInt32) : Option Session := c.sessions.find? (·.id = sid)

/-- replace the first element satisfying `p` by its image (what mutating through `iter_mut().find(p)` does,
common/mod.rs:205-209). -/
def updFirst (p : Session → Bool) (f : Session → Session) : List Session → List Session
  | [] => []
  | s :: t => if p s then f s :: t else s :: updFirst p f t

/-- mutate the session `get_session_via_id(sid)` returns (common/mod.rs:205-209). -/
def updSession (c : Ctx) (sid : UInt32) (f : Session → Session) : Ctx :=
  { c with sessions := updFirst (·.id = sid) f c.sessions }

/-- half of a session id (common/mod.rs:230-234): the requester's low, the responder's high half. -/
def half (isReq : Bool) (sid : UInt32) : UInt16 := if isReq then sid.toUInt16 else (sid >>> 16).toUInt16

/-- loop of `get_next_half_session_id` (common/mod.rs:232-237); `INITIAL_SESSION_ID` is 0xFFFD. -/
def nextHalf (isReq : Bool) : Nat → List Session → Option UInt16
  | _, [] => none
  | i, s :: t => if half isReq s.id = 0 then some (0xFFFD - UInt16.ofNat i) else nextHalf isReq (i + 1) t

/-- `get_next_half_session_id` (common/mod.rs:229-240). -/
def nextHalfId (c : Ctx) (isReq : Bool) : Res UInt16 := Res.ofOption .sessionNumberExceed (nextHalf isReq 0 c.sessions)

/-- `get_certchain_hash_local(false, slot)` (common/mod.rs:870-894). -/
def localChainHash (e : Env) (c : Ctx) (slot : Fin 8) : Option Bytes :=
  (c.prov.chain slot).bind fun ch => e.crypto.hash c.neg.baseHash ch

/-- `get_certchain_hash_peer(false, slot)` (common/mod.rs:896-921). -/
def peerChainHash (e : Env) (c : Ctx) (slot : Fin 8) : Option Bytes :=
  (c.peer.chain slot).bind fun ch => e.crypto.hash c.neg.baseHash ch

/-- the stored form of a provisioned chain (common/mod.rs:257-269): u16 total size, two zero bytes, hash of the root
certificate, the certificates. -/
def chainBuffer (rootHash chain : Bytes) : Bytes :=
  putU16 (UInt16.ofNat (4 + rootHash.length + chain.length)) ++ [0, 0] ++ rootHash ++ chain

/-- body of the loop of `construct_my_cert_chain` (common/mod.rs:244-275) for one slot. -/
def constructSlot (e : Env) (i : Fin 8) : M Status Ctx Unit := do
  let c ← M.get
  match c.prov.chain i, c.prov.chainData i with
  | none, some d =>
    match e.certFromChain d 0 with
    | none => M.panic
    | some (b, en) =>
      -- `&cert_chain.data[begin..end]`
      if b ≤ en ∧ en ≤ 4096 then
        let data := d ++ List.replicate (4096 - d.length) 0
        match e.crypto.hash c.neg.baseHash ((data.drop b).take (en - b)) with
        | some h => M.modify fun c => { c with prov := { c.prov with chain := fun j => if j = i then some (chainBuffer h d) else c.prov.chain j } }
        | none => M.fail .cryptoError
      else M.panic
  | _, _ => pure ()

/-- `construct_my_cert_chain` (common/mod.rs:242-279). -/
def constructChains (e : Env) : M Status Ctx Unit := do
  constructSlot e 0; constructSlot e 1; constructSlot e 2; constructSlot e 3
  constructSlot e 4; constructSlot e 5; constructSlot e 6; constructSlot e 7

/-! ### Transcripts -/

/-- `ManagedBufferA` holds `150 + 2 * MAX_SPDM_VERSION_COUNT` bytes (common/mod.rs:1084). -/
def capA : Nat := 156

/-- `append_message_a` (common/mod.rs:281-287). -/
def appendA (msg : Bytes) : M Status Ctx Unit := do
  let c ← M.get
  if c.rt.messageA.length + msg.length ≤ capA then
    M.set { c with rt := { c.rt with messageA := c.rt.messageA ++ msg } }
  else M.fail .bufferFull

/-- `hash_ctx_init` (crypto/mod.rs): succeeds for the algorithms the hash implementation supports; a context is the
algorithm and the bytes fed so far. -/
def hashInit (e : Env) (h : BaseHash) : Option HashCtx := (e.crypto.hash h []).map fun _ => ⟨h, []⟩

/-- `hash_ctx_update` (crypto/mod.rs); the model leaves out its failure (an unknown handle). -/
def hashUpdate (d : Bytes) (x : HashCtx) : HashCtx := { x with data := x.data ++ d }

/-- `hash_ctx_finalize` of a clone (crypto/mod.rs). -/
def hashFinal (e : Env) (x : HashCtx) : Option Bytes := e.crypto.hash x.algo x.data

/-- common part of `append_message_b` and `append_message_c` (common/mod.rs:292-367); they differ in the status when the
hash algorithm is unsupported. -/
def appendM1M2 (e : Env) (st : Status) (msg : Bytes) : M Status Ctx Unit := do
  let c ← M.get
  match c.rt.m1m2 with
  | some x => M.set { c with rt := { c.rt with m1m2 := some (hashUpdate msg x) } }
  | none =>
    match hashInit e c.neg.baseHash with
    | none => M.fail st
    | some x => M.set { c with rt := { c.rt with m1m2 := some (hashUpdate msg (hashUpdate c.rt.messageA x)) } }

/-- `append_message_b` (common/mod.rs:292-323). -/
def appendB (e : Env) (msg : Bytes) : M Status Ctx Unit := appendM1M2 e .invalidStateLocal msg
/-- `append_message_c` (common/mod.rs:336-367). -/
def appendC (e : Env) (msg : Bytes) : M Status Ctx Unit := appendM1M2 e .cryptoError msg
/-- `reset_message_b`, `reset_message_c` (common/mod.rs:324-334, 368-378): with `hashed-transcript-data` both drop the
common digest context. -/
def resetM1M2 (c : Ctx) : Ctx := { c with rt := { c.rt with m1m2 := none } }

/-- first use of an L1/L2 context (common/mod.rs:411-424, 437-450): `message_a` is included from SPDM 1.2 on. -/
def startL1L2 (e : Env) (c : Ctx) : Option HashCtx :=
  (hashInit e c.neg.baseHash).map fun x => if c.cc.ge12 then hashUpdate c.rt.messageA x else x

/-- `append_message_m` (common/mod.rs:380-462). -/
def appendM (e : Env) (sid : Option UInt32) (msg : Bytes) : M Status Ctx Unit := do
  let c ← M.get
  match sid with
  | some sid =>
    match c.session? sid with
    | none => M.fail .invalidStateLocal
    | some s =>
      match s.l1l2 with
      | some x => M.set (c.updSession sid fun s => { s with l1l2 := some (hashUpdate msg x) })
      | none =>
        match startL1L2 e c with
        | none => M.fail .cryptoError
        | some x => M.set (c.updSession sid fun s => { s with l1l2 := some (hashUpdate msg x) })
  | none =>
    match c.rt.l1l2 with
    | some x => M.set { c with rt := { c.rt with l1l2 := some (hashUpdate msg x) } }
    | none =>
      match startL1L2 e c with
      | none => M.fail .cryptoError
      | some x => M.set { c with rt := { c.rt with l1l2 := some (hashUpdate msg x) } }

/-- `reset_message_m` (common/mod.rs:463-493). -/
def resetM (sid : Option UInt32) (c : Ctx) : Ctx :=
  match sid with
  | some sid => c.updSession sid fun s => { s with l1l2 := none }
  | none => { c with rt := { c.rt with l1l2 := none } }

/-- first use of a session's TH context (common/mod.rs:508-529): `message_a`, then the responder's chain hash. -/
def startTh (e : Env) (s : Session) : Option HashCtx :=
  (hashInit e s.hash).map fun x => hashUpdate (s.rspCertHash.getD []) (hashUpdate s.messageA x)

/-- `append_message_k` (common/mod.rs:495-539). -/
def appendK (e : Env) (sid : UInt32) (msg : Bytes) : M Status Ctx Unit := do
  let c ← M.get
  match c.session? sid with
  | none => M.panic
  | some s =>
    match s.th with
    | some x => M.set (c.updSession sid fun s => { s with th := some (hashUpdate msg x) })
    | none =>
      match startTh e s with
      | none => M.fail .cryptoError
      | some x => M.set (c.updSession sid fun s => { s with th := some (hashUpdate msg x) })

/-- index into an eight-slot array by a `u8`; out of range is a panic. -/
def slot? (b : UInt8) : Option (Fin 8) := if h : b.toNat < 8 then some ⟨b.toNat, h⟩ else none

/-- the mutual-authentication certificate digest of `append_message_f` (common/mod.rs:583-617). -/
def mutDigest (e : Env) (isReq : Bool) (c : Ctx) (s : Session) : Res Bytes :=
  if s.usePsk = false ∧ s.mutAuth ≠ 0 then do
    let slot ← Res.unwrap (slot? (if isReq then c.rt.localSlot else c.rt.peerSlot))
    let chain ← Res.ofOption .invalidStateLocal (if isReq then c.prov.chain slot else c.peer.chain slot)
    Res.ofOption .cryptoError (e.crypto.hash c.neg.baseHash chain)
  else pure []

/-- `append_message_f` (common/mod.rs:571-634). -/
def appendF (e : Env) (isReq : Bool) (sid : UInt32) (msg : Bytes) : M Status Ctx Unit := do
  let c ← M.get
  match c.session? sid with
  | none => M.panic
  | some s =>
    match s.th with
    | none => M.fail .invalidStateLocal
    | some x =>
      if s.fInit then M.set (c.updSession sid fun s => { s with th := some (hashUpdate msg x) })
      else do
        let d ← (mutDigest e isReq c s).lift
        M.set (c.updSession sid fun s => { s with fInit := true, th := some (hashUpdate msg (hashUpdate d x)) })

/-- `calc_req_transcript_hash`, `calc_rsp_transcript_hash` (common/mod.rs:831-868). -/
def transcriptHash (e : Env) (s : Session) : Res Bytes := do
  let x ← Res.ofOption .invalidStateLocal s.th
  Res.ofOption .cryptoError (hashFinal e x)

/-- `reset_buffer_via_request_code` (common/mod.rs:923-952). -/
def resetBuffers (k : ReqRespCode) (sid : Option UInt32) (c : Ctx) : Ctx :=
  let c := if k ≠ .reqGetMeasurements then resetM sid c else c
  match k with
  | .reqGetMeasurements | .reqKeyExchange | .reqFinish | .reqPskExchange | .reqPskFinish | .reqKeyUpdate
  | .reqHeartbeat | .reqEndSession => if c.rt.state.code < 5 then c.resetM1M2 else c
  | .reqGetDigests => c.resetM1M2
  | _ => c

/-! ### Sessions inside the context -/

/-- run a session operation on the session `get_session_via_id(sid)` returns; `none` is handled by `missing`. -/
def onSession {α : Type} (sid : UInt32) (missing : M Status Ctx α) (x : M Status Session α) : M Status Ctx α := do
  let c ← M.get
  match c.session? sid with
  | none => missing
  | some s =>
    match x s with
    | .ok a s' => do M.set (c.updSession sid fun _ => s'); pure a
    | .err st s' => do M.set (c.updSession sid fun _ => s'); M.fail st
    | .panic => M.panic

/-! ### Transport -/

/-- call a transport function on a zeroed buffer of `cap` bytes and return the used part (e.g. common/mod.rs:967-970). -/
def intoBuf (x : M Status Bytes Nat) (cap : Nat) : Res Bytes :=
  match x (List.replicate cap 0) with
  | .ok n buf => if n ≤ cap then .ok (buf.take n) else .panic
  | .err e _ => .err e
  | .panic => .panic

/-- same for the functions that also return a flag. -/
def intoBuf2 (x : M Status Bytes (Nat × Bool)) (cap : Nat) : Res (Bytes × Bool) :=
  match x (List.replicate cap 0) with
  | .ok (n, b) buf => if n ≤ cap then .ok (buf.take n, b) else .panic
  | .err e _ => .err e
  | .panic => .panic

/-- `encap` (common/mod.rs:954-957) into a `SENDER_BUFFER_SIZE` buffer. -/
def encap (e : Env) (msg : Bytes) : Res Bytes := intoBuf (e.tr.encap msg false) 4160

/-- `encode_secured_message` (common/mod.rs:959-985). -/
def encodeSecured (e : Env) (sid : UInt32) (msg : Bytes) (isReq isApp : Bool) : M Status Ctx Bytes := do
  let app ← (intoBuf (e.tr.encapApp msg isApp) 4160).lift
  let enc ← onSession sid (M.fail .invalidParameter) (Session.encodeSecured e.crypto app 4160 isReq)
  (intoBuf (e.tr.encap enc true) 4160).lift

/-- `decap` (common/mod.rs:987-1001) into a buffer of `cap` bytes. -/
def decap (e : Env) (tb : Bytes) (cap : Nat) : Res Bytes := do
  let r ← intoBuf2 (e.tr.decap tb) cap
  if r.2 then .err .decapFail else pure r.1

/-- `decode_secured_message` (common/mod.rs:1003-1034): used by the requester, so responses are decoded. -/
def decodeSecured (e : Env) (sid : UInt32) (tb : Bytes) (cap : Nat) : M Status Ctx Bytes := do
  let r ← (intoBuf2 (e.tr.decap tb) 4160).lift
  if r.2 = false then M.fail .decapFail else do
    let app ← onSession sid (M.fail .invalidParameter) (Session.decodeSecured e.crypto r.1 4160 false)
    let out ← (intoBuf2 (e.tr.decapApp app) cap).lift
    pure out.1

/-- `device_io.send` (common/mod.rs:76): the packet leaves, the device reports success or a status. -/
def devSend (e : Env) (pkt : Bytes) : M Status Ctx Unit := do
  let c ← M.get
  M.set { c with sent := c.sent ++ [pkt] }
  match e.send c.sent.length pkt with
  | none => pure ()
  | some st => M.fail st

/-- `n` random bytes (`crypto::rand::get_random(&mut buf)`). -/
def random (e : Env) (n : Nat) : Option Bytes := (e.random n).map fun b => (b ++ List.replicate n 0).take n

end Ctx
end Verif
