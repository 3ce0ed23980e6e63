/-
Requester: sending requests, receiving and sorting responses
(spdmlib/src/requester/context.rs, handle_error_response_req.rs).
-/
import Verif.Responder.Sessions

namespace Verif

/-- The outside world of a requester: that of `Env` and the device's `receive`.  What the device delivers may depend on every
packet the requester has sent so far; `none` is `Err`. -/
structure REnv extends Env where
  recv : List Bytes → Option Bytes

namespace Req

/-- `send_message` (requester/context.rs:67-76). -/
def sendMessage (e : REnv) (msg : Bytes) : M Status Ctx Unit := do
  let c ← M.get
  if c.neg.rspDts ≠ 0 ∧ c.neg.rspDts.toNat < msg.length then M.fail .sendFail else do
  let pkt ← (Ctx.encap e.toEnv msg).lift
  Ctx.devSend e.toEnv pkt

/-- `send_secured_message` (requester/context.rs:78-99). -/
def sendSecured (e : REnv) (sid : UInt32) (msg : Bytes) (isApp : Bool) : M Status Ctx Unit := do
  let c ← M.get
  if isApp = false ∧ c.neg.rspDts ≠ 0 ∧ c.neg.rspDts.toNat < msg.length then M.fail .sendFail else do
  let pkt ← Ctx.encodeSecured e.toEnv sid msg true isApp
  Ctx.devSend e.toEnv pkt

/-- `device_io.receive` into a `RECEIVER_BUFFER_SIZE` buffer (requester/context.rs:114-119, 139-144); the timeout is not
modelled. -/
def receive (e : REnv) : M Status Ctx Bytes := do
  let c ← M.get
  let p ← M.ofOption .receiveFail (e.recv c.sent)
  if p.length ≤ 4160 then pure p else M.panic

/-- `receive_message` (requester/context.rs:101-122) into a `MAX_SPDM_MSG_SIZE` buffer. -/
def receiveMessage (e : REnv) : M Status Ctx Bytes := do
  let p ← receive e
  (Ctx.decap e.toEnv p 4096).lift

/-- `receive_secured_message` (requester/context.rs:124-148) into a `MAX_SPDM_MSG_SIZE` buffer. -/
def receiveSecured (e : REnv) (sid : UInt32) : M Status Ctx Bytes := do
  let p ← receive e
  Ctx.decodeSecured e.toEnv sid p 4096

/-- the two `match session_id` of most requests (e.g. requester/get_digests_req.rs:20-35): send, then receive. -/
def transact (e : REnv) (sid : Option UInt32) (msg : Bytes) : M Status Ctx Bytes :=
  match sid with
  | some sid => do
    sendSecured e sid msg false
    receiveSecured e sid
  | none => do
    sendMessage e msg
    receiveMessage e

/-- the status an encoder returns (codec/src/lib.rs, message/*.rs). -/
def encStatus : EncErr → Status
  | .bufferFull => .bufferFull
  | .unsupportedCap => .unsupportedCap

/-- `request.spdm_encode(…)` into a zeroed `MAX_SPDM_MSG_SIZE` buffer and `send_buffer[..send_used]`
(e.g. requester/get_version_req.rs:17-19); `send_used` is what the encoder returned. -/
def encodeAs (v : SpdmVersion) (k : ReqRespCode) (p : Payload) : M Status Ctx Bytes := fun c =>
  match Msg.encode c.cc ⟨⟨v, k⟩, p⟩ (Writer.init 4096) with
  | .ok n w => if n ≤ 4096 then .ok ((w.out ++ List.replicate (4096 - w.out.length) 0).take n) c else .panic
  | .err e _ => .err (encStatus e) c
  | .panic => .panic

/-- a request whose header carries the negotiated version. -/
def encodeReq (k : ReqRespCode) (p : Payload) : M Status Ctx Bytes := do
  let c ← M.get
  encodeAs c.neg.version k p

/-- `spdm_handle_simple_error_response` (requester/handle_error_response_req.rs:16-40). -/
def simpleError {α : Type} (sid : Option UInt32) (code : UInt8) : M Status Ctx α :=
  if code = ErrorCode.responseNotReady.get then M.fail .notReadyPeer
  else if code = ErrorCode.busy.get then M.fail .busyPeer
  else if code = ErrorCode.requestResynch.get then
    match sid with
    | some sid => do
      Ctx.onSession sid (M.fail .invalidParameter) (M.modify fun s => { s with state := .notStarted })
      M.fail .invalidParameter
    | none => M.fail .invalidParameter
  else M.fail .errorPeer

/-- `spdm_handle_error_response_main` past the header (requester/handle_error_response_req.rs:66-86). -/
def errorPayload {α : Type} (sid : Option UInt32) (param1 : UInt8) : M Status Ctx α :=
  if param1 = ErrorCode.decryptError.get then
    match sid with
    | some sid => do
      Ctx.onSession sid (M.fail .invalidParameter) (Session.teardown sid)
      M.fail .sessionMsgError
    | none => M.fail .sessionMsgError
  else simpleError sid param1

/-- `spdm_handle_error_response_main` (requester/handle_error_response_req.rs:42-87).  It never returns `Ok`, so the model
gives it any result type. -/
def handleError {α : Type} (sid : Option UInt32) (bytes : Bytes) : M Status Ctx α := do
  let (h, r) ← (Res.read .invalidMsgField Header.read (Reader.init bytes)).lift
  let c ← M.get
  if h.version ≠ c.neg.version then M.fail .invalidMsgField else
  if h.code ≠ .rspError then M.fail .invalidMsgField else do
  let (p1, r) ← (Res.read .invalidMsgField rdU8 r).lift
  let (_, _) ← (Res.read .invalidMsgField rdU8 r).lift
  errorPayload sid p1

/-- the `match message_header.request_response_code` of every response handler
(e.g. requester/get_digests_req.rs:69-97). -/
def sort (sid : Option UInt32) (k : ReqRespCode) (bytes : Bytes) (h : Header) (r : Reader) : M Status Ctx Reader :=
  if h.code = k then pure r
  else if h.code = .rspError then handleError sid bytes
  else M.fail .errorPeer

/-- header, version and code of a response (e.g. requester/get_digests_req.rs:62-98); returns the reader after the header. -/
def expect (sid : Option UInt32) (k : ReqRespCode) (bytes : Bytes) : M Status Ctx Reader := do
  let (h, r) ← (Res.read .invalidMsgField Header.read (Reader.init bytes)).lift
  let c ← M.get
  if h.version ≠ c.neg.version then M.fail .invalidMsgField else
  sort sid k bytes h r

/-- the same without a version check: VERSION (requester/get_version_req.rs:44-116) and FINISH_RSP
(requester/finish_req.rs:209-312). -/
def expectAnyVersion (sid : Option UInt32) (k : ReqRespCode) (bytes : Bytes) : M Status Ctx Reader := do
  let (h, r) ← (Res.read .invalidMsgField Header.read (Reader.init bytes)).lift
  sort sid k bytes h r

/-- both messages of a non-session exchange go to M1/M2 (e.g. requester/get_digests_req.rs:78-84). -/
def appendBBoth (e : REnv) (sid : Option UInt32) (req rsp : Bytes) : M Status Ctx Unit :=
  match sid with
  | none => do
    Ctx.appendB e.toEnv req
    Ctx.appendB e.toEnv rsp
  | some _ => pure ()

/-- record whether a measurement summary hash is expected (e.g. requester/challenge_req.rs:81-90). -/
def wantSummary (t : SummaryHashType) (c : Ctx) : Ctx :=
  { c with rt := { c.rt with needSummary := decide (t = .tcb ∨ t = .all) } }

/-- the certificates of the peer's chain in a slot (e.g. requester/challenge_req.rs:165-176): the stored chain without its
4-byte header and root hash.  A slot past the table panics. -/
def peerCerts (c : Ctx) (slot : UInt8) : Res Bytes := do
  let i ← Res.unwrap (Ctx.slot? slot)
  let chain ← Res.ofOption .invalidParameter (c.peer.chain i)
  let hs ← Res.unwrap c.cc.hashSize?
  if chain.length < 4 + hs then .panic else pure (chain.drop (4 + hs))

/-- `crypto::asym_verify::verify` under the peer's chain with the negotiated algorithms. -/
def verifyWith (e : REnv) (c : Ctx) (certs msg sig : Bytes) : Res Unit :=
  if e.verify c.neg.baseHash c.neg.baseAsym certs msg sig then .ok () else .err .verifFail

/-- `calc_req_transcript_hash` of the session with that id (e.g. requester/key_exchange_req.rs:308-313). -/
def thOf (e : REnv) (sid : UInt32) : M Status Ctx Bytes := do
  let c ← M.get
  let s ← M.unwrap (c.session? sid)
  (Ctx.transcriptHash e.toEnv s).lift

end Req
end Verif
