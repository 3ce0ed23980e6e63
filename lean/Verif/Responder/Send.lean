/-
Responder: sending messages and errors (spdmlib/src/responder/context.rs, error_rsp.rs).
-/
import Verif.Ctx.Opaque

namespace Verif

/-- What a response writer reports when it gives up: `pre` is what the writer already holds, then
`write_spdm_error(code, data)` is called and the function returns (responder/*_rsp.rs). -/
structure Reply where
  pre : Bytes := []
  code : ErrorCode
  data : UInt8 := 0
  deriving Repr, DecidableEq

/-- A `write_spdm_…_response` function: it returns the bytes in the writer, or an error to be written. -/
abbrev H (α : Type) := M Reply Ctx α

namespace Rsp

/-- `config::MAX_SPDM_MSG_SIZE` (etc/config.json): size of every send buffer. -/
def msgSize : Nat := 4096

/-- the message built by `write_spdm_error` (responder/error_rsp.rs:11-31). -/
def errorMsg (c : Ctx) (code : ErrorCode) (data : UInt8) : Msg :=
  ⟨⟨c.neg.version, .rspError⟩, .error ⟨code, data, .none⟩⟩

/-- `write_spdm_error` (responder/error_rsp.rs:11-31): the error is appended to what is in the writer, an encoding failure
is ignored; `none` is a panic. -/
def writeError (c : Ctx) (r : Reply) : Option Bytes :=
  match (errorMsg c r.code r.data).encode c.cc ⟨msgSize, r.pre⟩ with
  | .ok _ w => some w.out
  | .err _ w => some w.out
  | .panic => none

/-- run a response writer and return the contents of its buffer. -/
def reply (x : H Bytes) : M Status Ctx Bytes := fun c =>
  match x c with
  | .ok b c' => .ok b c'
  | .err r c' =>
    match writeError c' r with
    | some b => .ok b c'
    | none => .panic
  | .panic => .panic

/-- ignore the result of a function that returns a `Result` (`let _ = …`). -/
def quiet {ε α : Type} (x : M Status Ctx α) : M ε Ctx Unit := fun c =>
  match x c with
  | .ok _ c' => .ok () c'
  | .err _ c' => .ok () c'
  | .panic => .panic

/-- `set_connection_state` (common/mod.rs:1436-1438). -/
def setState {ε : Type} (st : ConnState) : M ε Ctx Unit := M.modify fun c => { c with rt := { c.rt with state := st } }

/-- the send buffer exceeds the requester's data transfer size (responder/context.rs:36-38, 101-104). -/
def tooLarge (c : Ctx) (msg : Bytes) : Bool := c.neg.reqDts != 0 && decide (c.neg.reqDts.toNat < msg.length)

/-- what `send_message` does after a successful send (responder/context.rs:50-90). -/
def afterSend (op : UInt8) : M Status Ctx Unit :=
  if op = ReqRespCode.rspVersion.get then setState .afterVersion
  else if op = ReqRespCode.rspCapabilities.get then setState .afterCapabilities
  else if op = ReqRespCode.rspAlgorithms.get then setState .negotiated
  else if op = ReqRespCode.rspDigests.get then do
    let c ← M.get
    if c.rt.state.code < ConnState.afterDigest.code then setState .afterDigest else pure ()
  else if op = ReqRespCode.rspCertificate.get then do
    let c ← M.get
    if c.rt.state.code < ConnState.afterCertificate.code then setState .afterCertificate else pure ()
  else if op = ReqRespCode.rspChallengeAuth.get then setState .authenticated
  else if op = ReqRespCode.rspFinishRsp.get then do
    let c ← M.get
    let sid ← M.unwrap c.rt.lastSession
    Ctx.onSession sid M.panic (M.modify fun s => { s with state := .established })
    M.modify fun c => { c with rt := { c.rt with lastSession := none } }
  else pure ()

/-- `send_message` past the size check (responder/context.rs:46-92). -/
def sendPlain (e : Env) (msg : Bytes) : M Status Ctx Unit := do
  let pkt ← (Ctx.encap e msg).lift
  Ctx.devSend e pkt
  let op ← M.unwrap msg[1]?
  afterSend op

/-- `send_message` (responder/context.rs:35-93): an oversized message is replaced by a ResponseTooLarge error; if that is
oversized too the recursion never ends, which the model shows as a panic. -/
def sendMessage (e : Env) (msg : Bytes) : M Status Ctx Unit := do
  let c ← M.get
  if tooLarge c msg then do
    let err ← M.unwrap (writeError c { code := .responseTooLarge })
    if tooLarge c err then M.panic else sendPlain e err
  else sendPlain e msg

/-- what `send_secured_message` does after a successful send (responder/context.rs:119-134). -/
def afterSecured (sid : UInt32) (op : UInt8) : M Status Ctx Unit :=
  if op = ReqRespCode.rspEndSessionAck.get then Ctx.onSession sid M.panic (Session.teardown sid)
  else if op = ReqRespCode.rspFinishRsp.get ∨ op = ReqRespCode.rspPskFinishRsp.get then
    Ctx.onSession sid M.panic (M.modify fun s => { s with state := .established })
  else pure ()

/-- `send_secured_message` past the size check (responder/context.rs:109-136). -/
def sendSecuredPlain (e : Env) (sid : UInt32) (msg : Bytes) (isApp : Bool) : M Status Ctx Unit := do
  let pkt ← Ctx.encodeSecured e sid msg false isApp
  Ctx.devSend e pkt
  let op ← M.unwrap msg[1]?
  afterSecured sid op

/-- `send_secured_message` (responder/context.rs:95-137). -/
def sendSecured (e : Env) (sid : UInt32) (msg : Bytes) (isApp : Bool) : M Status Ctx Unit := do
  let c ← M.get
  if isApp = false ∧ tooLarge c msg = true then do
    let err ← M.unwrap (writeError c { code := .responseTooLarge })
    if tooLarge c err then M.panic else sendSecuredPlain e sid err isApp
  else sendSecuredPlain e sid msg isApp

/-- the final `match session_id` of most handlers (e.g. responder/digest_rsp.rs:22-26). -/
def send (e : Env) (sid : Option UInt32) (msg : Bytes) : M Status Ctx Unit :=
  match sid with
  | some sid => sendSecured e sid msg false
  | none => sendMessage e msg

/-- `send_spdm_error` (responder/error_rsp.rs:33-39): sent in the clear, the result is ignored. -/
def sendError {ε : Type} (e : Env) (code : ErrorCode) : M ε Ctx Unit := do
  let c ← M.get
  let b ← M.unwrap (writeError c { code := code })
  quiet (sendMessage e b)

/-- `write_error_response` (responder/error_rsp.rs:59-81). -/
def errorResponse (code : ErrorCode) (bytes : Bytes) : H Bytes := do
  let c ← M.get
  match Header.read (Reader.init bytes) with
  | .panic => M.panic
  | .err _ _ => M.fail { code := .invalidRequest }
  | .ok h _ =>
    if h.version ≠ c.neg.version then M.fail { code := .versionMismatch }
    else M.fail { code := code, data := if code = .unsupportedRequest then h.code.get else 0 }

/-- `handle_error_request` (responder/error_rsp.rs:43-57). -/
def handleError (e : Env) (code : ErrorCode) (sid : Option UInt32) (bytes : Bytes) : M Status Ctx Unit := do
  let b ← reply (errorResponse code bytes)
  send e sid b

/-! ### helpers shared by the response writers -/

/-- `SpdmMessageHeader::read` with the InvalidRequest error every writer uses (e.g. responder/version_rsp.rs:20-30). -/
def header (bytes : Bytes) : H (Header × Reader) :=
  match Header.read (Reader.init bytes) with
  | .panic => M.panic
  | .err _ _ => M.fail { code := .invalidRequest }
  | .ok h r => pure (h, r)

/-- header of the negotiated version (e.g. responder/digest_rsp.rs:41-51). -/
def checkVersion (bytes : Bytes) : H Reader := do
  let (h, r) ← header bytes
  let c ← M.get
  if h.version ≠ c.neg.version then M.fail { code := .versionMismatch } else pure r

/-- `Payload::spdm_read` with the InvalidRequest error; returns the payload and the message bytes consumed so far
(`bytes[..reader.used()]`). -/
def readReq {α : Type} (x : Cc → Rd α) (bytes : Bytes) (r : Reader) : H (α × Bytes) := do
  let c ← M.get
  match x c.cc r with
  | .panic => M.panic
  | .err _ _ => M.fail { code := .invalidRequest }
  | .ok a r' => pure (a, bytes.take r'.used)

/-- `response.spdm_encode(&mut self.common, writer)` with the Unspecified error: what was written stays in the writer. -/
def encodeRsp (k : ReqRespCode) (p : Payload) : H Bytes := fun c =>
  match Msg.encode c.cc ⟨⟨c.neg.version, k⟩, p⟩ (Writer.init msgSize) with
  | .ok _ w => .ok w.out c
  | .err _ w => .err { pre := w.out, code := .unspecified } c
  | .panic => .panic

/-- a transcript update whose failure is reported as Unspecified, the writer being empty. -/
def orUnspecified {α : Type} (x : M Status Ctx α) : H α := x.mapErr { code := .unspecified }
/-- a transcript update whose failure is reported as Unspecified after the response was written. -/
def orAppended {α : Type} (rsp : Bytes) (x : M Status Ctx α) : H α := x.mapErr { pre := rsp, code := .unspecified }

/-- `used_slice[..used - n]`; a negative index panics. -/
def dropTail (n : Nat) (b : Bytes) : Res Bytes := if n ≤ b.length then .ok (b.take (b.length - n)) else .panic

/-- `mut_used_slice()[(used - n)..used].copy_from_slice(new)`: panics when lengths differ. -/
def patchTail (n : Nat) (new b : Bytes) : Res Bytes :=
  if n ≤ b.length ∧ new.length = n then .ok (b.take (b.length - n) ++ new) else .panic

/-- use a state-free function inside a writer; its error is `r`. -/
def liftH {α : Type} (r : Reply) (x : Res α) : H α := x.lift.mapErr r

/-- the measurement summary hash of CHALLENGE, KEY_EXCHANGE and PSK_EXCHANGE (e.g. responder/challenge_rsp.rs:58-84):
records whether one is needed; `none` when the provider fails or returns an empty digest. -/
def summaryHash {ε : Type} (e : Env) (t : SummaryHashType) : M ε Ctx (Option Bytes) := do
  if t = .tcb ∨ t = .all then do
    M.modify fun c => { c with rt := { c.rt with needSummary := true } }
    let c ← M.get
    match e.summary c.neg.version c.neg.baseHash c.neg.measSpec c.neg.measHash t with
    | none => pure none
    | some h => if h.length = 0 then pure none else pure (some h)
  else do
    M.modify fun c => { c with rt := { c.rt with needSummary := false } }
    pure (some [])

/-- slot number in range and provisioned (e.g. responder/challenge_rsp.rs:92-101). -/
def localChain (c : Ctx) (slot : UInt8) : Option Bytes := (Ctx.slot? slot).bind c.prov.chain

end Rsp
end Verif
