/-
Responder: dispatching of received messages (spdmlib/src/responder/context.rs).
-/
import Verif.Responder.Sessions

namespace Verif
namespace Rsp

/-- FINISH outside a session (responder/context.rs:404-446): only with HANDSHAKE_IN_THE_CLEAR, for the session remembered by
KEY_EXCHANGE, in its handshake phase. -/
def plainFinish (e : Env) (bytes : Bytes) : M Status Ctx Unit := do
  let c ← M.get
  match (if c.cc.inClear then c.rt.lastSession else none) with
  | none => handleError e .unexpectedRequest none bytes
  | some sid =>
    match c.session? sid with
    | none => handleError e .unexpectedRequest none bytes
    | some s =>
      if s.state = .handshaking then handleFinish e sid bytes else handleError e .unexpectedRequest none bytes

/-- the `match` of `dispatch_message` (responder/context.rs:379-457). -/
def dispatchCode (e : Env) (k : ReqRespCode) (bytes : Bytes) : M Status Ctx Unit :=
  match k with
  | .reqGetVersion => handleVersion e bytes
  | .reqGetCapabilities => handleCapability e bytes
  | .reqNegotiateAlgorithms => handleAlgorithm e bytes
  | .reqGetDigests => handleDigest e none bytes
  | .reqGetCertificate => handleCertificate e none bytes
  | .reqChallenge => handleChallenge e bytes
  | .reqGetMeasurements => handleMeasurement e none bytes
  | .reqKeyExchange => handleKeyExchange e bytes
  | .reqPskExchange => handlePskExchange e bytes
  | .reqVendorDefinedRequest => handleVendor e none bytes
  | .reqFinish => plainFinish e bytes
  | .reqPskFinish | .reqHeartbeat | .reqKeyUpdate | .reqEndSession => handleError e .unexpectedRequest none bytes
  | .reqResponseIfReady => handleError e .unsupportedRequest none bytes
  | _ => M.fail .unsupportedCap

/-- `dispatch_message` (responder/context.rs:375-460). -/
def dispatch (e : Env) (bytes : Bytes) : M Status Ctx Unit := do
  let (h, _) ← (Res.read .unsupportedCap Header.read (Reader.init bytes)).lift
  dispatchCode e h.code bytes

/-- `dispatch_secured_message` in the handshake phase (responder/context.rs:236-298). -/
def dispatchHandshake (e : Env) (sid : UInt32) (bytes : Bytes) : M Status Ctx Unit := do
  let c ← M.get
  if c.cc.inClear then M.fail .unsupportedCap else do
  let (h, _) ← (Res.read .unsupportedCap Header.read (Reader.init bytes)).lift
  match h.code with
  | .reqFinish => handleFinish e sid bytes
  | .reqPskFinish => handlePskFinish e sid bytes
  | .reqVendorDefinedRequest => handleVendor e (some sid) bytes
  | .reqGetVersion | .reqGetCapabilities | .reqNegotiateAlgorithms | .reqGetDigests | .reqGetCertificate | .reqChallenge
  | .reqGetMeasurements | .reqKeyExchange | .reqPskExchange | .reqHeartbeat | .reqKeyUpdate | .reqEndSession =>
    handleError e .unexpectedRequest (some sid) bytes
  | .reqResponseIfReady => handleError e .unsupportedRequest (some sid) bytes
  | _ => M.fail .unsupportedCap

/-- `dispatch_secured_message` in the application phase (responder/context.rs:299-356). -/
def dispatchApplication (e : Env) (sid : UInt32) (bytes : Bytes) : M Status Ctx Unit := do
  let (h, _) ← (Res.read .unsupportedCap Header.read (Reader.init bytes)).lift
  match h.code with
  | .reqGetDigests => handleDigest e (some sid) bytes
  | .reqGetCertificate => handleCertificate e (some sid) bytes
  | .reqGetMeasurements => handleMeasurement e (some sid) bytes
  | .reqHeartbeat => handleHeartbeat e sid bytes
  | .reqKeyUpdate => handleKeyUpdate e sid bytes
  | .reqEndSession => handleEndSession e sid bytes
  | .reqVendorDefinedRequest => handleVendor e (some sid) bytes
  | .reqGetVersion | .reqGetCapabilities | .reqNegotiateAlgorithms | .reqChallenge | .reqKeyExchange | .reqPskExchange
  | .reqFinish | .reqPskFinish => handleError e .unexpectedRequest (some sid) bytes
  | .reqResponseIfReady => handleError e .unsupportedRequest (some sid) bytes
  | _ => M.fail .unsupportedCap

/-- `dispatch_secured_message` (responder/context.rs:227-361). -/
def dispatchSecured (e : Env) (sid : UInt32) (bytes : Bytes) : M Status Ctx Unit := do
  let c ← M.get
  match c.session? sid with
  | none => M.fail .unsupportedCap
  | some s =>
    match s.state with
    | .handshaking => dispatchHandshake e sid bytes
    | .established => dispatchApplication e sid bytes
    | .notStarted => M.fail .unsupportedCap

/-- `dispatch_secured_app_message` (responder/context.rs:363-374): a callback error panics. -/
def dispatchApp (e : Env) (sid : UInt32) (bytes : Bytes) : M Status Ctx Unit := do
  let b ← M.unwrap (e.app sid bytes)
  sendSecured e sid b true

/-- `.is_ok()` -/
def isOk {ε : Type} (x : M Status Ctx Unit) : M ε Ctx Bool := fun c =>
  match x c with
  | .ok _ c' => .ok true c'
  | .err _ c' => .ok false c'
  | .panic => .panic

/-- decoding of a secured packet in `process_message` (responder/context.rs:148-178). -/
def openSecured (e : Env) (pkt : Bytes) : M Unit Ctx (UInt32 × Bytes × Bool) := do
  let (sid, _) ← ((Res.read .invalidParameter rdU32 (Reader.init pkt)).lift).mapErr ()
  let app ← (Ctx.onSession sid (M.fail .invalidParameter) (Session.decodeSecured e.crypto pkt 4160 true)).mapErr ()
  let (msg, isApp) ← ((Ctx.intoBuf2 (e.tr.decapApp app) msgSize).lift).mapErr ()
  pure (sid, msg, isApp)

/-- `process_message` (responder/context.rs:139-200) for a packet `rx` the device received (at most 4160 bytes); the raw
packet returned with `Err` is left out, and so is a failing `device_io.receive`, which changes nothing. -/
def processMessage (e : Env) (rx : Bytes) : M Unit Ctx Bool := do
  let (pkt, secured) ← ((Ctx.intoBuf2 (e.tr.decap rx) 4160).lift).mapErr ()
  if secured then do
    let (sid, msg, isApp) ← openSecured e pkt
    if isApp then isOk (dispatchApp e sid msg) else isOk (dispatchSecured e sid msg)
  else isOk (dispatch e pkt)

end Rsp
end Verif
