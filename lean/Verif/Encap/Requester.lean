/-
The requester of a session-based mutual authentication: serving the responder's encapsulated requests
(spdmlib/src/requester/{encap_req,encap_digest,encap_certificate,encap_error,mutual_authenticate}.rs), compiled with the
`mut-auth` feature.
-/
import Verif.Encap.Msg
import Verif.Requester.Sessions

namespace Verif
namespace Encap

/-- `let _ = x.spdm_encode(…)`: the result is ignored, what was written stays. -/
def ignoring (x : Enc Nat) : Enc Unit := fun w =>
  match x w with
  | .ok _ w => .ok () w
  | .err _ w => .ok () w
  | .panic => .panic

/-- `encode_encap_error_response` (requester/encap_error.rs:19-39), always called with error data 0. -/
def error (c : Ctx) (code : ErrorCode) : Enc Unit := ignoring (Msg.encode c.cc ⟨⟨c.neg.version, .rspError⟩, .error ⟨code, 0, .none⟩⟩)

/-- DIGESTS of the provisioned chains (requester/encap_digest.rs:74-127): the digest of every provisioned slot is written to the
end of what is in the writer. -/
def digests (e : Env) (c : Ctx) : Enc Unit := fun w =>
  match c.cc.hashSize? with
  | none => .panic
  | some hs =>
    match Msg.encode c.cc ⟨⟨c.neg.version, .rspDigests⟩, .digests ⟨Rsp.slotMask c.prov, List.replicate 8 (List.replicate hs 0xff)⟩⟩ w with
    | .panic => .panic
    | .err _ w => error c .unspecified w
    | .ok _ w =>
      match Rsp.patchDigests e c (List.finRange 8) w.out with
      | .ok b => .ok () { w with out := b }
      | _ => .panic

/-- `encap_handle_get_digest` (requester/encap_digest.rs:25-128). -/
def serveDigests (e : Env) (c : Ctx) (req : Bytes) : Enc Unit :=
  if Cap.has c.neg.reqCaps Cap.cert = false then error c .unsupportedRequest else
  match Header.read (Reader.init req) with
  | .panic => M.panic
  | .err _ _ => error c .invalidRequest
  | .ok h r =>
    if h.version ≠ c.neg.version then error c .versionMismatch else
    match rdNoParams r with
    | .panic => M.panic
    | .err _ _ => error c .invalidRequest
    | .ok _ _ => digests e c

/-- a portion of a chain (requester/encap_certificate.rs:91-139). -/
def portion (c : Ctx) (m : GetCert) (chain : Bytes) : Enc Unit :=
  match Rsp.certPortion chain.length.toUInt16 m.offset m.length with
  | none => error c .invalidRequest
  | some (p, rem) =>
    ignoring (Msg.encode c.cc ⟨⟨c.neg.version, .rspCertificate⟩, .cert ⟨m.slot, p, rem, (chain.drop m.offset.toNat).take p.toNat⟩⟩)

/-- `encap_handle_get_certificate` (requester/encap_certificate.rs:20-140). -/
def serveCertificate (c : Ctx) (req : Bytes) : Enc Unit :=
  if Cap.has c.neg.reqCaps Cap.cert = false then error c .unsupportedRequest else
  match Header.read (Reader.init req) with
  | .panic => M.panic
  | .err _ _ => error c .invalidRequest
  | .ok h r =>
    if h.version ≠ c.neg.version then error c .versionMismatch else
    match GetCert.read r with
    | .panic => M.panic
    | .err _ _ => error c .invalidRequest
    | .ok m _ =>
      if m.slot ≠ 0 then error c .invalidRequest else
      match Rsp.localChain c m.slot with
      | none => error c .invalidRequest
      | some chain => portion c m chain

/-- the `match` of `process_encapsulated_request` (requester/encap_req.rs:200-213). -/
def serve (e : Env) (c : Ctx) (k : ReqRespCode) (req : Bytes) : Enc Unit :=
  match k with
  | .reqGetDigests => serveDigests e c req
  | .reqGetCertificate => serveCertificate c req
  | _ => error c .unexpectedRequest

/-- the DELIVER_ENCAPSULATED_RESPONSE `process_encapsulated_request` builds (requester/encap_req.rs:176-213). -/
def delivery (e : Env) (c : Ctx) (id : UInt8) (req : Bytes) : Res Bytes :=
  match Enc.seq [Header.encode ⟨c.neg.version, .reqDeliverEncapsulatedResponse⟩, encId id] (Writer.init 4096) with
  | .panic => .panic
  | .err x _ => .err (Req.encStatus x)
  | .ok _ w =>
    match Header.read (Reader.init req) with
    | .panic => .panic
    | .err _ _ => .err .invalidMsgField
    | .ok h _ =>
      match serve e c h.code req w with
      | .ok _ w => .ok w.out
      | _ => .panic

/-- `process_encapsulated_request` (requester/encap_req.rs:176-216). -/
def answer (e : REnv) (sid : UInt32) (id : UInt8) (req : Bytes) : M Status Ctx Unit := do
  let c ← M.get
  let b ← (delivery e.toEnv c id req).lift
  Req.sendSecured e sid b false

/-- a received message in its zeroed `MAX_SPDM_MSG_SIZE` buffer (requester/encap_req.rs:100-102, 126-128). -/
def padded (b : Bytes) : Bytes := b ++ List.replicate (4096 - b.length) 0

/-- the header checks shared by the two receiving functions (requester/encap_req.rs:104-111, 130-137). -/
def carrier (k : ReqRespCode) (b : Bytes) : M Status Ctx Reader := do
  let (h, r) ← (Res.read .invalidMsgSize Header.read (Reader.init (padded b))).lift
  let c ← M.get
  if c.neg.version ≠ h.version ∨ h.code ≠ k then M.fail .invalidMsgField else pure r

/-- `send_get_encapsulated_request` (requester/encap_req.rs:83-98). -/
def sendGet (e : REnv) (sid : UInt32) : M Status Ctx Unit := do
  let c ← M.get
  match Enc.seq [Header.encode ⟨c.neg.version, .reqGetEncapsulatedRequest⟩, encGet] (Writer.init 4) with
  | .panic => M.panic
  | .err x _ => M.fail (Req.encStatus x)
  | .ok _ w => Req.sendSecured e sid w.out false

/-- `receive_encapsulated_request` (requester/encap_req.rs:100-122): the encapsulated request is the rest of the buffer. -/
def receiveRequest (e : REnv) (sid : UInt32) : M Status Ctx Unit := do
  let b ← Req.receiveSecured e sid
  let r ← carrier .rspEncapsulatedRequest b
  let (id, r) ← (Res.read .invalidMsgSize rdId r).lift
  answer e sid id ((padded b).drop r.used)

/-- `receive_encapsulated_response_ack` (requester/encap_req.rs:124-174): whether the exchange goes on. -/
def receiveAck (e : REnv) (sid : UInt32) : M Status Ctx Bool := do
  let b ← Req.receiveSecured e sid
  let r ← carrier .rspEncapsulatedResponseAck b
  let c ← M.get
  let (m, r) ← (Res.read .invalidMsgSize (Ack.read c.cc) r).lift
  match m.payload with
  | .absent => if b.length = 8 then pure false else M.fail .invalidMsgSize
  | .reqSlotNumber =>
    if b.length = 9 then do
      let (slot, _) ← (Res.read .invalidMsgSize rdU8 r).lift
      if slot ≥ 8 then M.fail .invalidMsgField else do
      M.modify fun c => { c with rt := { c.rt with localSlot := slot } }
      pure false
    else M.fail .invalidMsgSize
  | _ => do
    answer e sid m.requestId ((padded b).drop r.used)
    pure true

/-- `while self.receive_encapsulated_response_ack(session_id)? {}` (requester/encap_req.rs:79).  `fuel` bounds the number of
iterations: running out stands for a loop that has not ended, shown as a panic, and every theorem holds for all `fuel`. -/
def ackLoop (e : REnv) (sid : UInt32) : (fuel : Nat) → M Status Ctx Unit
  | 0 => M.panic
  | fuel + 1 => do
    let more ← receiveAck e sid
    if more = true then ackLoop e sid fuel else pure ()

/-- the first message of the exchange (requester/encap_req.rs:54-77). -/
def opening (e : REnv) (sid : UInt32) (mutAuth : UInt8) : M Status Ctx Unit := do
  if mutAuth = 4 then do
    let c ← M.get
    match Msg.encode c.cc ⟨⟨c.neg.version, .reqGetDigests⟩, .getDigests⟩ (Writer.init 4) with
    | .panic => M.panic
    | .err x _ => M.fail (Req.encStatus x)
    | .ok _ w => answer e sid 0 (w.out ++ List.replicate (4 - w.out.length) 0)
  else do
    sendGet e sid
    receiveRequest e sid

/-- `get_encapsulated_request_response` (requester/encap_req.rs:29-81). -/
def exchange (e : REnv) (fuel : Nat) (sid : UInt32) (mutAuth : UInt8) : M Status Ctx Unit := do
  let c ← M.get
  if c.neg.version.get < 0x11 then M.fail .unsupportedCap else
  if Cap.has c.neg.reqCaps Cap.encap = false ∨ Cap.has c.neg.rspCaps Cap.encap = false then M.fail .unsupportedCap else do
  opening e sid mutAuth
  ackLoop e sid fuel

/-- `session_based_mutual_authenticate` (requester/mutual_authenticate.rs:13-30). -/
def mutualAuthenticate (e : REnv) (fuel : Nat) (sid : UInt32) : M Status Ctx Unit := do
  Ctx.constructChains e.toEnv
  let c ← M.get
  let s ← M.ofOption .invalidStateLocal (c.session? sid)
  if s.mutAuth = 1 then pure ()
  else if s.mutAuth = 2 ∨ s.mutAuth = 4 then exchange e fuel sid s.mutAuth
  else M.fail .invalidMsgField

end Encap
end Verif
