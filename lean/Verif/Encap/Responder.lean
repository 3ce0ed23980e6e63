/-
The responder of a session-based mutual authentication: asking for the requester's digests and certificates and checking them
(spdmlib/src/responder/{encap_rsp,encap_get_digest,encap_get_certificate}.rs), compiled with the `mut-auth` feature.
-/
import Verif.Encap.Requester
import Verif.Responder.Dispatch

namespace Verif
namespace Encap

/-- `SpdmEncapContext` (common/mod.rs:1484-1490). -/
structure Asking where
  reqSlot : UInt8 := 0
  requestId : UInt8 := 0
  certSize : UInt16 := 0
  deriving Repr, DecidableEq

/-- what a handler works on: the context, its `encap_context` and the writer of the answer. -/
structure St where
  c : Ctx
  x : Asking
  w : Writer

/-- a response writer of the encapsulation handlers. -/
abbrev W (α : Type) := M Status St α

/-- `spdm_encode` into the writer; what was written stays when it fails. -/
def put (x : Cc → Enc Nat) : W Unit := fun s =>
  match x s.c.cc s.w with
  | .ok _ w => .ok () { s with w := w }
  | .err x w => .err (Req.encStatus x) { s with w := w }
  | .panic => .panic

/-- `let _ = …` -/
def discarding (x : W Unit) : W Unit := fun s =>
  match x s with
  | .ok _ s => .ok () s
  | .err _ s => .ok () s
  | .panic => .panic

/-- `write_spdm_error` (responder/error_rsp.rs:11-31). -/
def writeErr (code : ErrorCode) (data : UInt8) : W Unit := fun s =>
  discarding (put fun cc => (Rsp.errorMsg s.c code data).encode cc) s

/-- `send_spdm_error` (responder/error_rsp.rs:33-39). -/
def sendErr (e : Env) (code : ErrorCode) (data : UInt8) : W Unit := fun s =>
  match Rsp.writeError s.c { code := code, data := data } with
  | none => .panic
  | some b =>
    match Rsp.sendMessage e b s.c with
    | .ok _ c => .ok () { s with c := c }
    | .err _ c => .ok () { s with c := c }
    | .panic => .panic

/-- the version check (responder/encap_rsp.rs:122-132): the ERROR is sent at once and in the clear. -/
def checkVersion (e : Env) (k : UInt8) : W Unit := fun s => if s.c.neg.version.get < 0x11 then sendErr e .unsupportedRequest k s else .ok () s

/-- the checks of capabilities and connection state (responder/encap_rsp.rs:134-155): the ERROR is written. -/
def checkState (k : UInt8) : W Unit := fun s =>
  if Cap.has s.c.neg.reqCaps Cap.encap = false ∨ Cap.has s.c.neg.rspCaps Cap.encap = false then writeErr .unsupportedRequest k s
  else if s.c.rt.state.code < ConnState.afterCertificate.code then writeErr .unexpectedRequest 0 s else .ok () s

/-- `encap_check_version_cap_state` (responder/encap_rsp.rs:122-156): it returns nothing, so its callers go on. -/
def check (e : Env) (k : UInt8) : W Unit := do
  checkVersion e k
  checkState k

/-- `encode_encap_request_get_digest` (responder/encap_get_digest.rs:14-26). -/
def askDigests : W Unit := fun s => put (fun cc => Msg.encode cc ⟨⟨s.c.neg.version, .reqGetDigests⟩, .getDigests⟩) s

/-- `write_encap_request_response` (responder/encap_rsp.rs:38-74). -/
def requestBody (bytes : Bytes) : W Unit := fun s =>
  match Header.read (Reader.init bytes) with
  | .panic => .panic
  | .err _ _ => writeErr .invalidRequest 0 s
  | .ok h _ =>
    if h.version ≠ s.c.neg.version then writeErr .versionMismatch 0 s else
    match put (fun _ => Enc.seq [Header.encode ⟨s.c.neg.version, .rspEncapsulatedRequest⟩, encId s.x.requestId]) s with
    | .panic => .panic
    | .err _ s => writeErr .unspecified 0 s
    | .ok _ s =>
      match askDigests s with
      | .panic => .panic
      | .err _ s => writeErr .invalidResponseCode 0 s
      | .ok _ s => .ok () s

/-- `handle_encap_response_digest` (responder/encap_get_digest.rs:28-52): the digests are read and dropped. -/
def heardDigests (bytes : Bytes) : W Unit := fun s =>
  match Header.read (Reader.init bytes) with
  | .panic => .panic
  | .err _ _ => .err .invalidMsgField s
  | .ok h r =>
    if h.version ≠ s.c.neg.version then .err .invalidMsgField s else
    if h.code ≠ .rspDigests then .err .invalidMsgField s else
    match Digests.read s.c.cc r with
    | .panic => .panic
    | .err _ _ => .err .invalidMsgField s
    | .ok _ _ => .ok () s

/-- `encode_encap_requst_get_certificate` (responder/encap_get_certificate.rs:26-57). -/
def askCertificate : W Unit := fun s =>
  let temp := s.c.peer.temp.getD []
  put (fun cc => Msg.encode cc ⟨⟨s.c.neg.version, .reqGetCertificate⟩, .getCert ⟨s.x.reqSlot, temp.length.toUInt16, 512⟩⟩)
    { s with c := { s.c with peer := { s.c.peer with temp := some temp } } }

/-- `verify_spdm_certificate_chain` (responder/encap_get_certificate.rs:165-260); a failing `get_cert_from_cert_chain` reports
INVALID_CERT. -/
def verifyChain (e : Env) (c : Ctx) : Res Unit := do
  let chain ← Res.ofOption .invalidParameter c.peer.temp
  let hs ← Res.unwrap c.cc.hashSize?
  if chain.length ≤ 4 + hs then .err .invalidCert else
  if (Req.sizeField chain).toNat ≠ chain.length then .err .invalidCert else do
  if e.verifyChain (chain.drop (4 + hs)) = false then .err .invalidCert else do
  let (b, en) ← Res.ofOption .invalidCert (e.certFromChain (chain.drop (4 + hs)) 0)
  let root ← Req.rootSlice (chain.drop (4 + hs)) b en
  let h ← Res.ofOption .cryptoError (e.crypto.hash c.neg.baseHash root)
  if h ≠ (chain.drop 4).take hs then .err .invalidCert else
  if Req.rootAuthorised c root = false then .err .invalidCert else
  .ok ()

/-- the checks on a portion (responder/encap_get_certificate.rs:84-114), in `u16` arithmetic; `size` is the `encap_cert_size`
the check uses. -/
def refused (offset : UInt16) (reqSlot : UInt8) (size : UInt16) (m : CertRsp) : Bool :=
  decide (m.portion > 512) || decide (m.portion > 4096 - offset) || decide (m.remainder ≥ 4096 - offset - m.portion) ||
  decide (m.slot ≠ reqSlot) || (decide (size ≠ 0) && decide (size ≠ offset + m.portion + m.remainder))

/-- `encap_cert_size` is set by the first portion (responder/encap_get_certificate.rs:102-105). -/
def sizeAfter (x : Asking) (offset : UInt16) (m : CertRsp) : UInt16 := if offset = 0 then m.portion + m.remainder else x.certSize

/-- the first four checks come before `encap_cert_size` is set (responder/encap_get_certificate.rs:84-100). -/
def refusedEarly (offset : UInt16) (reqSlot : UInt8) (m : CertRsp) : Bool := refused offset reqSlot 0 m

/-- the end of `handle_encap_response_certificate` (responder/encap_get_certificate.rs:143-162): whether more portions are to
come. -/
def concluded (e : Env) (done : Bool) : W Bool := fun s =>
  if s.x.certSize = 0 then .err .invalidCert { s with c := { s.c with peer := { s.c.peer with temp := none } } } else
  if done = false then .ok true s else
  match verifyChain e s.c with
  | .panic => .panic
  | .err st => .err st { s with c := { s.c with peer := { s.c.peer with temp := none } } }
  | .ok _ =>
    match Ctx.slot? s.x.reqSlot with
    | none => .panic
    | some i =>
      .ok false { s with c := { s.c with
        peer := { chain := fun j => if j = i then s.c.peer.temp else s.c.peer.chain j, temp := none },
        rt := { s.c.rt with peerSlot := s.x.reqSlot } } }

/-- a CERTIFICATE portion (responder/encap_get_certificate.rs:76-127); the buffer holds 4164 bytes. -/
def takePortion (m : CertRsp) : W Bool := fun s =>
  match s.c.peer.temp with
  | none => .err .invalidStateLocal s
  | some temp =>
    let offset := temp.length.toUInt16
    if refusedEarly offset s.x.reqSlot m then .err .invalidMsgField s else
    let x := { s.x with certSize := sizeAfter s.x offset m }
    if refused offset s.x.reqSlot x.certSize m then .err .invalidMsgField { s with x := x } else
    if 4164 < offset.toNat + m.portion.toNat then .panic else
    .ok (decide (m.remainder = 0))
      { s with x := x, c := { s.c with peer := { s.c.peer with temp := some (Req.storePortion offset m temp) } } }

/-- `handle_encap_response_certificate` (responder/encap_get_certificate.rs:59-163); its ERROR branch is for callers that pass
an ERROR response, of which there are none. -/
def heardCertificate (e : Env) (bytes : Bytes) : W Bool := fun s =>
  match Header.read (Reader.init bytes) with
  | .panic => .panic
  | .err _ _ => .err .invalidMsgField s
  | .ok h r =>
    if h.version ≠ s.c.neg.version then .err .invalidMsgField s else
    if h.code ≠ .rspCertificate then .err .errorPeer s else
    match CertRsp.read r with
    | .panic => .panic
    | .err _ _ => .err .invalidMsgField s
    | .ok m _ => (takePortion m >>= concluded e) s

/-- the header of ENCAPSULATED_RESPONSE_ACK (responder/encap_rsp.rs:174-178), its result is ignored. -/
def ackHeader : W Unit := fun s => discarding (put fun _ => Header.encode ⟨s.c.neg.version, .rspEncapsulatedResponseAck⟩) s

/-- `ack_params.spdm_encode` (responder/encap_rsp.rs:180-184). -/
def ackParams (t : EncapAckPayload) (id : UInt8) : W Unit := fun s => put (fun cc => (Ack.mk s.x.requestId t id).encode cc) s

/-- the CERTIFICATE branch of `process_encapsulated_response` (responder/encap_rsp.rs:193-223). -/
def afterCertificate (e : Env) (id : UInt8) (rsp : Bytes) : W Unit := fun s =>
  match heardCertificate e rsp s with
  | .panic => .panic
  | .ok true s => (do ackParams .present id; askCertificate : W Unit) s
  | .ok false s => (do ackParams .reqSlotNumber id; put fun _ => encU8 s.x.reqSlot : W Unit) s
  | .err st s => if st = .notReadyPeer then ackParams .absent id s else .err st s

/-- the `match` of `process_encapsulated_response` (responder/encap_rsp.rs:186-225). -/
def respond (e : Env) (k : ReqRespCode) (id : UInt8) (rsp : Bytes) : W Unit :=
  match k with
  | .rspDigests => do
    heardDigests rsp
    discarding (ackParams .present id)
    askCertificate
  | .rspCertificate => afterCertificate e id rsp
  | _ => M.fail .unsupportedCap

/-- `process_encapsulated_response` (responder/encap_rsp.rs:158-226). -/
def processResponse (e : Env) (id : UInt8) (rsp : Bytes) : W Unit := do
  let s ← M.get
  match Header.read (Reader.init rsp) with
  | .panic => M.panic
  | .err _ _ => M.fail .invalidMsgSize
  | .ok h _ =>
    if h.version ≠ s.c.neg.version then M.fail .invalidMsgField else do
    ackHeader
    respond e h.code id rsp

/-- `write_encap_response_ack_response` (responder/encap_rsp.rs:93-120). -/
def ackBody (e : Env) (bytes : Bytes) : W Unit := fun s =>
  match Header.read (Reader.init bytes) with
  | .panic => .panic
  | .err _ _ => writeErr .invalidRequest 0 s
  | .ok h r =>
    if h.version ≠ s.c.neg.version then writeErr .versionMismatch 0 s else
    match rdId r with
    | .panic => .panic
    | .err _ _ => writeErr .invalidRequest 0 s
    | .ok id r =>
      match processResponse e id (bytes.drop r.used) s with
      | .panic => .panic
      | .ok _ s => .ok () s
      | .err _ s => writeErr .invalidResponseCode 0 s

/-- the responder: its context and its `encap_context`. -/
structure Responder where
  c : Ctx
  x : Asking := {}

/-- write an answer and send it in the session (responder/encap_rsp.rs:25-36, 76-91). -/
def handle (e : Env) (sid : UInt32) (body : W Unit) : M Status Responder Unit := fun p =>
  match (do check e 0xEA; body : W Unit) ⟨p.c, p.x, Writer.init 4096⟩ with
  | .panic => .panic
  | .err st s => .err st ⟨s.c, s.x⟩
  | .ok _ s =>
    match Rsp.sendSecured e sid s.w.out false s.c with
    | .panic => .panic
    | .err st c => .err st ⟨c, s.x⟩
    | .ok _ c => .ok () ⟨c, s.x⟩

/-- `handle_get_encapsulated_request` (responder/encap_rsp.rs:25-36). -/
def handleGet (e : Env) (sid : UInt32) (bytes : Bytes) : M Status Responder Unit := handle e sid (requestBody bytes)

/-- `handle_deliver_encapsulated_reponse` (responder/encap_rsp.rs:76-91); the code it reports in an error is that of
GET_ENCAPSULATED_REQUEST. -/
def handleDeliver (e : Env) (sid : UInt32) (bytes : Bytes) : M Status Responder Unit := handle e sid (ackBody e bytes)

/-- a function of the responder that does not use `encap_context`. -/
def within {ε α : Type} (x : M ε Ctx α) : M ε Responder α := fun p =>
  match x p.c with
  | .ok a c => .ok a ⟨c, p.x⟩
  | .err st c => .err st ⟨c, p.x⟩
  | .panic => .panic

/-- the two more requests that `dispatch_secured_message` knows with `mut-auth`, in the handshake phase only
(responder/context.rs:251-262). -/
def encapsulating (c : Ctx) (sid : UInt32) (bytes : Bytes) : Option ReqRespCode :=
  match c.session? sid, Header.read (Reader.init bytes) with
  | some s, .ok h _ =>
    if s.state = .handshaking ∧ c.cc.inClear = false ∧ (h.code = .reqGetEncapsulatedRequest ∨ h.code = .reqDeliverEncapsulatedResponse)
    then some h.code else none
  | _, _ => none

/-- `dispatch_secured_message` (responder/context.rs:227-361) with `mut-auth`. -/
def dispatchSecured (e : Env) (sid : UInt32) (bytes : Bytes) : M Status Responder Unit := fun p =>
  match encapsulating p.c sid bytes with
  | some .reqGetEncapsulatedRequest => handleGet e sid bytes p
  | some .reqDeliverEncapsulatedResponse => handleDeliver e sid bytes p
  | _ => within (Rsp.dispatchSecured e sid bytes) p

/-- `.is_ok()` -/
def isOk (x : M Status Responder Unit) : M Unit Responder Bool := fun p =>
  match x p with
  | .ok _ p => .ok true p
  | .err _ p => .ok false p
  | .panic => .panic

/-- `process_message` (responder/context.rs:139-200) with `mut-auth`.  Whether KEY_EXCHANGE_RSP asks for mutual
authentication is `e.asksMutual`: true in this build, but theorems that do not depend on it are stated for both. -/
def processMessage (e : Env) (rx : Bytes) : M Unit Responder Bool := fun p =>
  match Ctx.intoBuf2 (e.tr.decap rx) 4160 with
  | .ok (pkt, true) =>
    match Rsp.openSecured e pkt p.c with
    | .panic => .panic
    | .err _ c => .err () ⟨c, p.x⟩
    | .ok (sid, msg, isApp) c =>
      if isApp = true then within (Rsp.isOk (Rsp.dispatchApp e sid msg)) ⟨c, p.x⟩ else isOk (dispatchSecured e sid msg) ⟨c, p.x⟩
  | _ => within (Rsp.processMessage e rx) p

end Encap
end Verif
