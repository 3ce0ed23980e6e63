/-
Requester: sessions (spdmlib/src/requester/{key_exchange,finish,psk_exchange,psk_finish,heartbeat,key_update,end_session,
vendor}_req.rs and the session part of context.rs).
-/
import Verif.Requester.Auth

namespace Verif

namespace Req

/-- the opaque data of KEY_EXCHANGE and PSK_EXCHANGE (requester/key_exchange_req.rs:87-114,
requester/psk_exchange_req.rs:71-98). -/
def opaqueRequest (c : Ctx) : Option Bytes :=
  if c.cc.ge12 = false then some Opaque.reqList277
  else if c.neg.opaqueSupport = 2 then some Opaque.reqListFmt1
  else none

/-- the secured message version selected by the response (requester/key_exchange_req.rs:189-199,
requester/psk_exchange_req.rs:157-166): zero when the opaque data does not decode. -/
def secureVersion (c : Ctx) (opaq : Bytes) : Res UInt8 :=
  match Opaque.rdSelectionFirst c.cc (Reader.init opaq) with
  | .ok v _ => .ok v.get
  | .err _ _ => .ok 0
  | .panic => .panic

/-- `let _ = session.teardown(session_id); return Err(…)` (e.g. requester/key_exchange_req.rs:339-343). -/
def closeAnd {α : Type} (sid : UInt32) (st : Status) : M Status Ctx α := do
  Ctx.onSession sid M.panic (Session.teardown sid)
  M.fail st

/-- on failure tear the session down and return the same status (e.g. requester/finish_req.rs:52-59). -/
def orClose {α : Type} (sid : UInt32) (x : M Status Ctx α) : M Status Ctx α := do
  match ← M.try' x with
  | .ok a => pure a
  | .error st => closeAnd sid st

/-- the same, but a session that no longer exists is not an error (requester/finish_req.rs:97-103). -/
def orCloseIf {α : Type} (sid : UInt32) (x : M Status Ctx α) : M Status Ctx α := do
  match ← M.try' x with
  | .ok a => pure a
  | .error st => do
    Ctx.onSession sid (pure ()) (Session.teardown sid)
    M.fail st

/-- data secrets from TH2 and the Established state (requester/finish_req.rs:270-294, psk_finish_req.rs:140-155,
psk_exchange_req.rs:291-309). -/
def establish (e : REnv) (sid : UInt32) : M Status Ctx Unit := do
  let th2 ← thOf e sid
  let c ← M.get
  Ctx.onSession sid M.panic (Session.genData e.crypto c.neg.version th2)
  Ctx.onSession sid M.panic (M.modify fun s => { s with state := .established })

/-! ### KEY_EXCHANGE -/

/-- creation of the session (requester/key_exchange_req.rs:244-268); the slot is not stored. -/
def openDhe (e : REnv) (c : Ctx) (sid : UInt32) (mutAuth : UInt8) (certHash final : Bytes) : M Status Session Unit := do
  Session.setup sid
  M.modify fun s => { s with usePsk := false, mutAuth := mutAuth, hash := c.neg.baseHash, dhe := c.neg.dhe, aead := c.neg.aead,
                             keySchedule := c.neg.keySchedule, seqCount := e.tr.seqCount, maxRandom := e.tr.maxRandom }
  Session.setDheSecret e.crypto c.neg.version final
  M.modify fun s => { s with messageA := c.rt.messageA, rspCertHash := some certHash, reqCertHash := none }

/-- `verify_key_exchange_rsp_signature` (requester/key_exchange_req.rs:419-474). -/
def keyExchangeVerify (e : REnv) (sid : UInt32) (slot : UInt8) (sig : Bytes) (c : Ctx) : Res Unit := do
  let s ← Res.unwrap (c.session? sid)
  let h ← Ctx.transcriptHash e.toEnv s
  let certs ← peerCerts c slot
  let m ← Sign.keyExchangeRspMsg c.cc h
  verifyWith e c certs m sig

/-- the signature check (requester/key_exchange_req.rs:288-304): on failure the session stays. -/
def keyExchangeCheck (e : REnv) (sid : UInt32) (slot : UInt8) (sig : Bytes) : M Status Ctx Unit := do
  let c ← M.get
  match keyExchangeVerify e sid slot sig c with
  | .panic => M.panic
  | .err _ => M.fail .verifFail
  | .ok _ => pure ()

/-- the HMAC check of KEY_EXCHANGE_RSP and PSK_EXCHANGE_RSP (requester/key_exchange_req.rs:322-368,
requester/psk_exchange_req.rs:228-277): a failure tears the session down. -/
def responseCheck (e : REnv) (sid : UInt32) (mac : Bytes) : M Status Ctx Unit := do
  let h ← thOf e sid
  let c ← M.get
  let s ← M.unwrap (c.session? sid)
  if Session.verifyRsp e.crypto s h mac = false then closeAnd sid .verifFail else do
  match ← M.try' (Ctx.appendK e.toEnv sid mac) with
  | .ok _ => pure ()
  | .error _ => closeAnd sid .bufferFull

/-- with the handshake in the clear there is no HMAC (requester/key_exchange_req.rs:322). -/
def keyExchangeHmac (e : REnv) (inClear : Bool) (sid : UInt32) (mac : Bytes) : M Status Ctx Unit :=
  if inClear then pure () else responseCheck e sid mac

/-- what follows the creation of the session (requester/key_exchange_req.rs:270-391). -/
def keyExchangeBody (e : REnv) (slot : UInt8) (m : KeyExRsp) (req rsp : Bytes) (sid : UInt32) (version : UInt8) : M Status Ctx UInt32 := do
  let c ← M.get
  let asym ← M.unwrap c.cc.asymSize?
  let hs ← M.unwrap c.cc.hashSize?
  let body ← (Rsp.dropTail (if c.cc.inClear then asym else asym + hs) rsp).lift
  Ctx.appendK e.toEnv sid req
  Ctx.appendK e.toEnv sid body
  keyExchangeCheck e sid slot m.signature
  Ctx.appendK e.toEnv sid m.signature
  let th1 ← thOf e sid
  Ctx.onSession sid M.panic (Session.genHandshake e.crypto c.neg.version th1)
  keyExchangeHmac e c.cc.inClear sid m.verify
  Ctx.onSession sid M.panic (M.modify fun s => { s with secureVersion := version, heartbeat := m.heartbeat, state := .handshaking })
  Rsp.rememberSession c.cc.inClear sid
  pure sid

/-- `handle_spdm_key_exhcange_response` (requester/key_exchange_req.rs:133-416) without the `mut-auth` part. -/
def handleKeyExchange (e : REnv) (reqId : UInt16) (slot : UInt8) (req bytes : Bytes) (t : SummaryHashType)
    (final : Bytes → Option Bytes) : M Status Ctx UInt32 := do
  M.modify (wantSummary t)
  let r ← expect none .rspKeyExchangeRsp bytes
  let (m, rsp) ← Rsp.readMsg KeyExRsp.read bytes r
  let c ← M.get
  let final ← M.ofOption .cryptoError (final m.exchange)
  let version ← (secureVersion c m.opaq).lift
  let i ← M.unwrap (Ctx.slot? slot)
  let certHash ← M.ofOption .invalidMsgField (Ctx.peerChainHash e.toEnv c i)
  Ctx.onSession 0 (M.fail .sessionNumberExceed) (openDhe e c (Rsp.joinId m.rspSession reqId) m.mutAuth certHash final)
  keyExchangeBody e slot m req rsp (Rsp.joinId m.rspSession reqId) version

/-- `send_receive_spdm_key_exchange` (requester/key_exchange_req.rs:29-65) with `encode_spdm_key_exchange` (67-131). -/
def keyExchange (e : REnv) (slot : UInt8) (t : SummaryHashType) : M Status Ctx UInt32 := do
  if slot ≥ 8 then M.fail .invalidParameter else do
  let c ← M.get
  let reqId ← (c.nextHalfId true).lift
  M.modify (Ctx.resetBuffers .reqKeyExchange none)
  let random ← M.ofOption .cryptoError (Ctx.random e.toEnv 32)
  let (exchange, final) ← M.ofOption .cryptoError (e.dheGen c.neg.dhe)
  let opaq ← M.ofOption .unsupportedCap (opaqueRequest c)
  let req ← encodeReq .reqKeyExchange (.keyEx ⟨t, slot, reqId, c.config.sessionPolicy, random, exchange, opaq⟩)
  let rsp ← transact e none req
  handleKeyExchange e reqId slot req rsp t final

/-! ### FINISH -/

/-- overwrite bytes of the send buffer from `n` on (requester/finish_req.rs:155): the buffer has 4096 bytes, the part that is
sent keeps its length. -/
def patchAt (n : Nat) (new b : Bytes) : Res Bytes :=
  if n + new.length ≤ 4096 then .ok ((b.take n ++ new ++ b.drop (n + new.length)).take b.length) else .panic

/-- the requester's own certificates as sliced for the self-check (requester/finish_req.rs:393-401): the end of the slice is
the size of the *peer's* chain in the same slot. -/
def ownCerts (c : Ctx) : Res Bytes := do
  let i ← Res.unwrap (Ctx.slot? c.rt.localSlot)
  let mine ← Res.ofOption .invalidParameter (c.prov.chain i)
  let hs ← Res.unwrap c.cc.hashSize?
  let peer ← Res.ofOption .invalidParameter (c.peer.chain i)
  if 4 + hs ≤ peer.length ∧ peer.length ≤ 4164 then
    .ok (((mine ++ List.replicate (4164 - mine.length) 0).drop (4 + hs)).take (peer.length - (4 + hs)))
  else .panic

/-- `generate_finish_req_signature` (requester/finish_req.rs:353-413): a signature that does not verify panics. -/
def finishSign (e : REnv) (c : Ctx) (s : Session) : Res Bytes := do
  let h ← Ctx.transcriptHash e.toEnv s
  let m ← Sign.finishMsg c.cc h
  let sig ← Res.ofOption .cryptoError (e.sign c.neg.baseHash c.neg.baseAsym m)
  let certs ← ownCerts c
  if e.verify c.neg.baseHash c.neg.baseAsym certs m sig then pure sig else .panic

/-- the placeholder signature (requester/finish_req.rs:117-127). -/
def finishPlaceholder (c : Ctx) (s : Session) : Res Bytes :=
  if s.mutAuth ≠ 0 then do
    let n ← Res.unwrap (ReqAsym.size? c.neg.reqAsym)
    pure (List.replicate n 0)
  else .ok []

/-- the signature of a mutually authenticated FINISH (requester/finish_req.rs:148-159). -/
def finishSignature (e : REnv) (sid : UInt32) (b : Bytes) : M Status Ctx Bytes := do
  let c ← M.get
  let s ← M.ofOption .invalidStateLocal (c.session? sid)
  if s.mutAuth ≠ 0 then do
    let sig ← (finishSign e c s).lift
    let b ← (patchAt 4 sig b).lift
    Ctx.appendF e.toEnv true sid sig
    pure b
  else pure b

/-- the HMAC of FINISH and PSK_FINISH (requester/finish_req.rs:161-182, requester/psk_finish_req.rs:86-109). -/
def requestHmac (e : REnv) (sid : UInt32) (b : Bytes) : M Status Ctx Bytes := do
  let h ← thOf e sid
  let c ← M.get
  let hs ← M.unwrap c.cc.hashSize?
  let s ← M.unwrap (c.session? sid)
  let mac ← (Session.hmacReq e.crypto s h).lift
  Ctx.appendF e.toEnv true sid mac
  (Rsp.patchTail hs mac b).lift

/-- `encode_spdm_finish` (requester/finish_req.rs:106-183). -/
def encodeFinish (e : REnv) (sid : UInt32) (slot : UInt8) : M Status Ctx Bytes := do
  let c ← M.get
  let s ← M.ofOption .invalidStateLocal (c.session? sid)
  let sig ← (finishPlaceholder c s).lift
  let hs ← M.unwrap c.cc.hashSize?
  let b ← encodeReq .reqFinish (.finish ⟨if s.mutAuth ≠ 0 then 1 else 0, slot, sig, List.replicate hs 0xcc⟩)
  Ctx.appendF e.toEnv true sid (b.take 4)
  let b ← finishSignature e sid b
  requestHmac e sid b

/-- the response enters the transcript; in the clear its HMAC is checked (requester/finish_req.rs:220-268). -/
def finishTranscript (e : REnv) (inClear : Bool) (hs : Nat) (sid : UInt32) (mac rsp : Bytes) : M Status Ctx Unit :=
  if inClear then do
    let body ← (Rsp.dropTail hs rsp).lift
    Ctx.appendF e.toEnv true sid body
    let h ← thOf e sid
    let c ← M.get
    let s ← M.unwrap (c.session? sid)
    if Session.verifyRsp e.crypto s h mac = false then M.fail .verifFail else
    Ctx.appendF e.toEnv true sid mac
  else Ctx.appendF e.toEnv true sid rsp

/-- `handle_spdm_finish_response` (requester/finish_req.rs:185-313). -/
def handleFinish (e : REnv) (sid : UInt32) (bytes : Bytes) : M Status Ctx Unit := do
  let c ← M.get
  let _ ← M.ofOption .invalidStateLocal (c.session? sid)
  let r ← expectAnyVersion (some sid) .rspFinishRsp bytes
  let (mac, rsp) ← Rsp.readMsg rdFinishRsp bytes r
  let hs ← M.unwrap c.cc.hashSize?
  finishTranscript e c.cc.inClear hs sid mac rsp
  establish e sid
  M.modify fun c => { c with rt := { c.rt with lastSession := none } }

/-- the slot of the requester's chain (requester/finish_req.rs:33-43). -/
def finishSlot (c : Ctx) (slot : Option UInt8) : Option UInt8 :=
  match slot with
  | none => some 0
  | some b => if ((Ctx.slot? b).bind c.prov.chain).isSome then some b else none

/-- send FINISH, in the clear or secured (requester/finish_req.rs:62-66). -/
def finishSend (e : REnv) (inClear : Bool) (sid : UInt32) (b : Bytes) : M Status Ctx Unit :=
  if inClear then sendMessage e b else sendSecured e sid b false

/-- receive FINISH_RSP (requester/finish_req.rs:76-80). -/
def finishReceive (e : REnv) (inClear : Bool) (sid : UInt32) : M Status Ctx Bytes :=
  if inClear then receiveMessage e else receiveSecured e sid

/-- `send_receive_spdm_finish` (requester/finish_req.rs:14-104). -/
def finish (e : REnv) (slot : Option UInt8) (sid : UInt32) : M Status Ctx Unit := do
  let c ← M.get
  let slot ← M.ofOption .invalidStateLocal (finishSlot c slot)
  let _ ← M.ofOption .invalidParameter (c.session? sid)
  M.modify (Ctx.resetBuffers .reqFinish (some sid))
  let b ← orClose sid (encodeFinish e sid slot)
  orClose sid (finishSend e c.cc.inClear sid b)
  let rsp ← orClose sid (finishReceive e c.cc.inClear sid)
  orCloseIf sid (handleFinish e sid rsp)

/-! ### PSK_EXCHANGE -/

/-- creation of the PSK session (requester/psk_exchange_req.rs:173-197). -/
def openPsk (e : REnv) (c : Ctx) (sid : UInt32) (hint : Bytes) : M Status Session Unit := do
  Session.setup sid
  M.modify fun s => { s with usePsk := true, hash := c.neg.baseHash, dhe := c.neg.dhe, aead := c.neg.aead,
                             keySchedule := c.neg.keySchedule, seqCount := e.tr.seqCount, maxRandom := e.tr.maxRandom,
                             pskHint := some hint, messageA := c.rt.messageA, rspCertHash := none, reqCertHash := none }

/-- `PSK_CAP_WITHOUT_CONTEXT`: the session is established at once (requester/psk_exchange_req.rs:286-309). -/
def pskEstablish (e : REnv) (noContext : Bool) (sid : UInt32) : M Status Ctx Unit :=
  if noContext then establish e sid else pure ()

/-- what follows the creation of the session (requester/psk_exchange_req.rs:199-315). -/
def pskExchangeBody (e : REnv) (m : PskExRsp) (req rsp : Bytes) (sid : UInt32) (version : UInt8) : M Status Ctx UInt32 := do
  let c ← M.get
  let hs ← M.unwrap c.cc.hashSize?
  let body ← (Rsp.dropTail hs rsp).lift
  Ctx.appendK e.toEnv sid req
  Ctx.appendK e.toEnv sid body
  let th1 ← thOf e sid
  Ctx.onSession sid M.panic (Session.genHandshake e.crypto c.neg.version th1)
  responseCheck e sid m.verify
  Ctx.onSession sid M.panic (M.modify fun s => { s with state := .handshaking })
  pskEstablish e c.cc.pskNoContext sid
  Ctx.onSession sid M.panic (M.modify fun s => { s with secureVersion := version, heartbeat := m.heartbeat })
  pure sid

/-- `handle_spdm_psk_exchange_response` (requester/psk_exchange_req.rs:120-338). -/
def handlePskExchange (e : REnv) (reqId : UInt16) (t : SummaryHashType) (hint req bytes : Bytes) : M Status Ctx UInt32 := do
  M.modify (wantSummary t)
  let r ← expect none .rspPskExchangeRsp bytes
  let (m, rsp) ← Rsp.readMsg PskExRsp.read bytes r
  let c ← M.get
  let version ← (secureVersion c m.opaq).lift
  Ctx.onSession 0 (M.fail .sessionNumberExceed) (openPsk e c (Rsp.joinId m.rspSession reqId) hint)
  pskExchangeBody e m req rsp (Rsp.joinId m.rspSession reqId) version

/-- `send_receive_spdm_psk_exchange` (requester/psk_exchange_req.rs:21-58) with `encode_spdm_psk_exchange` (60-118): 64 random
bytes are drawn, as many as the hash size are sent. -/
def pskExchange (e : REnv) (t : SummaryHashType) (hint : Bytes) : M Status Ctx UInt32 := do
  M.modify (Ctx.resetBuffers .reqPskExchange none)
  let c ← M.get
  let reqId ← (c.nextHalfId true).lift
  let context ← M.ofOption .cryptoError (Ctx.random e.toEnv 64)
  let opaq ← M.ofOption .unsupportedCap (opaqueRequest c)
  let hs ← M.unwrap c.cc.hashSize?
  let req ← encodeReq .reqPskExchange (.pskEx ⟨t, reqId, hint, context.take hs, opaq⟩)
  let rsp ← transact e none req
  handlePskExchange e reqId t hint req rsp

/-! ### PSK_FINISH -/

/-- `encode_spdm_psk_finish` (requester/psk_finish_req.rs:69-110). -/
def encodePskFinish (e : REnv) (sid : UInt32) : M Status Ctx Bytes := do
  let c ← M.get
  let hs ← M.unwrap c.cc.hashSize?
  let b ← encodeReq .reqPskFinish (.pskFinish (List.replicate hs 0xcc))
  let body ← (Rsp.dropTail hs b).lift
  Ctx.appendF e.toEnv true sid body
  requestHmac e sid b

/-- `handle_spdm_psk_finish_response` (requester/psk_finish_req.rs:112-176). -/
def handlePskFinish (e : REnv) (sid : UInt32) (bytes : Bytes) : M Status Ctx Unit := do
  let r ← expect (some sid) .rspPskFinishRsp bytes
  let (_, rsp) ← Rsp.readMsg (fun _ => rdNoParams) bytes r
  Ctx.appendF e.toEnv true sid rsp
  establish e sid

/-- `send_receive_spdm_psk_finish` (requester/psk_finish_req.rs:16-67). -/
def pskFinish (e : REnv) (sid : UInt32) : M Status Ctx Unit := do
  let c ← M.get
  let _ ← M.ofOption .invalidParameter (c.session? sid)
  M.modify (Ctx.resetBuffers .reqPskFinish (some sid))
  let b ← orClose sid (encodePskFinish e sid)
  orClose sid (sendSecured e sid b false)
  let rsp ← orClose sid (receiveSecured e sid)
  orCloseIf sid (handlePskFinish e sid rsp)

/-- `start_session` (requester/context.rs:38-61). -/
def startSession (e : REnv) (usePsk : Bool) (slot : UInt8) (t : SummaryHashType) : M Status Ctx UInt32 :=
  if usePsk = false then do
    let sid ← keyExchange e slot t
    finish e none sid
    pure sid
  else do
    let sid ← pskExchange e t []
    pskFinish e sid
    pure sid

/-! ### HEARTBEAT, KEY_UPDATE, END_SESSION, VENDOR_DEFINED -/

/-- `handle_spdm_heartbeat_response` (requester/heartbeat_req.rs:40-75). -/
def handleHeartbeat (sid : UInt32) (bytes : Bytes) : M Status Ctx Unit := do
  let r ← expect (some sid) .rspHeartbeatAck bytes
  let _ ← Rsp.readMsg (fun _ => rdNoParams) bytes r
  pure ()

/-- `send_receive_spdm_heartbeat` (requester/heartbeat_req.rs:10-26). -/
def heartbeat (e : REnv) (sid : UInt32) : M Status Ctx Unit := do
  M.modify (Ctx.resetBuffers .reqHeartbeat (some sid))
  let req ← encodeReq .reqHeartbeat .heartbeat
  let rsp ← transact e (some sid) req
  handleHeartbeat sid rsp

/-- the operations that update the requester's key (requester/key_update_req.rs:37-38). -/
def updatesReq (op : KeyUpdateOp) : Bool := op = .updateSingleKey || op = .updateAllKeys
/-- the operations that update the responder's key (requester/key_update_req.rs:39). -/
def updatesRsp (op : KeyUpdateOp) : Bool := op = .updateAllKeys

/-- a decoded acknowledgement confirms the new keys, a malformed one restores the old keys
(requester/key_update_req.rs:88-113). -/
def keyUpdateAck (sid : UInt32) (req rsp : Bool) (ok : Bool) : M Status Ctx Unit := do
  Ctx.onSession sid (M.fail .invalidParameter) (M.modify (Session.activateUpdate req rsp ok))
  if ok then pure () else M.fail .invalidMsgField

/-- `handle_spdm_key_update_op_response` (requester/key_update_req.rs:72-127). -/
def handleKeyUpdate (sid : UInt32) (req rsp : Bool) (bytes : Bytes) : M Status Ctx Unit := do
  let r ← expect (some sid) .rspKeyUpdateAck bytes
  match KeyUpd.read r with
  | .panic => M.panic
  | .err _ _ => keyUpdateAck sid req rsp false
  | .ok _ _ => keyUpdateAck sid req rsp true

/-- `send_receive_spdm_key_update_op` (requester/key_update_req.rs:13-50): the new keys are created after the request was sent
and before the response is received. -/
def keyUpdateOp (e : REnv) (sid : UInt32) (op : KeyUpdateOp) (tag : UInt8) : M Status Ctx Unit := do
  M.modify (Ctx.resetBuffers .reqKeyUpdate (some sid))
  let req ← encodeReq .reqKeyUpdate (.keyUpdate ⟨op, tag⟩)
  sendSecured e sid req false
  let c ← M.get
  Ctx.onSession sid (M.fail .invalidParameter) (Session.createUpdate e.crypto c.neg.version (updatesReq op) (updatesRsp op))
  let rsp ← receiveSecured e sid
  handleKeyUpdate sid (updatesReq op) (updatesRsp op) rsp

/-- `send_receive_spdm_key_update` (requester/key_update_req.rs:129-145). -/
def keyUpdate (e : REnv) (sid : UInt32) (op : KeyUpdateOp) : M Status Ctx Unit :=
  if op ≠ .updateAllKeys ∧ op ≠ .updateSingleKey then M.fail .invalidMsgField else do
  keyUpdateOp e sid op 1
  keyUpdateOp e sid .verifyNewKey 2

/-- `handle_spdm_end_session_response` (requester/end_session_req.rs:45-89). -/
def handleEndSession (sid : UInt32) (bytes : Bytes) : M Status Ctx Unit := do
  let r ← expect (some sid) .rspEndSessionAck bytes
  let _ ← Rsp.readMsg (fun _ => rdNoParams) bytes r
  Ctx.onSession sid (M.fail .invalidParameter) (Session.teardown sid)

/-- `end_session`, `send_receive_spdm_end_session` (requester/context.rs:63-65, requester/end_session_req.rs:13-28). -/
def endSession (e : REnv) (sid : UInt32) : M Status Ctx Unit := do
  M.modify (Ctx.resetBuffers .reqEndSession (some sid))
  let req ← encodeReq .reqEndSession (.endSession 0)
  let rsp ← transact e (some sid) req
  handleEndSession sid rsp

/-- `handle_spdm_vendor_defined_respond` (requester/vendor_req.rs:65-105): length field and payload of the response. -/
def handleVendor (sid : Option UInt32) (bytes : Bytes) : M Status Ctx (UInt16 × Bytes) := do
  let r ← expect sid .rspVendorDefinedResponse bytes
  let (m, _) ← Rsp.readMsg (fun _ => Vendor.read) bytes r
  pure (m.length, m.data)

/-- `send_spdm_vendor_defined_request` (requester/vendor_req.rs:10-63): the whole context is reset before the request is
built. -/
def vendorRequest (e : REnv) (sid : Option UInt32) (m : Vendor) : M Status Ctx (UInt16 × Bytes) := do
  M.modify (Ctx.resetBuffers .reqVendorDefinedRequest sid)
  M.modify Ctx.reset
  let req ← encodeReq .reqVendorDefinedRequest (.vendorReq m)
  let rsp ← transact e sid req
  handleVendor sid rsp

end Req
end Verif
