/-
Responder: the session handshakes (spdmlib/src/responder/{key_exchange,finish,psk_exchange,psk_finish}_rsp.rs).  When one
of these fails nothing is sent: the error the writer holds is dropped by the `?` in `handle_spdm_…`.
-/
import Verif.Responder.Handlers

namespace Verif
namespace Rsp

/-- first checks of KEY_EXCHANGE and PSK_EXCHANGE (responder/key_exchange_rsp.rs:37-59,
responder/psk_exchange_rsp.rs:37-57): negotiation done, header of the negotiated version, at least 1.1. -/
def exchangeStart (bytes : Bytes) : M Status Ctx Reader := do
  let c ← M.get
  if c.rt.state.code < ConnState.negotiated.code then M.fail .invalidStatePeer else do
  let (h, r) ← (Res.read .invalidMsgField Header.read (Reader.init bytes)).lift
  if h.version ≠ c.neg.version then M.fail .invalidMsgField else do
  if h.version.get < SpdmVersion.v11.get then M.fail .invalidMsgField else
  pure r

/-- decode a request inside a session handler; failures give INVALID_MSG_FIELD. -/
def readMsg {α : Type} (x : Cc → Rd α) (bytes : Bytes) (r : Reader) : M Status Ctx (α × Bytes) := do
  let c ← M.get
  let (a, r') ← (Res.read .invalidMsgField (x c.cc) r).lift
  pure (a, bytes.take r'.used)

/-- `spdm_encode` of a response in a session handler. -/
def encodeMsgRsp (k : ReqRespCode) (p : Payload) : M Status Ctx Bytes := (encodeRsp k p).mapErr .invalidStateLocal

/-- `calc_rsp_transcript_hash` of the session with that id (e.g. responder/key_exchange_rsp.rs:346-355); a missing session
panics. -/
def thOf (e : Env) (sid : UInt32) : M Status Ctx Bytes := do
  let c ← M.get
  let s ← M.unwrap (c.session? sid)
  ((Ctx.transcriptHash e s).lift).mapErr .cryptoError

/-- `append_message_k` with the CRYPTO_ERROR status. -/
def addK (e : Env) (sid : UInt32) (msg : Bytes) : M Status Ctx Unit := (Ctx.appendK e sid msg).mapErr .cryptoError
/-- `append_message_f(false, …)` with the CRYPTO_ERROR status. -/
def addF (e : Env) (sid : UInt32) (msg : Bytes) : M Status Ctx Unit := (Ctx.appendF e false sid msg).mapErr .cryptoError

/-- on failure tear the session down, ignore the result and report CRYPTO_ERROR
(e.g. responder/key_exchange_rsp.rs:376-381). -/
def orTeardown {α : Type} (sid : UInt32) (x : M Status Ctx α) : M Status Ctx α := do
  match ← M.try' x with
  | .ok a => pure a
  | .error _ => do
    Ctx.onSession sid M.panic (Session.teardown sid)
    M.fail .cryptoError

/-- `session_id = (rsp_session_id << 16) + req_session_id` (responder/key_exchange_rsp.rs:232). -/
def joinId (rsp req : UInt16) : UInt32 := (rsp.toUInt32 <<< 16) + req.toUInt32

/-- the opaque answer selects the secured message version (responder/key_exchange_rsp.rs:406-410). -/
def pickSecureVersion (opaq : Bytes) (s : Session) : Session :=
  match opaq.getLast? with
  | some v => { s with secureVersion := v }
  | none => s

/-! ### KEY_EXCHANGE -/

/-- what the session is set to between `get_next_avaiable_session` and `set_dhe_secret`
(responder/key_exchange_rsp.rs:231-238), after `setup`. -/
def dheSession (e : Env) (c : Ctx) (slot : UInt8) (s : Session) : Session :=
  { s with usePsk := false, slotId := slot, hash := c.neg.baseHash, dhe := c.neg.dhe, aead := c.neg.aead,
           keySchedule := c.neg.keySchedule, mutAuth := e.mutAuth, seqCount := e.tr.seqCount, maxRandom := e.tr.maxRandom }

/-- creation of the session (responder/key_exchange_rsp.rs:217-246). -/
def openDhe (e : Env) (c : Ctx) (sid : UInt32) (slot : UInt8) (certHash final : Bytes) : M Status Session Unit := do
  Session.setup sid
  M.modify (dheSession e c slot)
  match ← M.try' (Session.setDheSecret e.crypto c.neg.version final) with
  | .error _ => do
    Session.teardown sid
    M.fail .cryptoError
  | .ok _ => M.modify fun s => { s with messageA := c.rt.messageA, rspCertHash := some certHash, reqCertHash := none }

/-- `generate_key_exchange_rsp_signature` (responder/key_exchange_rsp.rs:440-479); any failure gives CRYPTO_ERROR. -/
def keyExchangeSig (e : Env) (sid : UInt32) : M Status Ctx Bytes := do
  let h ← thOf e sid
  let c ← M.get
  let m ← ((Sign.keyExchangeRspMsg c.cc h).lift).mapErr .cryptoError
  M.ofOption .cryptoError (e.sign c.neg.baseHash c.neg.baseAsym m)

/-- response HMAC appended to the transcript (responder/key_exchange_rsp.rs:360-397,
responder/psk_exchange_rsp.rs:286-320). -/
def responseHmac (e : Env) (sid : UInt32) : M Status Ctx Bytes := do
  let h ← thOf e sid
  let c ← M.get
  let s ← M.unwrap (c.session? sid)
  let mac ← orTeardown sid ((Session.hmacRsp e.crypto s h).lift)
  orTeardown sid (Ctx.appendK e sid mac)
  pure mac

/-- the signature and the HMAC put into the message (responder/key_exchange_rsp.rs:374-415).  In the clear the placeholder
signature is left in the message. -/
def keyExchangePatch (e : Env) (sid : UInt32) (inClear : Bool) (asym hs : Nat) (sig rsp : Bytes) : M Status Ctx Bytes :=
  if inClear then pure rsp else do
    let mac ← responseHmac e sid
    let rsp ← (patchTail (asym + hs) (sig ++ List.replicate hs 0xcc) rsp).lift
    (patchTail hs mac rsp).lift

/-- in the clear the session is remembered for the plain FINISH (responder/key_exchange_rsp.rs:429-433). -/
def rememberSession (inClear : Bool) (sid : UInt32) : M Status Ctx Unit :=
  if inClear then M.modify fun c => { c with rt := { c.rt with lastSession := some sid } } else pure ()

/-- what follows the creation of the session (responder/key_exchange_rsp.rs:248-436). -/
def keyExchangeBody (e : Env) (m : KeyEx) (req : Bytes) (sid : UInt32) (rspId : UInt16) (exchange sum opaq : Bytes) :
    M Status Ctx Bytes := do
  let random ← M.ofOption .cryptoError (Ctx.random e 32)
  let c ← M.get
  let asym ← M.unwrap c.cc.asymSize?
  let hs ← M.unwrap c.cc.hashSize?
  let rsp ← encodeMsgRsp .rspKeyExchangeRsp (.keyExRsp ⟨c.config.heartbeat, rspId, e.mutAuth, 0, random, exchange, sum, opaq,
    List.replicate asym 0xbb, List.replicate hs 0xcc⟩)
  let body ← (dropTail (if c.cc.inClear then asym else asym + hs) rsp).lift
  addK e sid req
  addK e sid body
  let sig ← keyExchangeSig e sid
  addK e sid sig
  let th1 ← thOf e sid
  Ctx.onSession sid M.panic (Session.genHandshake e.crypto c.neg.version th1)
  let rsp ← keyExchangePatch e sid c.cc.inClear asym hs sig rsp
  Ctx.onSession sid M.panic (M.modify fun s => { pickSecureVersion opaq { s with heartbeat := c.config.heartbeat } with state := .handshaking })
  rememberSession c.cc.inClear sid
  pure rsp

/-- `write_spdm_key_exchange_response` (responder/key_exchange_rsp.rs:32-437). -/
def keyExchangeRsp (e : Env) (bytes : Bytes) : M Status Ctx Bytes := do
  let r ← exchangeStart bytes
  M.modify (Ctx.resetBuffers .reqKeyExchange none)
  let (m, req) ← readMsg KeyEx.read bytes r
  let sum ← summaryHash e m.summary
  let sum ← M.ofOption .invalidMsgField sum
  M.modify fun c => { c with neg := { c.neg with terminationPolicy := m.policy &&& 1 == 1 } }
  let c ← M.get
  let opaq ← (Opaque.respond c.cc c.config.secureVersions m.opaq).lift
  let _ ← M.ofOption .invalidMsgField (localChain c m.slot)
  M.modify fun c => { c with rt := { c.rt with localSlot := m.slot } }
  let (exchange, final) ← M.unwrap (e.dheGen c.neg.dhe)
  let final ← M.ofOption .cryptoError (final m.exchange)
  let rspId ← ((c.nextHalfId false).lift).mapErr .invalidStateLocal
  let certHash ← M.ofOption .invalidMsgField ((localChain c m.slot).bind (e.crypto.hash c.neg.baseHash))
  let sid := joinId rspId m.reqSession
  Ctx.onSession 0 (M.fail .invalidStateLocal) (openDhe e c sid m.slot certHash final)
  keyExchangeBody e m req sid rspId exchange sum opaq

/-- `handle_spdm_key_exchange` (responder/key_exchange_rsp.rs:25-30). -/
def handleKeyExchange (e : Env) (bytes : Bytes) : M Status Ctx Unit := do
  let b ← keyExchangeRsp e bytes
  sendMessage e b

/-! ### FINISH -/

/-- header and version check of FINISH and PSK_FINISH (responder/finish_rsp.rs:50-60, responder/psk_finish_rsp.rs:29-39). -/
def finishStart (bytes : Bytes) : M Status Ctx Reader := do
  let (h, r) ← (Res.read .invalidMsgField Header.read (Reader.init bytes)).lift
  let c ← M.get
  if h.version ≠ c.neg.version then M.fail .invalidMsgField else pure r

/-- `verify_finish_req_signature` (responder/finish_rsp.rs:346-396): the peer's chain without its 4-byte header and root
hash. -/
def finishSigOk (e : Env) (c : Ctx) (s : Session) (sig : Bytes) : Res Unit := do
  let h ← Ctx.transcriptHash e s
  let slot ← Res.unwrap (Ctx.slot? c.rt.peerSlot)
  let chain ← Res.ofOption .invalidParameter (c.peer.chain slot)
  let hs ← Res.unwrap c.cc.hashSize?
  if chain.length < 4 + hs then .panic else do
  let m ← Sign.finishMsg c.cc h
  if e.verify c.neg.baseHash c.neg.baseAsym (chain.drop (4 + hs)) m sig then pure () else .err .cryptoError

/-- mutual authentication part of FINISH (responder/finish_rsp.rs:90-136). -/
def finishMutAuth (e : Env) (sid : UInt32) (m : Finish) : M Status Ctx Unit := do
  let c ← M.get
  let s ← M.unwrap (c.session? sid)
  if (s.mutAuth ≠ 0) ≠ (sigIncluded m.attr = true) then M.fail .invalidMsgField else do
  if s.mutAuth ≠ 0 then do
    ((finishSigOk e c s m.signature).lift).mapErr .cryptoError
    addF e sid m.signature
  else pure ()

/-- HMAC check of FINISH and PSK_FINISH (responder/finish_rsp.rs:156-194, responder/psk_finish_rsp.rs:90-131): the
transcript hash is verified under the request finished key and the HMAC is added to the transcript. -/
def checkHmac (e : Env) (sid : UInt32) (mac : Bytes) : M Status Ctx Unit := do
  let h ← thOf e sid
  let c ← M.get
  let s ← M.unwrap (c.session? sid)
  if Session.verifyReq e.crypto s h mac then addF e sid mac else M.fail .cryptoError

/-- the FINISH_RSP message (responder/finish_rsp.rs:197-278). -/
def finishAnswer (e : Env) (sid : UInt32) : M Status Ctx Bytes := do
  let c ← M.get
  let hs ← M.unwrap c.cc.hashSize?
  let rsp ← encodeMsgRsp .rspFinishRsp (.finishRsp (List.replicate hs 0xcc))
  if c.cc.inClear then do
    let body ← (dropTail hs rsp).lift
    addF e sid body
    let h ← thOf e sid
    let c ← M.get
    let s ← M.unwrap (c.session? sid)
    let mac ← ((Session.hmacRsp e.crypto s h).lift).mapErr .cryptoError
    addF e sid mac
    (patchTail hs mac rsp).lift
  else do
    addF e sid (rsp.take 4)
    pure rsp

/-- derivation of the data secrets (responder/finish_rsp.rs:280-295, responder/psk_finish_rsp.rs:154-169). -/
def deriveData (e : Env) (sid : UInt32) : M Status Ctx Unit := do
  let th2 ← thOf e sid
  let c ← M.get
  Ctx.onSession sid M.panic (Session.genData e.crypto c.neg.version th2)

/-- `write_spdm_finish_response` (responder/finish_rsp.rs:44-296). -/
def finishRsp (e : Env) (sid : UInt32) (bytes : Bytes) : M Status Ctx Bytes := do
  let r ← finishStart bytes
  M.modify (Ctx.resetBuffers .reqFinish (some sid))
  let (m, _) ← readMsg Finish.read bytes r
  addF e sid (bytes.take 4)
  finishMutAuth e sid m
  let c ← M.get
  let _ ← M.unwrap c.cc.hashSize?
  let s ← M.unwrap (c.session? sid)
  if s.usePsk then M.fail .invalidMsgField else do
  checkHmac e sid m.verify
  let rsp ← finishAnswer e sid
  deriveData e sid
  pure rsp

/-- `handle_spdm_finish` (responder/finish_rsp.rs:20-41). -/
def handleFinish (e : Env) (sid : UInt32) (bytes : Bytes) : M Status Ctx Unit := do
  let c ← M.get
  let b ← finishRsp e sid bytes
  if c.cc.inClear then sendMessage e b else sendSecured e sid b false

/-! ### PSK_EXCHANGE -/

/-- creation of the PSK session (responder/psk_exchange_rsp.rs:195-221). -/
def openPsk (e : Env) (c : Ctx) (sid : UInt32) (hint : Bytes) : M Status Session Unit := do
  Session.setup sid
  M.modify fun s => { s with usePsk := true, hash := c.neg.baseHash, dhe := c.neg.dhe, aead := c.neg.aead,
                             keySchedule := c.neg.keySchedule, seqCount := e.tr.seqCount, maxRandom := e.tr.maxRandom,
                             pskHint := some hint, messageA := c.rt.messageA, rspCertHash := none, reqCertHash := none }

/-- without a context the data keys are derived at once (responder/psk_exchange_rsp.rs:334-355); a failed derivation
panics. -/
def pskEstablish (e : Env) (noContext : Bool) (sid : UInt32) : M Status Ctx Unit :=
  if noContext = false then pure () else do
  let th2 ← thOf e sid
  let c ← M.get
  let s ← M.unwrap (c.session? sid)
  match Session.genData e.crypto c.neg.version th2 s with
  | .ok _ s' => M.set (c.updSession sid fun _ => { s' with state := .established })
  | _ => M.panic

/-- what follows the creation of the session (responder/psk_exchange_rsp.rs:223-364). -/
def pskExchangeBody (e : Env) (req : Bytes) (sid : UInt32) (rspId : UInt16) (context sum opaq : Bytes) : M Status Ctx Bytes := do
  let c ← M.get
  let hs ← M.unwrap c.cc.hashSize?
  let rsp ← encodeMsgRsp .rspPskExchangeRsp (.pskExRsp ⟨c.config.heartbeat, rspId, sum, context, opaq, List.replicate hs 0xcc⟩)
  let body ← (dropTail hs rsp).lift
  addK e sid req
  addK e sid body
  let th1 ← thOf e sid
  Ctx.onSession sid M.panic (Session.genHandshake e.crypto c.neg.version th1)
  let mac ← responseHmac e sid
  let rsp ← (patchTail hs mac rsp).lift
  Ctx.onSession sid M.panic (M.modify fun s => { s with state := .handshaking })
  pskEstablish e c.cc.pskNoContext sid
  Ctx.onSession sid M.panic (M.modify fun s => pickSecureVersion opaq { s with heartbeat := c.config.heartbeat })
  pure rsp

/-- the responder's context (responder/psk_exchange_rsp.rs:162-179): random bytes are drawn exactly when no context is
sent. -/
def pskContext (e : Env) (noContext : Bool) : M Status Ctx Bytes :=
  if noContext then do
    let _ ← M.ofOption .cryptoError (Ctx.random e 64)
    pure []
  else pure (List.replicate 64 0)

/-- `write_spdm_psk_exchange_response` (responder/psk_exchange_rsp.rs:32-365). -/
def pskExchangeRsp (e : Env) (bytes : Bytes) : M Status Ctx Bytes := do
  let r ← exchangeStart bytes
  M.modify (Ctx.resetBuffers .reqPskExchange none)
  let (m, req) ← readMsg PskEx.read bytes r
  let sum ← summaryHash e m.summary
  let sum ← M.ofOption .cryptoError sum
  let c ← M.get
  let opaq ← (Opaque.respond c.cc c.config.secureVersions m.opaq).lift
  let context ← pskContext e c.cc.pskNoContext
  let rspId ← ((c.nextHalfId false).lift).mapErr .invalidStateLocal
  let sid := joinId rspId m.reqSession
  Ctx.onSession 0 (M.fail .invalidStateLocal) (openPsk e c sid m.hint)
  pskExchangeBody e req sid rspId context sum opaq

/-- `handle_spdm_psk_exchange` (responder/psk_exchange_rsp.rs:25-30). -/
def handlePskExchange (e : Env) (bytes : Bytes) : M Status Ctx Unit := do
  let b ← pskExchangeRsp e bytes
  sendMessage e b

/-! ### PSK_FINISH -/

/-- `write_spdm_psk_finish_response` (responder/psk_finish_rsp.rs:23-170). -/
def pskFinishRsp (e : Env) (sid : UInt32) (bytes : Bytes) : M Status Ctx Bytes := do
  let r ← finishStart bytes
  M.modify (Ctx.resetBuffers .reqPskFinish (some sid))
  let (mac, req) ← readMsg rdPskFinish bytes r
  let c ← M.get
  let hs ← M.unwrap c.cc.hashSize?
  let body ← (dropTail hs req).lift
  let s ← M.unwrap (c.session? sid)
  if s.usePsk = false then M.fail .invalidMsgField else do
  addF e sid body
  checkHmac e sid mac
  let rsp ← encodeMsgRsp .rspPskFinishRsp .pskFinishRsp
  addF e sid rsp
  deriveData e sid
  pure rsp

/-- `handle_spdm_psk_finish` (responder/psk_finish_rsp.rs:15-20). -/
def handlePskFinish (e : Env) (sid : UInt32) (bytes : Bytes) : M Status Ctx Unit := do
  let b ← pskFinishRsp e sid bytes
  sendSecured e sid b false

end Rsp
end Verif
