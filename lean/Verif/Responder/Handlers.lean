/-
Responder: the handlers that answer every failure with an ERROR message
(spdmlib/src/responder/{version,capability,algorithm,digest,certificate,challenge,measurement,heartbeat,key_update,
end_session,vendor}_rsp.rs).
-/
import Verif.Responder.Send

namespace Verif
namespace Rsp

/-! ### GET_VERSION -/

/-- building and encoding the VERSION response (responder/version_rsp.rs:45-82); the header carries version 1.0, not the
negotiated version, and always three entries are sent. -/
def encodeVersion : H Bytes := fun c =>
  match Msg.encode c.cc ⟨⟨.v10, .rspVersion⟩, .version ⟨[⟨0, c.config.version0⟩, ⟨0, c.config.version1⟩, ⟨0, c.config.version2⟩]⟩⟩
      (Writer.init msgSize) with
  | .ok _ w => .ok w.out c
  | .err _ w => .err { pre := w.out, code := .unspecified } c
  | .panic => .panic

/-- `write_spdm_version_response` (responder/version_rsp.rs:19-89). -/
def versionRsp (bytes : Bytes) : H Bytes := do
  let (h, r) ← header bytes
  if h.version ≠ .v10 then M.fail { code := .versionMismatch } else do
  M.modify (Ctx.resetBuffers .reqGetVersion none)
  let (_, req) ← readReq (fun _ => rdNoParams) bytes r
  M.modify Ctx.reset
  orUnspecified (Ctx.appendA req)
  let rsp ← encodeVersion
  orAppended rsp (Ctx.appendA rsp)
  pure rsp

/-- `handle_spdm_version` (responder/version_rsp.rs:12-17). -/
def handleVersion (e : Env) (bytes : Bytes) : M Status Ctx Unit := do
  let b ← reply (versionRsp bytes)
  sendMessage e b

/-! ### GET_CAPABILITIES -/

/-- the assignments to `negotiate_info` (responder/capability_rsp.rs:56-77). -/
def setCaps (m : Caps) (c : Ctx) : Ctx :=
  let n := { c.neg with reqCt := m.ct, reqCaps := m.flags, rspCt := c.config.rspCt, rspCaps := c.config.rspCaps }
  { c with neg := if c.cc.ge12 then { n with reqDts := m.dts, reqMms := m.mms, rspDts := c.config.dts, rspMms := c.config.mms } else n }

/-- `write_spdm_capability_response` (responder/capability_rsp.rs:20-112). -/
def capabilityRsp (bytes : Bytes) : H Bytes := do
  let c ← M.get
  if c.rt.state ≠ .afterVersion then M.fail { code := .unexpectedRequest } else do
  let (h, r) ← header bytes
  if h.version.get < SpdmVersion.v10.get then M.fail { code := .invalidRequest } else do
  M.modify fun c => { c with neg := { c.neg with version := h.version } }
  M.modify (Ctx.resetBuffers .reqGetCapabilities none)
  let (m, req) ← readReq rdGetCaps bytes r
  M.modify (setCaps m)
  orUnspecified (Ctx.appendA req)
  let rsp ← encodeRsp .rspCapabilities (.caps ⟨c.config.rspCt, c.config.rspCaps, c.config.dts, c.config.mms⟩)
  orAppended rsp (Ctx.appendA rsp)
  pure rsp

/-- `handle_spdm_capability` (responder/capability_rsp.rs:13-18). -/
def handleCapability (e : Env) (bytes : Bytes) : M Status Ctx Unit := do
  let b ← reply (capabilityRsp bytes)
  sendMessage e b

/-! ### NEGOTIATE_ALGORITHMS -/

/-- one algorithm structure of the request (responder/algorithm_rsp.rs:58-74). -/
def offerAlg (n : Neg) (a : AlgStruct) : Neg :=
  match a.alg with
  | .dhe v => { n with dhe := v }
  | .aead v => { n with aead := v }
  | .reqAsym v => { n with reqAsym := v }
  | .keySchedule v => { n with keySchedule := v }
  | .unknown => n

/-- the offer recorded in `negotiate_info` (responder/algorithm_rsp.rs:52-74). -/
def setOffer (m : NegAlgs) (n : Neg) : Neg :=
  m.algs.foldl offerAlg { n with measSpec := m.measSpec, baseHash := m.hash, baseAsym := m.asym }

/-- the selection (responder/algorithm_rsp.rs:89-119). -/
def selectAlgs (cfg : Config) (n : Neg) : Neg :=
  { n with measSpec := MeasSpec.prioritize n.measSpec cfg.measSpec, measHash := cfg.measHash,
           baseHash := BaseHash.prioritize n.baseHash cfg.baseHash, baseAsym := BaseAsym.prioritize n.baseAsym cfg.baseAsym,
           dhe := Dhe.prioritize n.dhe cfg.dhe, aead := Aead.prioritize n.aead cfg.aead,
           reqAsym := ReqAsym.prioritize n.reqAsym cfg.reqAsym, keySchedule := KeySchedule.prioritize n.keySchedule cfg.keySchedule }

/-- `write_spdm_algorithm` (responder/algorithm_rsp.rs:20-176). -/
def algorithmRsp (e : Env) (bytes : Bytes) : H Bytes := do
  let c ← M.get
  if c.rt.state ≠ .afterCapabilities then M.fail { code := .unexpectedRequest } else do
  let r ← checkVersion bytes
  M.modify (Ctx.resetBuffers .reqNegotiateAlgorithms none)
  let (m, req) ← readReq rdNegAlgs bytes r
  M.modify fun c => { c with neg := setOffer m c.neg }
  orUnspecified (Ctx.appendA req)
  M.modify fun c => { c with neg := selectAlgs c.config c.neg }
  orUnspecified (Ctx.constructChains e)
  M.modify fun c => { c with neg := { c.neg with opaqueSupport := c.config.opaqueSupport &&& m.other } }
  let c ← M.get
  let rsp ← encodeRsp .rspAlgorithms (.algs ⟨c.neg.measSpec, c.neg.opaqueSupport, c.neg.measHash, c.neg.baseAsym, c.neg.baseHash,
    [⟨.dhe, .dhe c.neg.dhe⟩, ⟨.aead, .aead c.neg.aead⟩, ⟨.reqAsym, .reqAsym c.neg.reqAsym⟩, ⟨.keySchedule, .keySchedule c.neg.keySchedule⟩]⟩)
  orAppended rsp (Ctx.appendA rsp)
  pure rsp

/-- `handle_spdm_algorithm` (responder/algorithm_rsp.rs:13-18). -/
def handleAlgorithm (e : Env) (bytes : Bytes) : M Status Ctx Unit := do
  let b ← reply (algorithmRsp e bytes)
  sendMessage e b

/-! ### GET_DIGESTS -/

/-- the state check of the requests allowed after negotiation (e.g. responder/digest_rsp.rs:35-40). -/
def afterNegotiation : H Unit := do
  let c ← M.get
  if c.rt.state.code < ConnState.negotiated.code then M.fail { code := .unexpectedRequest } else pure ()

/-- `slot_mask |= 1 << slot_id` for the provisioned slots (responder/digest_rsp.rs:87-92). -/
def slotMask (p : Provision) : UInt8 :=
  (List.finRange 8).foldl (fun m i => if (p.chain i).isSome then m ||| ((1 : UInt8) <<< (UInt8.ofNat i.val)) else m) 0

/-- the patch loop (responder/digest_rsp.rs:117-132): every digest goes to the end of the message. -/
def patchDigests (e : Env) (c : Ctx) : List (Fin 8) → Bytes → Res Bytes
  | [], b => .ok b
  | i :: is, b =>
    match c.prov.chain i with
    | none => patchDigests e c is b
    | some ch => do
      let h ← Res.unwrap (e.crypto.hash c.neg.baseHash ch)
      let b ← patchTail h.length h b
      patchDigests e c is b

/-- append to M1/M2 outside a session (e.g. responder/digest_rsp.rs:72-83). -/
def appendBPlain (e : Env) (sid : Option UInt32) (msg : Bytes) : M Status Ctx Unit :=
  match sid with
  | none => Ctx.appendB e msg
  | some _ => pure ()

/-- `write_spdm_digest_response` (responder/digest_rsp.rs:29-139). -/
def digestRsp (e : Env) (sid : Option UInt32) (bytes : Bytes) : H Bytes := do
  afterNegotiation
  let r ← checkVersion bytes
  M.modify (Ctx.resetBuffers .reqGetDigests sid)
  let (_, req) ← readReq (fun _ => rdNoParams) bytes r
  orUnspecified (appendBPlain e sid req)
  let c ← M.get
  let hs ← M.unwrap c.cc.hashSize?
  let rsp ← encodeRsp .rspDigests (.digests ⟨slotMask c.prov, List.replicate 8 (List.replicate hs 0xff)⟩)
  let rsp ← liftH { code := .unspecified } (patchDigests e c (List.finRange 8) rsp)
  orAppended rsp (appendBPlain e sid rsp)
  pure rsp

/-- `handle_spdm_digest` (responder/digest_rsp.rs:17-27). -/
def handleDigest (e : Env) (sid : Option UInt32) (bytes : Bytes) : M Status Ctx Unit := do
  let b ← reply (digestRsp e sid bytes)
  send e sid b

/-! ### GET_CERTIFICATE -/

/-- portion and remainder of a chain of `size` bytes for a request of `length` bytes at `offset`
(responder/certificate_rsp.rs:91-108); `none` when the offset is past the end. -/
def certPortion (size offset length : UInt16) : Option (UInt16 × UInt16) :=
  let length := if length > 512 then 512 else length
  if offset > size then none else
  let length := if length > size - offset then size - offset else length
  some (length, size - (length + offset))

/-- `write_spdm_certificate_response` (responder/certificate_rsp.rs:25-147); `data_size` is a `u16`. -/
def certificateRsp (e : Env) (sid : Option UInt32) (bytes : Bytes) : H Bytes := do
  afterNegotiation
  let r ← checkVersion bytes
  M.modify (Ctx.resetBuffers .reqGetCertificate sid)
  let (m, req) ← readReq (fun _ => GetCert.read) bytes r
  if m.slot ≠ 0 then M.fail { code := .invalidRequest } else do
  orUnspecified (appendBPlain e sid req)
  let c ← M.get
  let chain ← M.ofOption { code := .invalidRequest } (localChain c m.slot)
  let (portion, remainder) ← M.ofOption { code := .invalidRequest } (certPortion chain.length.toUInt16 m.offset m.length)
  let rsp ← encodeRsp .rspCertificate
    (.cert ⟨m.slot, portion, remainder, (chain.drop m.offset.toNat).take portion.toNat⟩)
  orAppended rsp (appendBPlain e sid rsp)
  pure rsp

/-- `handle_spdm_certificate` (responder/certificate_rsp.rs:13-23). -/
def handleCertificate (e : Env) (sid : Option UInt32) (bytes : Bytes) : M Status Ctx Unit := do
  let b ← reply (certificateRsp e sid bytes)
  send e sid b

/-! ### CHALLENGE -/

/-- `generate_challenge_auth_signature` (responder/challenge_rsp.rs:187-228). -/
def challengeSig (e : Env) (c : Ctx) : Res Bytes := do
  let x ← Res.unwrap c.rt.m1m2
  let h ← Res.ofOption .cryptoError (Ctx.hashFinal e x)
  let m ← Sign.challengeAuthMsg c.cc h
  Res.ofOption .cryptoError (e.sign c.neg.baseHash c.neg.baseAsym m)

/-- the end of `write_spdm_challenge_response` (responder/challenge_rsp.rs:171-183): when signing fails an error is sent
at once and the response with the placeholder signature stays in the writer. -/
def finishChallenge (e : Env) (asym : Nat) (rsp : Bytes) : H Bytes := do
  let c ← M.get
  match challengeSig e c with
  | .panic => M.panic
  | .err _ => do
    sendError e .unspecified
    pure rsp
  | .ok sig => do
    let rsp ← liftH { code := .unspecified } (patchTail asym sig rsp)
    M.modify Ctx.resetM1M2
    pure rsp

/-- `write_spdm_challenge_response` (responder/challenge_rsp.rs:31-184). -/
def challengeRsp (e : Env) (bytes : Bytes) : H Bytes := do
  afterNegotiation
  let r ← checkVersion bytes
  M.modify (Ctx.resetBuffers .reqChallenge none)
  let (m, req) ← readReq Challenge.read bytes r
  let sum ← summaryHash e m.summary
  let sum ← M.ofOption { code := .unspecified } sum
  let c ← M.get
  let chain ← M.ofOption { code := .invalidRequest } (localChain c m.slot)
  orUnspecified (Ctx.appendC e req)
  let ch ← M.unwrap (e.crypto.hash c.neg.baseHash chain)
  let nonce ← M.ofOption { code := .unspecified } (Ctx.random e 32)
  let asym ← M.unwrap c.cc.asymSize?
  let rsp ← encodeRsp .rspChallengeAuth (.challengeAuth ⟨m.slot, 0, 1, ch, nonce, sum, [], List.replicate asym 0xbb⟩)
  let body ← liftH { code := .unspecified } (dropTail asym rsp)
  orAppended rsp (Ctx.appendC e body)
  finishChallenge e asym rsp

/-- `handle_spdm_challenge` (responder/challenge_rsp.rs:24-29). -/
def handleChallenge (e : Env) (bytes : Bytes) : M Status Ctx Unit := do
  let b ← reply (challengeRsp e bytes)
  sendMessage e b

/-! ### GET_MEASUREMENTS -/

/-- the L1/L2 context of the connection or of a session (responder/measurement_rsp.rs:258-280); `none` is a panic. -/
def l1l2? (c : Ctx) (sid : Option UInt32) : Option HashCtx :=
  match sid with
  | some sid => (c.session? sid).bind (·.l1l2)
  | none => c.rt.l1l2

/-- `generate_measurement_signature` (responder/measurement_rsp.rs:252-309). -/
def measurementSig (e : Env) (sid : Option UInt32) (c : Ctx) : Res Bytes := do
  let x ← Res.unwrap (l1l2? c sid)
  let h ← Res.ofOption .cryptoError (Ctx.hashFinal e x)
  let m ← Sign.measurementsMsg c.cc h
  Res.ofOption .cryptoError (e.sign c.neg.baseHash c.neg.baseAsym m)

/-- number of blocks and record of the response (responder/measurement_rsp.rs:126-178); the provider's `None` panics. -/
def measureBlocks (e : Env) (c : Ctx) (op : MeasOperation) : H (UInt8 × MeasRecord) := do
  let total ← M.unwrap (e.measure c.neg.version c.neg.measSpec c.neg.measHash 0)
  match op with
  | .requestAll => do
    let rec_ ← M.unwrap (e.measure c.neg.version c.neg.measSpec c.neg.measHash 0xFF)
    pure (total.blocks, rec_)
  | .queryTotalNumber => pure (total.blocks, ⟨0, []⟩)
  | .unknown i =>
    if i > total.blocks then M.fail { code := .invalidRequest } else do
    let rec_ ← M.unwrap (e.measure c.neg.version c.neg.measSpec c.neg.measHash i.toNat)
    pure (1, rec_)

/-- the end of `write_spdm_measurement_response` (responder/measurement_rsp.rs:215-248). -/
def finishMeasurement (e : Env) (sid : Option UInt32) (signed : Bool) (asym : Nat) (rsp : Bytes) : H Bytes :=
  if signed then do
    let body ← liftH { code := .unspecified } (dropTail asym rsp)
    orAppended rsp (Ctx.appendM e sid body)
    let c ← M.get
    match measurementSig e sid c with
    | .panic => M.panic
    | .err _ => do
      sendError e .unspecified
      pure rsp
    | .ok sig => do
      let rsp ← liftH { code := .unspecified } (patchTail asym sig rsp)
      M.modify (Ctx.resetM sid)
      pure rsp
  else do
    orAppended rsp (Ctx.appendM e sid rsp)
    pure rsp

/-- slot checks (responder/measurement_rsp.rs:79-106). -/
def measurementSlot (m : GetMeas) : H Unit := do
  M.modify fun c => { c with rt := { c.rt with needSig := m.signed } }
  let c ← M.get
  if m.signed then do
    let _ ← M.ofOption { code := .invalidRequest } (localChain c m.slot)
    pure ()
  else if m.slot ≠ 0 then M.fail { code := .invalidRequest } else pure ()

/-- `write_spdm_measurement_response` (responder/measurement_rsp.rs:37-249). -/
def measurementRsp (e : Env) (sid : Option UInt32) (bytes : Bytes) : H Bytes := do
  afterNegotiation
  let r ← checkVersion bytes
  M.modify (Ctx.resetBuffers .reqGetMeasurements sid)
  let (m, req) ← readReq GetMeas.read bytes r
  let c ← M.get
  let asym ← M.unwrap c.cc.asymSize?
  measurementSlot m
  orUnspecified (Ctx.appendM e sid req)
  let (number, record) ← measureBlocks e c m.op
  let changed := if c.config.contentChange ∧ c.cc.ge12 then c.rt.contentChanged else 0
  let nonce ← M.ofOption { code := .unspecified } (Ctx.random e 32)
  let rsp ← encodeRsp .rspMeasurements (.meas ⟨number, changed, m.slot, record, nonce, [], List.replicate asym 0x60⟩)
  finishMeasurement e sid m.signed asym rsp

/-- `handle_spdm_measurement` (responder/measurement_rsp.rs:27-35). -/
def handleMeasurement (e : Env) (sid : Option UInt32) (bytes : Bytes) : M Status Ctx Unit := do
  let b ← reply (measurementRsp e sid bytes)
  send e sid b

/-! ### HEARTBEAT, KEY_UPDATE, END_SESSION, VENDOR_DEFINED -/

/-- `write_spdm_heartbeat_response` (responder/heartbeat_rsp.rs:18-63). -/
def heartbeatRsp (sid : UInt32) (bytes : Bytes) : H Bytes := do
  let r ← checkVersion bytes
  M.modify (Ctx.resetBuffers .reqHeartbeat (some sid))
  let _ ← readReq (fun _ => rdNoParams) bytes r
  encodeRsp .rspHeartbeatAck .heartbeatAck

/-- `handle_spdm_heartbeat` (responder/heartbeat_rsp.rs:11-16). -/
def handleHeartbeat (e : Env) (sid : UInt32) (bytes : Bytes) : M Status Ctx Unit := do
  let b ← reply (heartbeatRsp sid bytes)
  sendSecured e sid b false

/-- the key operations of KEY_UPDATE (responder/key_update_rsp.rs:51-72); the `Result`s are ignored. -/
def keyUpdateOps (e : Env) (v : SpdmVersion) (op : KeyUpdateOp) : M Status Session Bool :=
  match op with
  | .updateSingleKey => do
    let _ ← M.try' (Session.createUpdate e.crypto v true false)
    pure true
  | .updateAllKeys => do
    let _ ← M.try' (Session.createUpdate e.crypto v true true)
    M.modify (Session.activateUpdate true true true)
    pure true
  | .verifyNewKey => do
    M.modify (Session.activateUpdate true false true)
    pure true
  | .unknown _ => pure false

/-- `write_spdm_key_update_response` (responder/key_update_rsp.rs:18-87). -/
def keyUpdateRsp (e : Env) (sid : UInt32) (bytes : Bytes) : H Bytes := do
  let r ← checkVersion bytes
  M.modify (Ctx.resetBuffers .reqKeyUpdate (some sid))
  let (m, _) ← readReq (fun _ => KeyUpd.read) bytes r
  let c ← M.get
  let known ← (Ctx.onSession sid M.panic (keyUpdateOps e c.neg.version m.op)).mapErr { code := .unspecified }
  if known = false then M.fail { code := .invalidRequest } else
  encodeRsp .rspKeyUpdateAck (.keyUpdateAck m)

/-- `handle_spdm_key_update` (responder/key_update_rsp.rs:11-16). -/
def handleKeyUpdate (e : Env) (sid : UInt32) (bytes : Bytes) : M Status Ctx Unit := do
  let b ← reply (keyUpdateRsp e sid bytes)
  sendSecured e sid b false

/-- `write_spdm_end_session_response` (responder/end_session_rsp.rs:18-64). -/
def endSessionRsp (sid : UInt32) (bytes : Bytes) : H Bytes := do
  let r ← checkVersion bytes
  let _ ← readReq (fun _ => rdEndSession) bytes r
  M.modify (Ctx.resetBuffers .reqEndSession (some sid))
  encodeRsp .rspEndSessionAck .endSessionAck

/-- `handle_spdm_end_session` (responder/end_session_rsp.rs:11-16). -/
def handleEndSession (e : Env) (sid : UInt32) (bytes : Bytes) : M Status Ctx Unit := do
  let b ← reply (endSessionRsp sid bytes)
  sendSecured e sid b false

/-- `write_spdm_vendor_defined_response` (responder/vendor_rsp.rs:25-85). -/
def vendorRsp (e : Env) (sid : Option UInt32) (bytes : Bytes) : H Bytes := do
  let r ← checkVersion bytes
  M.modify (Ctx.resetBuffers .reqVendorDefinedRequest sid)
  let (m, _) ← readReq (fun _ => Vendor.read) bytes r
  let (len, data) ← M.ofOption { code := .unspecified } (e.vendor m.length m.data)
  encodeRsp .rspVendorDefinedResponse (.vendorRsp ⟨m.standard, m.vendorId, len, data⟩)

/-- `handle_spdm_vendor_defined_request` (responder/vendor_rsp.rs:11-23). -/
def handleVendor (e : Env) (sid : Option UInt32) (bytes : Bytes) : M Status Ctx Unit := do
  let b ← reply (vendorRsp e sid bytes)
  send e sid b

end Rsp
end Verif
