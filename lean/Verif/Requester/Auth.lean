/-
Requester: GET_DIGESTS, GET_CERTIFICATE, CHALLENGE, GET_MEASUREMENTS
(spdmlib/src/requester/{get_digests,get_certificate,challenge,get_measurements}_req.rs).
-/
import Verif.Requester.Negotiate

namespace Verif
namespace Req

/-! ### GET_DIGESTS -/

/-- `handle_spdm_digest_response` (requester/get_digests_req.rs:56-102). -/
def handleDigests (e : REnv) (sid : Option UInt32) (req bytes : Bytes) : M Status Ctx Unit := do
  let r ← expect sid .rspDigests bytes
  let (_, rsp) ← Rsp.readMsg Digests.read bytes r
  appendBBoth e sid req rsp

/-- `send_receive_spdm_digest` (requester/get_digests_req.rs:10-42). -/
def getDigests (e : REnv) (sid : Option UInt32) : M Status Ctx Unit := do
  M.modify (Ctx.resetBuffers .reqGetDigests sid)
  let req ← encodeReq .reqGetDigests .getDigests
  let rsp ← transact e sid req
  handleDigests e sid req rsp

/-! ### GET_CERTIFICATE -/

/-- the length checks on a CERTIFICATE response (requester/get_certificate_req.rs:105-125), in `u16` arithmetic. -/
def portionRefused (total offset length : UInt16) (m : CertRsp) : Bool :=
  decide (m.portion > length) || decide (m.portion > 4096 - offset) ||
  decide (m.remainder ≥ 4096 - offset - m.portion) ||
  (decide (total ≠ 0) && decide (total ≠ offset + m.portion + m.remainder))

/-- writing a portion into the temporary chain (requester/get_certificate_req.rs:138-146): the bytes before `offset` keep
their values, `data_size` becomes `offset + portion_length`. -/
def storePortion (offset : UInt16) (m : CertRsp) (temp : Bytes) : Bytes :=
  (temp ++ List.replicate (offset.toNat - temp.length) 0).take offset.toNat ++ m.data.take m.portion.toNat

/-- `handle_spdm_certificate_partial_response` (requester/get_certificate_req.rs:81-180). -/
def handleCertificate (e : REnv) (sid : Option UInt32) (slot : UInt8) (total offset length : UInt16) (req bytes : Bytes) :
    M Status Ctx (UInt16 × UInt16) := do
  let r ← expect sid .rspCertificate bytes
  let (m, rsp) ← Rsp.readMsg (fun _ => CertRsp.read) bytes r
  if portionRefused total offset length m then M.fail .invalidMsgField else
  if m.slot ≠ slot then M.fail .invalidMsgField else do
  let c ← M.get
  let temp ← M.ofOption .invalidStateLocal c.peer.temp
  M.set { c with peer := { c.peer with temp := some (storePortion offset m temp) } }
  appendBBoth e sid req rsp
  pure (m.portion, m.remainder)

/-- `send_receive_spdm_certificate_partial` (requester/get_certificate_req.rs:15-54). -/
def getCertificatePartial (e : REnv) (sid : Option UInt32) (slot : UInt8) (total offset length : UInt16) :
    M Status Ctx (UInt16 × UInt16) := do
  let req ← encodeReq .reqGetCertificate (.getCert ⟨slot, offset, length⟩)
  let rsp ← transact e sid req
  handleCertificate e sid slot total offset length req rsp

/-- the loop of `send_receive_spdm_certificate` (requester/get_certificate_req.rs:202-216); returns `total_size`.  `fuel`
bounds the number of iterations: running out stands for a loop that has not ended, shown as a panic, and every theorem holds
for all `fuel`. -/
def certificateLoop (e : REnv) (sid : Option UInt32) (slot : UInt8) :
    (fuel : Nat) → (total offset length : UInt16) → M Status Ctx UInt16
  | 0, _, _, _ => M.panic
  | fuel + 1, total, offset, length =>
    if length = 0 then pure total else do
    let (portion, remainder) ← getCertificatePartial e sid slot total offset length
    certificateLoop e sid slot fuel (if total = 0 then portion + remainder else total) (offset + portion)
      (if remainder > 512 then 512 else remainder)

/-- `data[0] as u16 + ((data[1] as u16) << 8)` (requester/get_certificate_req.rs:249-250). -/
def sizeField (chain : Bytes) : UInt16 := (chain.getD 0 0).toUInt16 + ((chain.getD 1 0).toUInt16 <<< 8)

/-- the comparison with the provisioned root (requester/get_certificate_req.rs:303-319). -/
def rootAuthorised (c : Ctx) (root : Bytes) : Bool :=
  match c.prov.peerRoot with
  | some p => decide (root = p)
  | none => true

/-- the root certificate of the received certificates (requester/get_certificate_req.rs:281-286): a slice of the 4096-byte
array that holds them. -/
def rootSlice (certs : Bytes) (b en : Nat) : Res Bytes :=
  if b ≤ en ∧ en ≤ 4096 then .ok (((certs ++ List.replicate (4096 - certs.length) 0).drop b).take (en - b)) else .panic

/-- `verify_spdm_certificate_chain` (requester/get_certificate_req.rs:228-323); a failing `get_cert_from_cert_chain` reports
INVALID_CERT. -/
def verifyChain (e : REnv) (c : Ctx) : Res Unit := do
  let chain ← Res.ofOption .invalidParameter c.peer.temp
  let hs ← Res.unwrap c.cc.hashSize?
  if chain.length ≤ 4 + hs then .err .invalidCert else
  if (sizeField chain).toNat ≠ chain.length then .err .invalidCert else do
  if e.verifyChain (chain.drop (4 + hs)) = false then .err .invalidCert else do
  let (b, en) ← Res.ofOption .invalidCert (e.certFromChain (chain.drop (4 + hs)) 0)
  let root ← rootSlice (chain.drop (4 + hs)) b en
  let h ← Res.ofOption .cryptoError (e.crypto.hash c.neg.baseHash root)
  if h ≠ (chain.drop 4).take hs then .err .invalidCert else
  if rootAuthorised c root = false then .err .invalidCert else
  .ok ()

/-- the end of `send_receive_spdm_certificate` (requester/get_certificate_req.rs:217-225). -/
def storeChain (e : REnv) (slot : Fin 8) (total : UInt16) : M Status Ctx Unit := do
  let c ← M.get
  if total = 0 then do
    M.set { c with peer := { c.peer with temp := none } }
    M.fail .invalidCert
  else
    match verifyChain e c with
    | .panic => M.panic
    | .err st => do
      M.set { c with peer := { c.peer with temp := none } }
      M.fail st
    | .ok _ =>
      M.set { c with peer := { chain := fun j => if j = slot then c.peer.temp else c.peer.chain j, temp := none } }

/-- `send_receive_spdm_certificate` (requester/get_certificate_req.rs:182-226). -/
def getCertificate (e : REnv) (fuel : Nat) (sid : Option UInt32) (slot : UInt8) : M Status Ctx Unit := do
  let i ← M.ofOption .invalidStateLocal (Ctx.slot? slot)
  M.modify (Ctx.resetBuffers .reqGetCertificate sid)
  M.modify fun c => { c with peer := { c.peer with temp := some [] } }
  let total ← certificateLoop e sid slot fuel 0 0 512
  storeChain e i total

/-! ### CHALLENGE -/

/-- `verify_challenge_auth_signature` (requester/challenge_req.rs:150-210). -/
def challengeVerify (e : REnv) (slot : UInt8) (sig : Bytes) (c : Ctx) : Res Unit := do
  let x ← Res.ofOption .cryptoError c.rt.m1m2
  let h ← Res.ofOption .cryptoError (Ctx.hashFinal e.toEnv x)
  let certs ← peerCerts c slot
  let m ← Sign.challengeAuthMsg c.cc h
  verifyWith e c certs m sig

/-- the signature check of CHALLENGE_AUTH (requester/challenge_req.rs:115-127): either way M1/M2 is dropped. -/
def challengeCheck (e : REnv) (slot : UInt8) (sig : Bytes) : M Status Ctx Unit := do
  let c ← M.get
  match challengeVerify e slot sig c with
  | .panic => M.panic
  | .err _ => do
    M.modify Ctx.resetM1M2
    M.fail .verifFail
  | .ok _ => M.modify Ctx.resetM1M2

/-- `handle_spdm_challenge_response` (requester/challenge_req.rs:73-147). -/
def handleChallengeAuth (e : REnv) (sid : UInt32) (slot : UInt8) (t : SummaryHashType) (req bytes : Bytes) : M Status Ctx Unit := do
  M.modify (wantSummary t)
  let r ← expect (some sid) .rspChallengeAuth bytes
  let (m, rsp) ← Rsp.readMsg ChallengeAuth.read bytes r
  let c ← M.get
  let asym ← M.unwrap c.cc.asymSize?
  let body ← (Rsp.dropTail asym rsp).lift
  Ctx.appendC e.toEnv req
  Ctx.appendC e.toEnv body
  challengeCheck e slot m.signature

/-- `send_receive_spdm_challenge` (requester/challenge_req.rs:17-46) with `encode_spdm_challenge` (48-71). -/
def challenge (e : REnv) (slot : UInt8) (t : SummaryHashType) : M Status Ctx Unit := do
  if slot ≥ 8 then M.fail .invalidParameter else do
  M.modify (Ctx.resetBuffers .reqChallenge none)
  let nonce ← M.ofOption .cryptoError (Ctx.random e.toEnv 32)
  let req ← encodeReq .reqChallenge (.challenge ⟨slot, t, nonce⟩)
  let rsp ← transact e none req
  handleChallengeAuth e 0 slot t req rsp

/-! ### GET_MEASUREMENTS -/

/-- the L1/L2 context (requester/get_measurements_req.rs:238-262). -/
def l1l2Of (c : Ctx) (sid : Option UInt32) : Res HashCtx :=
  match sid with
  | none => Res.ofOption .cryptoError c.rt.l1l2
  | some sid =>
    match c.session? sid with
    | none => .err .invalidMsgField
    | some s => Res.ofOption .cryptoError s.l1l2

/-- `verify_measurement_signature` (requester/get_measurements_req.rs:232-311). -/
def measurementVerify (e : REnv) (sid : Option UInt32) (slot : UInt8) (sig : Bytes) (c : Ctx) : Res Unit := do
  let x ← l1l2Of c sid
  let h ← Res.ofOption .cryptoError (Ctx.hashFinal e.toEnv x)
  let certs ← peerCerts c slot
  let m ← Sign.measurementsMsg c.cc h
  verifyWith e c certs m sig

/-- the signature check of MEASUREMENTS (requester/get_measurements_req.rs:152-172). -/
def measurementCheck (e : REnv) (sid : Option UInt32) (slot : UInt8) (sig : Bytes) : M Status Ctx Unit := do
  let c ← M.get
  match measurementVerify e sid slot sig c with
  | .panic => M.panic
  | .err _ => do
    M.modify (Ctx.resetM sid)
    M.fail .verifFail
  | .ok _ => M.modify (Ctx.resetM sid)

/-- what the caller receives: a count and the record (requester/get_measurements_req.rs:174-186, 211-229). -/
def measurementResult (op : MeasOperation) (m : Meas) : UInt8 × MeasRecord :=
  (if op = .queryTotalNumber then m.number else m.record.blocks, m.record)

/-- the content-changed field is kept from SPDM 1.2 on (requester/get_measurements_req.rs:132-137). -/
def noteChanged (m : Meas) (c : Ctx) : Ctx :=
  if c.cc.ge12 then { c with rt := { c.rt with contentChanged := m.changed } } else c

/-- the part of a MEASUREMENTS response that enters L1/L2 (requester/get_measurements_req.rs:139-146). -/
def measurementBody (signed : Bool) (asym : Nat) (rsp : Bytes) : Res Bytes :=
  if signed then Rsp.dropTail asym rsp else .ok rsp

/-- the check only happens when a signature was requested (requester/get_measurements_req.rs:152-172). -/
def measurementCheckIf (e : REnv) (signed : Bool) (sid : Option UInt32) (slot : UInt8) (sig : Bytes) : M Status Ctx Unit :=
  if signed then measurementCheck e sid slot sig else pure ()

/-- SIGNATURE_REQUESTED (message/measurement.rs). -/
def signatureRequested (attr : UInt8) : Bool := attr &&& 1 == 1

/-- `handle_spdm_measurement_record_response` (requester/get_measurements_req.rs:101-209). -/
def handleMeasurements (e : REnv) (sid : Option UInt32) (slot attr : UInt8) (op : MeasOperation) (req bytes : Bytes) :
    M Status Ctx (UInt8 × MeasRecord) := do
  M.modify fun c => { c with rt := { c.rt with needSig := signatureRequested attr } }
  let r ← expect sid .rspMeasurements bytes
  let (m, rsp) ← Rsp.readMsg Meas.read bytes r
  M.modify (noteChanged m)
  let c ← M.get
  let asym ← M.unwrap c.cc.asymSize?
  let body ← (measurementBody (signatureRequested attr) asym rsp).lift
  Ctx.appendM e.toEnv sid req
  Ctx.appendM e.toEnv sid body
  measurementCheckIf e (signatureRequested attr) sid slot m.signature
  pure (measurementResult op m)

/-- `send_receive_spdm_measurement` (requester/get_measurements_req.rs:17-70, 211-229) with
`encode_spdm_measurement_record` (72-98). -/
def getMeasurements (e : REnv) (sid : Option UInt32) (slot attr : UInt8) (op : MeasOperation) : M Status Ctx (UInt8 × MeasRecord) := do
  if slot ≥ 8 then M.fail .invalidParameter else do
  M.modify (Ctx.resetBuffers .reqGetMeasurements sid)
  let nonce ← M.ofOption .cryptoError (Ctx.random e.toEnv 32)
  let req ← encodeReq .reqGetMeasurements (.getMeas ⟨attr, op, nonce, slot⟩)
  let rsp ← transact e sid req
  handleMeasurements e sid slot attr op req rsp

end Req
end Verif
