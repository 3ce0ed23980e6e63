/-
The SPDM message: header and payload dispatch (spdmlib/src/message/mod.rs).
-/
import Verif.Msg.Auth
import Verif.Msg.Sess

namespace Verif

/-! ### Header -/

/-- `SpdmMessageHeader` (message/mod.rs:107-111). -/
structure Header where
  version : SpdmVersion
  code : ReqRespCode
  deriving Repr, DecidableEq
/-- `SpdmMessageHeader::encode` (message/mod.rs:114-119). -/
def Header.encode (h : Header) : Enc Nat := Enc.seq [h.version.encode, h.code.encode]
/-- `SpdmMessageHeader::read` (message/mod.rs:121-128). -/
def Header.read : Rd Header := do
  let version ← SpdmVersion.read
  let code ← ReqRespCode.read
  pure ⟨version, code⟩
/-- Wire image of a header. -/
def Header.wire (h : Header) : Bytes := [h.version.get] ++ [h.code.get]
/-- The header values are ones the wire can carry (every enumerated value, or an unknown code not in the table). -/
def Header.WF (h : Header) : Prop := h.version.WF ∧ h.code.WF

theorem Header.encode_writes (h : Header) : Writes h.encode h.wire := by
  have a1 := SpdmVersion.writes h.version
  have a2 := ReqRespCode.writes h.code
  unfold Header.encode
  apply Writes.cast
  · wr
  simp [Header.wire]
theorem SpdmVersion.rt {v : SpdmVersion} (h : v.WF) : RT SpdmVersion.read [v.get] v := by
  intro t u
  have h' : SpdmVersion.ofCode v.get = v := h
  simp [h']
theorem ReqRespCode.rt {v : ReqRespCode} (h : v.WF) : RT ReqRespCode.read [v.get] v := by
  intro t u
  have h' : ReqRespCode.ofCode v.get = v := h
  simp [h']
theorem Header.read_rt {h : Header} (hw : h.WF) : RT Header.read h.wire h := by
  have a1 := SpdmVersion.rt hw.1
  have a2 := ReqRespCode.rt hw.2
  apply RT.cast_nil
  unfold Header.read Header.wire
  simp only [List.append_assoc]
  rt
theorem Header.read_good : Rd.Good Header.read := by
  have := SpdmVersion.good
  have := ReqRespCode.good
  unfold Header.read; rd_good
theorem Header.read_ok {r r' : Reader} {h : Header} : Header.read r = .ok h r' ↔ h.WF ∧ r.After h.wire r' := by
  constructor
  · intro e
    simp only [Header.read, M.bind_ok, M.pure_ok, SpdmVersion.read_ok, ReqRespCode.read_ok] at e
    obtain ⟨v, t, ⟨hv, h1⟩, k, t2, ⟨hk, h2⟩, rfl, rfl⟩ := e
    exact ⟨⟨hv, hk⟩, h1.trans h2⟩
  · rintro ⟨hw, h1, h2⟩
    have := Header.read_rt hw r'.rest r.used
    obtain ⟨a, b⟩ := r; obtain ⟨a', b'⟩ := r'
    simp at h1 h2 this
    rw [h1, this, h2]

/-! ### Payloads -/

/-- `SpdmMessagePayload` (message/mod.rs:184-242) without the `mut-auth` feature; payloads without fields of their own
carry nothing. -/
inductive Payload where
  | general (p1 p2 : UInt8)
  | getVersion
  | version (m : VersionRsp)
  | getCaps (m : Caps)
  | caps (m : Caps)
  | negAlgs (m : NegAlgs)
  | algs (m : Algs)
  | getDigests
  | digests (m : Digests)
  | getCert (m : GetCert)
  | cert (m : CertRsp)
  | challenge (m : Challenge)
  | challengeAuth (m : ChallengeAuth)
  | getMeas (m : GetMeas)
  | meas (m : Meas)
  | keyEx (m : KeyEx)
  | keyExRsp (m : KeyExRsp)
  | finish (m : Finish)
  | finishRsp (verify : Bytes)
  | pskEx (m : PskEx)
  | pskExRsp (m : PskExRsp)
  | pskFinish (verify : Bytes)
  | pskFinishRsp
  | heartbeat
  | heartbeatAck
  | keyUpdate (m : KeyUpd)
  | keyUpdateAck (m : KeyUpd)
  | endSession (attr : UInt8)
  | endSessionAck
  | error (m : ErrorRsp)
  | vendorReq (m : Vendor)
  | vendorRsp (m : Vendor)
  deriving Repr, DecidableEq

/-- `SpdmMessageGeneralPayload::spdm_encode` (message/mod.rs:153-162): the parameters are written as zero. -/
def encGeneral : Enc Nat := Enc.seq [encU8 0, encU8 0]

/-- The payload part of `SpdmMessage::spdm_encode` (message/mod.rs:431-559). -/
def Payload.encode (c : Cc) : Payload → Enc Nat
  | .general _ _ => encGeneral
  | .getVersion => encNoParams
  | .version m => m.encode
  | .getCaps m => encGetCaps c m
  | .caps m => encCaps c m
  | .negAlgs m => encNegAlgs c m
  | .algs m => encAlgs c m
  | .getDigests => encNoParams
  | .digests m => m.encode c
  | .getCert m => m.encode
  | .cert m => m.encode
  | .challenge m => m.encode
  | .challengeAuth m => m.encode c
  | .getMeas m => m.encode c
  | .meas m => m.encode c
  | .keyEx m => m.encode c
  | .keyExRsp m => m.encode c
  | .finish m => m.encode c
  | .finishRsp v => encFinishRsp c v
  | .pskEx m => m.encode
  | .pskExRsp m => m.encode c
  | .pskFinish v => encPskFinish c v
  | .pskFinishRsp => encNoParams
  | .heartbeat => encNoParams
  | .heartbeatAck => encNoParams
  | .keyUpdate m => m.encode
  | .keyUpdateAck m => m.encode
  | .endSession a => encEndSession a
  | .endSessionAck => encNoParams
  | .error m => m.encode
  | .vendorReq m => m.encode
  | .vendorRsp m => m.encode

/-- The payload part of `SpdmMessage::read_with_detailed_error` (message/mod.rs:250-413): the code selects the payload
decoder; every code not listed there gives `None`. -/
def Payload.read (c : Cc) (k : ReqRespCode) : Rd Payload :=
  match k with
  | .rspVersion => Payload.version <$> VersionRsp.read
  | .reqGetVersion => (fun _ => Payload.getVersion) <$> rdNoParams
  | .rspCapabilities => Payload.caps <$> rdCaps c
  | .reqGetCapabilities => Payload.getCaps <$> rdGetCaps c
  | .rspAlgorithms => Payload.algs <$> rdAlgsRsp c
  | .reqNegotiateAlgorithms => Payload.negAlgs <$> rdNegAlgs c
  | .rspDigests => Payload.digests <$> Digests.read c
  | .reqGetDigests => (fun _ => Payload.getDigests) <$> rdNoParams
  | .rspCertificate => Payload.cert <$> CertRsp.read
  | .reqGetCertificate => Payload.getCert <$> GetCert.read
  | .rspChallengeAuth => Payload.challengeAuth <$> ChallengeAuth.read c
  | .reqChallenge => Payload.challenge <$> Challenge.read c
  | .rspMeasurements => Payload.meas <$> Meas.read c
  | .reqGetMeasurements => Payload.getMeas <$> GetMeas.read c
  | .rspKeyExchangeRsp => Payload.keyExRsp <$> KeyExRsp.read c
  | .reqKeyExchange => Payload.keyEx <$> KeyEx.read c
  | .rspFinishRsp => Payload.finishRsp <$> rdFinishRsp c
  | .reqFinish => Payload.finish <$> Finish.read c
  | .rspPskExchangeRsp => Payload.pskExRsp <$> PskExRsp.read c
  | .reqPskExchange => Payload.pskEx <$> PskEx.read c
  | .rspPskFinishRsp => (fun _ => Payload.pskFinishRsp) <$> rdNoParams
  | .reqPskFinish => Payload.pskFinish <$> rdPskFinish c
  | .rspHeartbeatAck => (fun _ => Payload.heartbeatAck) <$> rdNoParams
  | .reqHeartbeat => (fun _ => Payload.heartbeat) <$> rdNoParams
  | .rspKeyUpdateAck => Payload.keyUpdateAck <$> KeyUpd.read
  | .reqKeyUpdate => Payload.keyUpdate <$> KeyUpd.read
  | .rspEndSessionAck => (fun _ => Payload.endSessionAck) <$> rdNoParams
  | .reqEndSession => Payload.endSession <$> rdEndSession
  | .rspError => Payload.error <$> ErrorRsp.read
  | _ => Rd.none

/-- `SpdmMessage` (message/mod.rs:172-176). -/
structure Msg where
  header : Header
  payload : Payload
  deriving Repr, DecidableEq
/-- `SpdmMessage::spdm_encode` (message/mod.rs:420-562). -/
def Msg.encode (c : Cc) (m : Msg) : Enc Nat := Enc.seq [m.header.encode, m.payload.encode c]
/-- `SpdmMessage::read_with_detailed_error` (message/mod.rs:244-417) and `SpdmMessage::spdm_read` (564-566). -/
def Msg.read (c : Cc) : Rd Msg := do
  let header ← Header.read
  let payload ← Payload.read c header.code
  pure ⟨header, payload⟩

/-! ### Specification: layout, well-formedness, code of each payload -/

/-- Wire image of each payload. -/
def Payload.wire (c : Cc) : Payload → Bytes
  | .general _ _ => [0, 0]
  | .getVersion => [0, 0]
  | .version m => m.wire
  | .getCaps m => getCapsWire c m
  | .caps m => capsWire c m
  | .negAlgs m => negAlgsWire c m
  | .algs m => algsWire c m
  | .getDigests => [0, 0]
  | .digests m => m.wire
  | .getCert m => m.wire
  | .cert m => m.wire
  | .challenge m => m.wire
  | .challengeAuth m => m.wire c
  | .getMeas m => m.wire c
  | .meas m => m.wire c
  | .keyEx m => m.wire c
  | .keyExRsp m => m.wire c
  | .finish m => m.wire
  | .finishRsp v => finishRspWire c v
  | .pskEx m => m.wire
  | .pskExRsp m => m.wire c
  | .pskFinish v => pskFinishWire v
  | .pskFinishRsp => [0, 0]
  | .heartbeat => [0, 0]
  | .heartbeatAck => [0, 0]
  | .keyUpdate m => m.wire
  | .keyUpdateAck m => m.wire
  | .endSession a => endSessionWire a
  | .endSessionAck => [0, 0]
  | .error m => m.wire
  | .vendorReq m => m.wire
  | .vendorRsp m => m.wire
/-- Wire image of a message. -/
def Msg.wire (c : Cc) (m : Msg) : Bytes := m.header.wire ++ m.payload.wire c

/-- Field sizes and value ranges the negotiated parameters `c` prescribe for a payload. -/
def Payload.WF (c : Cc) : Payload → Prop
  | .general a b => a = 0 ∧ b = 0
  | .getVersion | .getDigests | .pskFinishRsp | .heartbeat | .heartbeatAck | .endSessionAck => True
  | .version m => m.WF
  | .getCaps m => GetCapsWF c m
  | .caps m => CapsWF c m
  | .negAlgs m => NegAlgsWF c m
  | .algs m => AlgsWF c m
  | .digests m => m.WF c
  | .getCert _ => True
  | .cert m => m.WF
  | .challenge m => m.WF c
  | .challengeAuth m => m.WF c
  | .getMeas m => m.WF c
  | .meas m => m.WF c
  | .keyEx m => m.WF c
  | .keyExRsp m => m.WF c
  | .finish m => m.WF c
  | .finishRsp v => OptOk c.inClear c.DigestOk v
  | .pskEx m => m.WF c
  | .pskExRsp m => m.WF c
  | .pskFinish v => c.DigestOk v
  | .keyUpdate m => m.op.known = true
  | .keyUpdateAck m => m.op.known = true
  | .endSession a => a ≤ 1
  | .error m => m.WF
  | .vendorReq m => m.WF
  | .vendorRsp m => m.WF

/-- The request/response code the SPDM specification gives each payload. `general` has none, and the vendor-defined
payloads have codes of their own but are not decoded by `Msg.read`. -/
def Payload.code? : Payload → Option ReqRespCode
  | .general _ _ => none
  | .getVersion => some .reqGetVersion
  | .version _ => some .rspVersion
  | .getCaps _ => some .reqGetCapabilities
  | .caps _ => some .rspCapabilities
  | .negAlgs _ => some .reqNegotiateAlgorithms
  | .algs _ => some .rspAlgorithms
  | .getDigests => some .reqGetDigests
  | .digests _ => some .rspDigests
  | .getCert _ => some .reqGetCertificate
  | .cert _ => some .rspCertificate
  | .challenge _ => some .reqChallenge
  | .challengeAuth _ => some .rspChallengeAuth
  | .getMeas _ => some .reqGetMeasurements
  | .meas _ => some .rspMeasurements
  | .keyEx _ => some .reqKeyExchange
  | .keyExRsp _ => some .rspKeyExchangeRsp
  | .finish _ => some .reqFinish
  | .finishRsp _ => some .rspFinishRsp
  | .pskEx _ => some .reqPskExchange
  | .pskExRsp _ => some .rspPskExchangeRsp
  | .pskFinish _ => some .reqPskFinish
  | .pskFinishRsp => some .rspPskFinishRsp
  | .heartbeat => some .reqHeartbeat
  | .heartbeatAck => some .rspHeartbeatAck
  | .keyUpdate _ => some .reqKeyUpdate
  | .keyUpdateAck _ => some .rspKeyUpdateAck
  | .endSession _ => some .reqEndSession
  | .endSessionAck => some .rspEndSessionAck
  | .error _ => some .rspError
  | .vendorReq _ => none
  | .vendorRsp _ => none

/-- The negotiated algorithms whose size the decoder of code `k` asks for are single selections (the code panics in
`get_size` otherwise). -/
def Cc.SizesFor (c : Cc) : ReqRespCode → Prop
  | .rspDigests => c.hashSize?.isSome
  | .rspChallengeAuth => c.hashSize?.isSome ∧ c.asymSize?.isSome
  | .rspMeasurements => (MeasHash.size? c.neg.measHash).isSome ∧ (c.needSig = true → c.asymSize?.isSome)
  | .reqKeyExchange => c.dheSize?.isSome
  | .rspKeyExchangeRsp => c.hashSize?.isSome ∧ c.asymSize?.isSome ∧ c.dheSize?.isSome
  | .reqFinish => c.hashSize?.isSome ∧ c.asymSize?.isSome
  | .rspFinishRsp => c.hashSize?.isSome
  | .rspPskExchangeRsp => c.hashSize?.isSome
  | .reqPskFinish => c.hashSize?.isSome
  | _ => True

theorem Payload.encode_writes {c : Cc} {p : Payload} (h : p.WF c) : Writes (p.encode c) (p.wire c) := by
  cases p with
  | general a b => exact Writes.cast (by unfold Payload.encode encGeneral; wr) rfl
  | getVersion | getDigests | pskFinishRsp | heartbeat | heartbeatAck | endSessionAck => exact encNoParams_writes
  | version m => exact VersionRsp.encode_writes m
  | getCaps m => exact encGetCaps_writes c m
  | caps m => exact encCaps_writes c m
  | negAlgs m => exact encNegAlgs_writes ⟨h.2.2.2.2.1, h.2.2.2.2.2.1⟩
  | algs m => exact encAlgs_writes ⟨h.2.2.2.2.2.1.1, h.2.2.2.2.2.1.2.1⟩
  | digests m => exact Digests.encode_writes h
  | getCert m => exact GetCert.encode_writes m
  | cert m => exact CertRsp.encode_writes h
  | challenge m => exact Challenge.encode_writes m
  | challengeAuth m => exact ChallengeAuth.encode_writes h
  | getMeas m => exact GetMeas.encode_writes c m
  | meas m => exact Meas.encode_writes h.2.2.2.2.2.2.2.2
  | keyEx m => exact KeyEx.encode_writes c m
  | keyExRsp m => exact KeyExRsp.encode_writes h
  | finish m => exact Finish.encode_writes h
  | finishRsp v => exact encFinishRsp_writes h
  | pskEx m => exact PskEx.encode_writes m
  | pskExRsp m => exact PskExRsp.encode_writes h
  | pskFinish v => exact encPskFinish_writes h
  | keyUpdate m => exact KeyUpd.encode_writes m
  | keyUpdateAck m => exact KeyUpd.encode_writes m
  | endSession a => exact encEndSession_writes a
  | error m => exact ErrorRsp.encode_writes m
  | vendorReq m => exact Vendor.encode_writes h
  | vendorRsp m => exact Vendor.encode_writes h

theorem Msg.encode_writes {c : Cc} {m : Msg} (h : m.payload.WF c) : Writes (m.encode c) (m.wire c) := by
  have a1 := Header.encode_writes m.header
  have a2 := Payload.encode_writes h
  unfold Msg.encode
  apply Writes.cast
  · wr
  simp [Msg.wire]

theorem Payload.read_rt {c : Cc} {p : Payload} {k : ReqRespCode} (h : p.WF c) (hk : p.code? = some k) :
    RT (Payload.read c k) (p.wire c) p := by
  cases p <;> simp only [Payload.code?, Option.some.injEq, reduceCtorEq] at hk <;> subst hk <;> unfold Payload.read Payload.wire
  case getVersion | getDigests | pskFinishRsp | heartbeat | heartbeatAck | endSessionAck => exact RT.map (rdNoParams_rt _ _) rfl
  case version m => exact RT.map (VersionRsp.read_rt h) rfl
  case getCaps m => exact RT.map (rdGetCaps_rt h) rfl
  case caps m => exact RT.map (rdCaps_rt h) rfl
  case negAlgs m => exact RT.map (rdNegAlgs_rt h) rfl
  case algs m => exact RT.map (rdAlgsRsp_rt h) rfl
  case digests m => exact RT.map (Digests.read_rt h) rfl
  case getCert m => exact RT.map (GetCert.read_rt m) rfl
  case cert m => exact RT.map (CertRsp.read_rt h) rfl
  case challenge m => exact RT.map (Challenge.read_rt h) rfl
  case challengeAuth m => exact RT.map (ChallengeAuth.read_rt h) rfl
  case getMeas m => exact RT.map (GetMeas.read_rt h) rfl
  case meas m => exact RT.map (Meas.read_rt h) rfl
  case keyEx m => exact RT.map (KeyEx.read_rt h) rfl
  case keyExRsp m => exact RT.map (KeyExRsp.read_rt h) rfl
  case finish m => exact RT.map (Finish.read_rt h) rfl
  case finishRsp v => exact RT.map (rdFinishRsp_rt h) rfl
  case pskEx m => exact RT.map (PskEx.read_rt h) rfl
  case pskExRsp m => exact RT.map (PskExRsp.read_rt h) rfl
  case pskFinish v => exact RT.map (rdPskFinish_rt h) rfl
  case keyUpdate m => exact RT.map (KeyUpd.read_rt h) rfl
  case keyUpdateAck m => exact RT.map (KeyUpd.read_rt h) rfl
  case endSession a => exact RT.map (rdEndSession_rt h) rfl
  case error m => exact RT.map (ErrorRsp.read_rt h) rfl

theorem Msg.read_rt {c : Cc} {m : Msg} (hv : m.header.version.WF) (hk : m.payload.code? = some m.header.code)
    (h : m.payload.WF c) : RT (Msg.read c) (m.wire c) m := by
  have hc : m.header.code.WF := by
    have : ∀ p : Payload, ∀ k, p.code? = some k → k.WF := by
      intro p k hp
      cases p <;> simp only [Payload.code?, Option.some.injEq, reduceCtorEq] at hp <;> subst hp <;> rfl
    exact this _ _ hk
  have a1 := Header.read_rt (h := m.header) ⟨hv, hc⟩
  have a2 := Payload.read_rt h hk
  apply RT.cast_nil
  unfold Msg.read Msg.wire
  simp only [List.append_assoc]
  rt

theorem Payload.read_good {c : Cc} {k : ReqRespCode} (h : c.SizesFor k) : Rd.Good (Payload.read c k) := by
  unfold Payload.read
  split <;> simp only [Cc.SizesFor] at h
  all_goals first
    | exact Rd.Good.none
    | exact Rd.Good.map rdNoParams_good
    | exact Rd.Good.map VersionRsp.read_good
    | exact Rd.Good.map (rdCaps_good c)
    | exact Rd.Good.map (rdGetCaps_good c)
    | exact Rd.Good.map (rdAlgsRsp_good c)
    | exact Rd.Good.map (rdNegAlgs_good c)
    | exact Rd.Good.map (Digests.read_good h)
    | exact Rd.Good.map CertRsp.read_good
    | exact Rd.Good.map GetCert.read_good
    | exact Rd.Good.map (ChallengeAuth.read_good h.1 h.2)
    | exact Rd.Good.map (Challenge.read_good c)
    | exact Rd.Good.map (Meas.read_good h.1 h.2)
    | exact Rd.Good.map (GetMeas.read_good c)
    | exact Rd.Good.map (KeyExRsp.read_good h.1 h.2.1 h.2.2)
    | exact Rd.Good.map (KeyEx.read_good h)
    | exact Rd.Good.map (rdFinishRsp_good h)
    | exact Rd.Good.map (Finish.read_good h.1 h.2)
    | exact Rd.Good.map (PskExRsp.read_good h)
    | exact Rd.Good.map (PskEx.read_good c)
    | exact Rd.Good.map (rdPskFinish_good h)
    | exact Rd.Good.map KeyUpd.read_good
    | exact Rd.Good.map rdEndSession_good
    | exact Rd.Good.map ErrorRsp.read_good

theorem Payload.read_code {c : Cc} {k : ReqRespCode} {p : Payload} {r r' : Reader} (h : Payload.read c k r = .ok p r') :
    p.code? = some k := by
  unfold Payload.read at h
  split at h
  all_goals first
    | (simp only [M.map_ok] at h; obtain ⟨_, _, rfl⟩ := h; rfl)
    | (simp [Rd.none] at h)

end Verif
