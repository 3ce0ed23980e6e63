/-
Wire enumerations (generated by transcription of every `enum_builder!` used on the wire).
`codec/src/macros.rs:7-110`: `Unknown(x)` keeps an unlisted code; `get_u8`/`get_u16` returns the listed code or `x`;
`read` reads the integer and maps listed codes to their variant.
-/
import Verif.Codec.Good

namespace Verif

/-- `SpdmVersion` (spdmlib/src/protocol/version.rs:8-16). -/
inductive SpdmVersion where
  | v10 | v11 | v12
  | unknown (b : UInt8)
  deriving Repr, DecidableEq

namespace SpdmVersion
/-- `get_u8` of `SpdmVersion` (spdmlib/src/protocol/version.rs:8-16, codec/src/macros.rs). -/
def get : SpdmVersion → UInt8
  | .v10 => 0x10
  | .v11 => 0x11
  | .v12 => 0x12
  | .unknown b => b

/-- decoding of `SpdmVersion` (spdmlib/src/protocol/version.rs:8-16, codec/src/macros.rs). -/
def ofCode (b : UInt8) : SpdmVersion :=
  match b with
  | 0x10 => .v10
  | 0x11 => .v11
  | 0x12 => .v12
  | b => .unknown b

/-- `SpdmVersion::read` (codec/src/macros.rs). -/
def read : Rd SpdmVersion := do
  let b ← rdU8
  pure (ofCode b)

/-- `SpdmVersion::encode` (codec/src/macros.rs). -/
def encode (x : SpdmVersion) : Enc Nat := encU8 x.get

/-- A listed variant, or `Unknown` of an unlisted code: the values `read` produces. -/
def WF (x : SpdmVersion) : Prop := ofCode x.get = x
instance (x : SpdmVersion) : Decidable x.WF := by unfold WF; infer_instance

@[simp] theorem get_ofCode (b : UInt8) : (ofCode b).get = b := by
  unfold ofCode; split <;> rfl

@[simp] theorem wf_ofCode (b : UInt8) : (ofCode b).WF := by simp [WF]

@[simp] theorem read_cons (b : UInt8) (t : Bytes) (u : Nat) : read ⟨b :: t, u⟩ = .ok (ofCode b) ⟨t, u + 1⟩ := by
  simp [read]

theorem read_ok {r r' : Reader} {x : SpdmVersion} : read r = .ok x r' ↔ x.WF ∧ r.After [x.get] r' := by
  simp only [read, M.bind_ok, M.pure_ok, rdU8_ok, WF]
  constructor
  · rintro ⟨b, t, h, rfl, rfl⟩; simpa using h
  · rintro ⟨h, h'⟩; exact ⟨_, _, h', h, rfl⟩

theorem writes (x : SpdmVersion) : Writes x.encode [x.get] := Writes.u8 _

theorem good : Rd.Good read := by unfold read; rd_good

end SpdmVersion

/-- `SpdmRequestResponseCode` (spdmlib/src/message/mod.rs:54-100). -/
inductive ReqRespCode where
  | rspDigests | rspCertificate | rspChallengeAuth | rspVersion | rspMeasurements | rspCapabilities | rspAlgorithms | rspVendorDefinedResponse | rspError | rspKeyExchangeRsp | rspFinishRsp | rspPskExchangeRsp | rspPskFinishRsp | rspHeartbeatAck | rspKeyUpdateAck | rspEncapsulatedRequest | rspEncapsulatedResponseAck | rspEndSessionAck | reqGetDigests | reqGetCertificate | reqChallenge | reqGetVersion | reqGetMeasurements | reqGetCapabilities | reqNegotiateAlgorithms | reqVendorDefinedRequest | reqResponseIfReady | reqKeyExchange | reqFinish | reqPskExchange | reqPskFinish | reqHeartbeat | reqKeyUpdate | reqGetEncapsulatedRequest | reqDeliverEncapsulatedResponse | reqEndSession
  | unknown (b : UInt8)
  deriving Repr, DecidableEq

namespace ReqRespCode
/-- `get_u8` of `SpdmRequestResponseCode` (spdmlib/src/message/mod.rs:54-100, codec/src/macros.rs). -/
def get : ReqRespCode → UInt8
  | .rspDigests => 0x01
  | .rspCertificate => 0x02
  | .rspChallengeAuth => 0x03
  | .rspVersion => 0x04
  | .rspMeasurements => 0x60
  | .rspCapabilities => 0x61
  | .rspAlgorithms => 0x63
  | .rspVendorDefinedResponse => 0x7E
  | .rspError => 0x7F
  | .rspKeyExchangeRsp => 0x64
  | .rspFinishRsp => 0x65
  | .rspPskExchangeRsp => 0x66
  | .rspPskFinishRsp => 0x67
  | .rspHeartbeatAck => 0x68
  | .rspKeyUpdateAck => 0x69
  | .rspEncapsulatedRequest => 0x6A
  | .rspEncapsulatedResponseAck => 0x6B
  | .rspEndSessionAck => 0x6C
  | .reqGetDigests => 0x81
  | .reqGetCertificate => 0x82
  | .reqChallenge => 0x83
  | .reqGetVersion => 0x84
  | .reqGetMeasurements => 0xE0
  | .reqGetCapabilities => 0xE1
  | .reqNegotiateAlgorithms => 0xE3
  | .reqVendorDefinedRequest => 0xFE
  | .reqResponseIfReady => 0xFF
  | .reqKeyExchange => 0xE4
  | .reqFinish => 0xE5
  | .reqPskExchange => 0xE6
  | .reqPskFinish => 0xE7
  | .reqHeartbeat => 0xE8
  | .reqKeyUpdate => 0xE9
  | .reqGetEncapsulatedRequest => 0xEA
  | .reqDeliverEncapsulatedResponse => 0xEB
  | .reqEndSession => 0xEC
  | .unknown b => b

/-- decoding of `SpdmRequestResponseCode` (spdmlib/src/message/mod.rs:54-100, codec/src/macros.rs). -/
def ofCode (b : UInt8) : ReqRespCode :=
  match b with
  | 0x01 => .rspDigests
  | 0x02 => .rspCertificate
  | 0x03 => .rspChallengeAuth
  | 0x04 => .rspVersion
  | 0x60 => .rspMeasurements
  | 0x61 => .rspCapabilities
  | 0x63 => .rspAlgorithms
  | 0x7E => .rspVendorDefinedResponse
  | 0x7F => .rspError
  | 0x64 => .rspKeyExchangeRsp
  | 0x65 => .rspFinishRsp
  | 0x66 => .rspPskExchangeRsp
  | 0x67 => .rspPskFinishRsp
  | 0x68 => .rspHeartbeatAck
  | 0x69 => .rspKeyUpdateAck
  | 0x6A => .rspEncapsulatedRequest
  | 0x6B => .rspEncapsulatedResponseAck
  | 0x6C => .rspEndSessionAck
  | 0x81 => .reqGetDigests
  | 0x82 => .reqGetCertificate
  | 0x83 => .reqChallenge
  | 0x84 => .reqGetVersion
  | 0xE0 => .reqGetMeasurements
  | 0xE1 => .reqGetCapabilities
  | 0xE3 => .reqNegotiateAlgorithms
  | 0xFE => .reqVendorDefinedRequest
  | 0xFF => .reqResponseIfReady
  | 0xE4 => .reqKeyExchange
  | 0xE5 => .reqFinish
  | 0xE6 => .reqPskExchange
  | 0xE7 => .reqPskFinish
  | 0xE8 => .reqHeartbeat
  | 0xE9 => .reqKeyUpdate
  | 0xEA => .reqGetEncapsulatedRequest
  | 0xEB => .reqDeliverEncapsulatedResponse
  | 0xEC => .reqEndSession
  | b => .unknown b

/-- `SpdmRequestResponseCode::read` (codec/src/macros.rs). -/
def read : Rd ReqRespCode := do
  let b ← rdU8
  pure (ofCode b)

/-- `SpdmRequestResponseCode::encode` (codec/src/macros.rs). -/
def encode (x : ReqRespCode) : Enc Nat := encU8 x.get

/-- A listed variant, or `Unknown` of an unlisted code: the values `read` produces. -/
def WF (x : ReqRespCode) : Prop := ofCode x.get = x
instance (x : ReqRespCode) : Decidable x.WF := by unfold WF; infer_instance

@[simp] theorem get_ofCode (b : UInt8) : (ofCode b).get = b := by
  unfold ofCode; split <;> rfl

@[simp] theorem wf_ofCode (b : UInt8) : (ofCode b).WF := by simp [WF]

@[simp] theorem read_cons (b : UInt8) (t : Bytes) (u : Nat) : read ⟨b :: t, u⟩ = .ok (ofCode b) ⟨t, u + 1⟩ := by
  simp [read]

theorem read_ok {r r' : Reader} {x : ReqRespCode} : read r = .ok x r' ↔ x.WF ∧ r.After [x.get] r' := by
  simp only [read, M.bind_ok, M.pure_ok, rdU8_ok, WF]
  constructor
  · rintro ⟨b, t, h, rfl, rfl⟩; simpa using h
  · rintro ⟨h, h'⟩; exact ⟨_, _, h', h, rfl⟩

theorem writes (x : ReqRespCode) : Writes x.encode [x.get] := Writes.u8 _

theorem good : Rd.Good read := by unfold read; rd_good

end ReqRespCode

/-- `SpdmErrorCode` (spdmlib/src/message/error.rs:11-35). -/
inductive ErrorCode where
  | invalidRequest | busy | unexpectedRequest | unspecified | decryptError | unsupportedRequest | requestInFlight | invalidResponseCode | sessionLimitExceeded | sessionRequired | resetRequired | responseTooLarge | requestTooLarge | largeResponse | messageLost | versionMismatch | responseNotReady | requestResynch | vendorDefined
  | unknown (b : UInt8)
  deriving Repr, DecidableEq

namespace ErrorCode
/-- `get_u8` of `SpdmErrorCode` (spdmlib/src/message/error.rs:11-35, codec/src/macros.rs). -/
def get : ErrorCode → UInt8
  | .invalidRequest => 0x1
  | .busy => 0x3
  | .unexpectedRequest => 0x4
  | .unspecified => 0x5
  | .decryptError => 0x6
  | .unsupportedRequest => 0x7
  | .requestInFlight => 0x8
  | .invalidResponseCode => 0x9
  | .sessionLimitExceeded => 0xA
  | .sessionRequired => 0xB
  | .resetRequired => 0xC
  | .responseTooLarge => 0xD
  | .requestTooLarge => 0xE
  | .largeResponse => 0xF
  | .messageLost => 0x10
  | .versionMismatch => 0x41
  | .responseNotReady => 0x42
  | .requestResynch => 0x43
  | .vendorDefined => 0xFF
  | .unknown b => b

/-- decoding of `SpdmErrorCode` (spdmlib/src/message/error.rs:11-35, codec/src/macros.rs). -/
def ofCode (b : UInt8) : ErrorCode :=
  match b with
  | 0x1 => .invalidRequest
  | 0x3 => .busy
  | 0x4 => .unexpectedRequest
  | 0x5 => .unspecified
  | 0x6 => .decryptError
  | 0x7 => .unsupportedRequest
  | 0x8 => .requestInFlight
  | 0x9 => .invalidResponseCode
  | 0xA => .sessionLimitExceeded
  | 0xB => .sessionRequired
  | 0xC => .resetRequired
  | 0xD => .responseTooLarge
  | 0xE => .requestTooLarge
  | 0xF => .largeResponse
  | 0x10 => .messageLost
  | 0x41 => .versionMismatch
  | 0x42 => .responseNotReady
  | 0x43 => .requestResynch
  | 0xFF => .vendorDefined
  | b => .unknown b

/-- `SpdmErrorCode::read` (codec/src/macros.rs). -/
def read : Rd ErrorCode := do
  let b ← rdU8
  pure (ofCode b)

/-- `SpdmErrorCode::encode` (codec/src/macros.rs). -/
def encode (x : ErrorCode) : Enc Nat := encU8 x.get

/-- A listed variant, or `Unknown` of an unlisted code: the values `read` produces. -/
def WF (x : ErrorCode) : Prop := ofCode x.get = x
instance (x : ErrorCode) : Decidable x.WF := by unfold WF; infer_instance

@[simp] theorem get_ofCode (b : UInt8) : (ofCode b).get = b := by
  unfold ofCode; split <;> rfl

@[simp] theorem wf_ofCode (b : UInt8) : (ofCode b).WF := by simp [WF]

@[simp] theorem read_cons (b : UInt8) (t : Bytes) (u : Nat) : read ⟨b :: t, u⟩ = .ok (ofCode b) ⟨t, u + 1⟩ := by
  simp [read]

theorem read_ok {r r' : Reader} {x : ErrorCode} : read r = .ok x r' ↔ x.WF ∧ r.After [x.get] r' := by
  simp only [read, M.bind_ok, M.pure_ok, rdU8_ok, WF]
  constructor
  · rintro ⟨b, t, h, rfl, rfl⟩; simpa using h
  · rintro ⟨h, h'⟩; exact ⟨_, _, h', h, rfl⟩

theorem writes (x : ErrorCode) : Writes x.encode [x.get] := Writes.u8 _

theorem good : Rd.Good read := by unfold read; rd_good

end ErrorCode

/-- `SpdmStandardId` (spdmlib/src/protocol/algo.rs:324-338). -/
inductive StandardId where
  | dmtf | tcg | usb | pcisig | iana | hDBaseT | mipi | cxl | jdec
  | unknown (b : UInt8)
  deriving Repr, DecidableEq

namespace StandardId
/-- `get_u8` of `SpdmStandardId` (spdmlib/src/protocol/algo.rs:324-338, codec/src/macros.rs). -/
def get : StandardId → UInt8
  | .dmtf => 0x0
  | .tcg => 0x1
  | .usb => 0x2
  | .pcisig => 0x3
  | .iana => 0x4
  | .hDBaseT => 0x5
  | .mipi => 0x6
  | .cxl => 0x7
  | .jdec => 0x8
  | .unknown b => b

/-- decoding of `SpdmStandardId` (spdmlib/src/protocol/algo.rs:324-338, codec/src/macros.rs). -/
def ofCode (b : UInt8) : StandardId :=
  match b with
  | 0x0 => .dmtf
  | 0x1 => .tcg
  | 0x2 => .usb
  | 0x3 => .pcisig
  | 0x4 => .iana
  | 0x5 => .hDBaseT
  | 0x6 => .mipi
  | 0x7 => .cxl
  | 0x8 => .jdec
  | b => .unknown b

/-- `SpdmStandardId::read` (codec/src/macros.rs). -/
def read : Rd StandardId := do
  let b ← rdU8
  pure (ofCode b)

/-- `SpdmStandardId::encode` (codec/src/macros.rs). -/
def encode (x : StandardId) : Enc Nat := encU8 x.get

/-- A listed variant, or `Unknown` of an unlisted code: the values `read` produces. -/
def WF (x : StandardId) : Prop := ofCode x.get = x
instance (x : StandardId) : Decidable x.WF := by unfold WF; infer_instance

@[simp] theorem get_ofCode (b : UInt8) : (ofCode b).get = b := by
  unfold ofCode; split <;> rfl

@[simp] theorem wf_ofCode (b : UInt8) : (ofCode b).WF := by simp [WF]

@[simp] theorem read_cons (b : UInt8) (t : Bytes) (u : Nat) : read ⟨b :: t, u⟩ = .ok (ofCode b) ⟨t, u + 1⟩ := by
  simp [read]

theorem read_ok {r r' : Reader} {x : StandardId} : read r = .ok x r' ↔ x.WF ∧ r.After [x.get] r' := by
  simp only [read, M.bind_ok, M.pure_ok, rdU8_ok, WF]
  constructor
  · rintro ⟨b, t, h, rfl, rfl⟩; simpa using h
  · rintro ⟨h, h'⟩; exact ⟨_, _, h', h, rfl⟩

theorem writes (x : StandardId) : Writes x.encode [x.get] := Writes.u8 _

theorem good : Rd.Good read := by unfold read; rd_good

end StandardId

/-- `SpdmAlgType` (spdmlib/src/protocol/algo.rs:635-644). -/
inductive AlgType where
  | dhe | aead | reqAsym | keySchedule
  | unknown (b : UInt8)
  deriving Repr, DecidableEq

namespace AlgType
/-- `get_u8` of `SpdmAlgType` (spdmlib/src/protocol/algo.rs:635-644, codec/src/macros.rs). -/
def get : AlgType → UInt8
  | .dhe => 0x2
  | .aead => 0x3
  | .reqAsym => 0x4
  | .keySchedule => 0x5
  | .unknown b => b

/-- decoding of `SpdmAlgType` (spdmlib/src/protocol/algo.rs:635-644, codec/src/macros.rs). -/
def ofCode (b : UInt8) : AlgType :=
  match b with
  | 0x2 => .dhe
  | 0x3 => .aead
  | 0x4 => .reqAsym
  | 0x5 => .keySchedule
  | b => .unknown b

/-- `SpdmAlgType::read` (codec/src/macros.rs). -/
def read : Rd AlgType := do
  let b ← rdU8
  pure (ofCode b)

/-- `SpdmAlgType::encode` (codec/src/macros.rs). -/
def encode (x : AlgType) : Enc Nat := encU8 x.get

/-- A listed variant, or `Unknown` of an unlisted code: the values `read` produces. -/
def WF (x : AlgType) : Prop := ofCode x.get = x
instance (x : AlgType) : Decidable x.WF := by unfold WF; infer_instance

@[simp] theorem get_ofCode (b : UInt8) : (ofCode b).get = b := by
  unfold ofCode; split <;> rfl

@[simp] theorem wf_ofCode (b : UInt8) : (ofCode b).WF := by simp [WF]

@[simp] theorem read_cons (b : UInt8) (t : Bytes) (u : Nat) : read ⟨b :: t, u⟩ = .ok (ofCode b) ⟨t, u + 1⟩ := by
  simp [read]

theorem read_ok {r r' : Reader} {x : AlgType} : read r = .ok x r' ↔ x.WF ∧ r.After [x.get] r' := by
  simp only [read, M.bind_ok, M.pure_ok, rdU8_ok, WF]
  constructor
  · rintro ⟨b, t, h, rfl, rfl⟩; simpa using h
  · rintro ⟨h, h'⟩; exact ⟨_, _, h', h, rfl⟩

theorem writes (x : AlgType) : Writes x.encode [x.get] := Writes.u8 _

theorem good : Rd.Good read := by unfold read; rd_good

end AlgType

/-- `SpdmMeasurementSummaryHashType` (spdmlib/src/protocol/algo.rs:736-744). -/
inductive SummaryHashType where
  | none | tcb | all
  | unknown (b : UInt8)
  deriving Repr, DecidableEq

namespace SummaryHashType
/-- `get_u8` of `SpdmMeasurementSummaryHashType` (spdmlib/src/protocol/algo.rs:736-744, codec/src/macros.rs). -/
def get : SummaryHashType → UInt8
  | .none => 0x0
  | .tcb => 0x1
  | .all => 0xFF
  | .unknown b => b

/-- decoding of `SpdmMeasurementSummaryHashType` (spdmlib/src/protocol/algo.rs:736-744, codec/src/macros.rs). -/
def ofCode (b : UInt8) : SummaryHashType :=
  match b with
  | 0x0 => .none
  | 0x1 => .tcb
  | 0xFF => .all
  | b => .unknown b

/-- `SpdmMeasurementSummaryHashType::read` (codec/src/macros.rs). -/
def read : Rd SummaryHashType := do
  let b ← rdU8
  pure (ofCode b)

/-- `SpdmMeasurementSummaryHashType::encode` (codec/src/macros.rs). -/
def encode (x : SummaryHashType) : Enc Nat := encU8 x.get

/-- A listed variant, or `Unknown` of an unlisted code: the values `read` produces. -/
def WF (x : SummaryHashType) : Prop := ofCode x.get = x
instance (x : SummaryHashType) : Decidable x.WF := by unfold WF; infer_instance

@[simp] theorem get_ofCode (b : UInt8) : (ofCode b).get = b := by
  unfold ofCode; split <;> rfl

@[simp] theorem wf_ofCode (b : UInt8) : (ofCode b).WF := by simp [WF]

@[simp] theorem read_cons (b : UInt8) (t : Bytes) (u : Nat) : read ⟨b :: t, u⟩ = .ok (ofCode b) ⟨t, u + 1⟩ := by
  simp [read]

theorem read_ok {r r' : Reader} {x : SummaryHashType} : read r = .ok x r' ↔ x.WF ∧ r.After [x.get] r' := by
  simp only [read, M.bind_ok, M.pure_ok, rdU8_ok, WF]
  constructor
  · rintro ⟨b, t, h, rfl, rfl⟩; simpa using h
  · rintro ⟨h, h'⟩; exact ⟨_, _, h', h, rfl⟩

theorem writes (x : SummaryHashType) : Writes x.encode [x.get] := Writes.u8 _

theorem good : Rd.Good read := by unfold read; rd_good

end SummaryHashType

/-- `SpdmDmtfMeasurementType` (spdmlib/src/protocol/algo.rs:903-916). -/
inductive DmtfMeasurementType where
  | rom | firmware | hardwareConfig | firmwareConfig | manifest | structuredRepresentationMode | mutableFirmwareVersionNumber | mutableFirmwareSecurityVersionNumber
  | unknown (b : UInt8)
  deriving Repr, DecidableEq

namespace DmtfMeasurementType
/-- `get_u8` of `SpdmDmtfMeasurementType` (spdmlib/src/protocol/algo.rs:903-916, codec/src/macros.rs). -/
def get : DmtfMeasurementType → UInt8
  | .rom => 0x0
  | .firmware => 0x1
  | .hardwareConfig => 0x2
  | .firmwareConfig => 0x3
  | .manifest => 0x4
  | .structuredRepresentationMode => 0x5
  | .mutableFirmwareVersionNumber => 0x6
  | .mutableFirmwareSecurityVersionNumber => 0x7
  | .unknown b => b

/-- decoding of `SpdmDmtfMeasurementType` (spdmlib/src/protocol/algo.rs:903-916, codec/src/macros.rs). -/
def ofCode (b : UInt8) : DmtfMeasurementType :=
  match b with
  | 0x0 => .rom
  | 0x1 => .firmware
  | 0x2 => .hardwareConfig
  | 0x3 => .firmwareConfig
  | 0x4 => .manifest
  | 0x5 => .structuredRepresentationMode
  | 0x6 => .mutableFirmwareVersionNumber
  | 0x7 => .mutableFirmwareSecurityVersionNumber
  | b => .unknown b

/-- `SpdmDmtfMeasurementType::read` (codec/src/macros.rs). -/
def read : Rd DmtfMeasurementType := do
  let b ← rdU8
  pure (ofCode b)

/-- `SpdmDmtfMeasurementType::encode` (codec/src/macros.rs). -/
def encode (x : DmtfMeasurementType) : Enc Nat := encU8 x.get

/-- A listed variant, or `Unknown` of an unlisted code: the values `read` produces. -/
def WF (x : DmtfMeasurementType) : Prop := ofCode x.get = x
instance (x : DmtfMeasurementType) : Decidable x.WF := by unfold WF; infer_instance

@[simp] theorem get_ofCode (b : UInt8) : (ofCode b).get = b := by
  unfold ofCode; split <;> rfl

@[simp] theorem wf_ofCode (b : UInt8) : (ofCode b).WF := by simp [WF]

@[simp] theorem read_cons (b : UInt8) (t : Bytes) (u : Nat) : read ⟨b :: t, u⟩ = .ok (ofCode b) ⟨t, u + 1⟩ := by
  simp [read]

theorem read_ok {r r' : Reader} {x : DmtfMeasurementType} : read r = .ok x r' ↔ x.WF ∧ r.After [x.get] r' := by
  simp only [read, M.bind_ok, M.pure_ok, rdU8_ok, WF]
  constructor
  · rintro ⟨b, t, h, rfl, rfl⟩; simpa using h
  · rintro ⟨h, h'⟩; exact ⟨_, _, h', h, rfl⟩

theorem writes (x : DmtfMeasurementType) : Writes x.encode [x.get] := Writes.u8 _

theorem good : Rd.Good read := by unfold read; rd_good

end DmtfMeasurementType

/-- `SpdmDmtfMeasurementRepresentation` (spdmlib/src/protocol/algo.rs:918-925). -/
inductive DmtfRepresentation where
  | digest | rawBit
  | unknown (b : UInt8)
  deriving Repr, DecidableEq

namespace DmtfRepresentation
/-- `get_u8` of `SpdmDmtfMeasurementRepresentation` (spdmlib/src/protocol/algo.rs:918-925, codec/src/macros.rs). -/
def get : DmtfRepresentation → UInt8
  | .digest => 0x0
  | .rawBit => 0x80
  | .unknown b => b

/-- decoding of `SpdmDmtfMeasurementRepresentation` (spdmlib/src/protocol/algo.rs:918-925, codec/src/macros.rs). -/
def ofCode (b : UInt8) : DmtfRepresentation :=
  match b with
  | 0x0 => .digest
  | 0x80 => .rawBit
  | b => .unknown b

/-- `SpdmDmtfMeasurementRepresentation::read` (codec/src/macros.rs). -/
def read : Rd DmtfRepresentation := do
  let b ← rdU8
  pure (ofCode b)

/-- `SpdmDmtfMeasurementRepresentation::encode` (codec/src/macros.rs). -/
def encode (x : DmtfRepresentation) : Enc Nat := encU8 x.get

/-- A listed variant, or `Unknown` of an unlisted code: the values `read` produces. -/
def WF (x : DmtfRepresentation) : Prop := ofCode x.get = x
instance (x : DmtfRepresentation) : Decidable x.WF := by unfold WF; infer_instance

@[simp] theorem get_ofCode (b : UInt8) : (ofCode b).get = b := by
  unfold ofCode; split <;> rfl

@[simp] theorem wf_ofCode (b : UInt8) : (ofCode b).WF := by simp [WF]

@[simp] theorem read_cons (b : UInt8) (t : Bytes) (u : Nat) : read ⟨b :: t, u⟩ = .ok (ofCode b) ⟨t, u + 1⟩ := by
  simp [read]

theorem read_ok {r r' : Reader} {x : DmtfRepresentation} : read r = .ok x r' ↔ x.WF ∧ r.After [x.get] r' := by
  simp only [read, M.bind_ok, M.pure_ok, rdU8_ok, WF]
  constructor
  · rintro ⟨b, t, h, rfl, rfl⟩; simpa using h
  · rintro ⟨h, h'⟩; exact ⟨_, _, h', h, rfl⟩

theorem writes (x : DmtfRepresentation) : Writes x.encode [x.get] := Writes.u8 _

theorem good : Rd.Good read := by unfold read; rd_good

end DmtfRepresentation

/-- `SpdmKeyUpdateOperation` (spdmlib/src/message/key_update.rs:11-19). -/
inductive KeyUpdateOp where
  | updateSingleKey | updateAllKeys | verifyNewKey
  | unknown (b : UInt8)
  deriving Repr, DecidableEq

namespace KeyUpdateOp
/-- `get_u8` of `SpdmKeyUpdateOperation` (spdmlib/src/message/key_update.rs:11-19, codec/src/macros.rs). -/
def get : KeyUpdateOp → UInt8
  | .updateSingleKey => 0x1
  | .updateAllKeys => 0x2
  | .verifyNewKey => 0x3
  | .unknown b => b

/-- decoding of `SpdmKeyUpdateOperation` (spdmlib/src/message/key_update.rs:11-19, codec/src/macros.rs). -/
def ofCode (b : UInt8) : KeyUpdateOp :=
  match b with
  | 0x1 => .updateSingleKey
  | 0x2 => .updateAllKeys
  | 0x3 => .verifyNewKey
  | b => .unknown b

/-- `SpdmKeyUpdateOperation::read` (codec/src/macros.rs). -/
def read : Rd KeyUpdateOp := do
  let b ← rdU8
  pure (ofCode b)

/-- `SpdmKeyUpdateOperation::encode` (codec/src/macros.rs). -/
def encode (x : KeyUpdateOp) : Enc Nat := encU8 x.get

/-- A listed variant, or `Unknown` of an unlisted code: the values `read` produces. -/
def WF (x : KeyUpdateOp) : Prop := ofCode x.get = x
instance (x : KeyUpdateOp) : Decidable x.WF := by unfold WF; infer_instance

@[simp] theorem get_ofCode (b : UInt8) : (ofCode b).get = b := by
  unfold ofCode; split <;> rfl

@[simp] theorem wf_ofCode (b : UInt8) : (ofCode b).WF := by simp [WF]

@[simp] theorem read_cons (b : UInt8) (t : Bytes) (u : Nat) : read ⟨b :: t, u⟩ = .ok (ofCode b) ⟨t, u + 1⟩ := by
  simp [read]

theorem read_ok {r r' : Reader} {x : KeyUpdateOp} : read r = .ok x r' ↔ x.WF ∧ r.After [x.get] r' := by
  simp only [read, M.bind_ok, M.pure_ok, rdU8_ok, WF]
  constructor
  · rintro ⟨b, t, h, rfl, rfl⟩; simpa using h
  · rintro ⟨h, h'⟩; exact ⟨_, _, h', h, rfl⟩

theorem writes (x : KeyUpdateOp) : Writes x.encode [x.get] := Writes.u8 _

theorem good : Rd.Good read := by unfold read; rd_good

end KeyUpdateOp

/-- `SpdmMeasurementOperation` (spdmlib/src/message/measurement.rs:40-47). -/
inductive MeasOperation where
  | queryTotalNumber | requestAll
  | unknown (b : UInt8)
  deriving Repr, DecidableEq

namespace MeasOperation
/-- `get_u8` of `SpdmMeasurementOperation` (spdmlib/src/message/measurement.rs:40-47, codec/src/macros.rs). -/
def get : MeasOperation → UInt8
  | .queryTotalNumber => 0x0
  | .requestAll => 0xFF
  | .unknown b => b

/-- decoding of `SpdmMeasurementOperation` (spdmlib/src/message/measurement.rs:40-47, codec/src/macros.rs). -/
def ofCode (b : UInt8) : MeasOperation :=
  match b with
  | 0x0 => .queryTotalNumber
  | 0xFF => .requestAll
  | b => .unknown b

/-- `SpdmMeasurementOperation::read` (codec/src/macros.rs). -/
def read : Rd MeasOperation := do
  let b ← rdU8
  pure (ofCode b)

/-- `SpdmMeasurementOperation::encode` (codec/src/macros.rs). -/
def encode (x : MeasOperation) : Enc Nat := encU8 x.get

/-- A listed variant, or `Unknown` of an unlisted code: the values `read` produces. -/
def WF (x : MeasOperation) : Prop := ofCode x.get = x
instance (x : MeasOperation) : Decidable x.WF := by unfold WF; infer_instance

@[simp] theorem get_ofCode (b : UInt8) : (ofCode b).get = b := by
  unfold ofCode; split <;> rfl

@[simp] theorem wf_ofCode (b : UInt8) : (ofCode b).WF := by simp [WF]

@[simp] theorem read_cons (b : UInt8) (t : Bytes) (u : Nat) : read ⟨b :: t, u⟩ = .ok (ofCode b) ⟨t, u + 1⟩ := by
  simp [read]

theorem read_ok {r r' : Reader} {x : MeasOperation} : read r = .ok x r' ↔ x.WF ∧ r.After [x.get] r' := by
  simp only [read, M.bind_ok, M.pure_ok, rdU8_ok, WF]
  constructor
  · rintro ⟨b, t, h, rfl, rfl⟩; simpa using h
  · rintro ⟨h, h'⟩; exact ⟨_, _, h', h, rfl⟩

theorem writes (x : MeasOperation) : Writes x.encode [x.get] := Writes.u8 _

theorem good : Rd.Good read := by unfold read; rd_good

end MeasOperation

/-- `SpdmEncapsulatedResponseAckPayloadType` (spdmlib/src/message/encapsulated.rs:158-166). -/
inductive EncapAckPayload where
  | absent | present | reqSlotNumber
  | unknown (b : UInt8)
  deriving Repr, DecidableEq

namespace EncapAckPayload
/-- `get_u8` of `SpdmEncapsulatedResponseAckPayloadType` (spdmlib/src/message/encapsulated.rs:158-166, codec/src/macros.rs). -/
def get : EncapAckPayload → UInt8
  | .absent => 0
  | .present => 1
  | .reqSlotNumber => 2
  | .unknown b => b

/-- decoding of `SpdmEncapsulatedResponseAckPayloadType` (spdmlib/src/message/encapsulated.rs:158-166, codec/src/macros.rs). -/
def ofCode (b : UInt8) : EncapAckPayload :=
  match b with
  | 0 => .absent
  | 1 => .present
  | 2 => .reqSlotNumber
  | b => .unknown b

/-- `SpdmEncapsulatedResponseAckPayloadType::read` (codec/src/macros.rs). -/
def read : Rd EncapAckPayload := do
  let b ← rdU8
  pure (ofCode b)

/-- `SpdmEncapsulatedResponseAckPayloadType::encode` (codec/src/macros.rs). -/
def encode (x : EncapAckPayload) : Enc Nat := encU8 x.get

/-- A listed variant, or `Unknown` of an unlisted code: the values `read` produces. -/
def WF (x : EncapAckPayload) : Prop := ofCode x.get = x
instance (x : EncapAckPayload) : Decidable x.WF := by unfold WF; infer_instance

@[simp] theorem get_ofCode (b : UInt8) : (ofCode b).get = b := by
  unfold ofCode; split <;> rfl

@[simp] theorem wf_ofCode (b : UInt8) : (ofCode b).WF := by simp [WF]

@[simp] theorem read_cons (b : UInt8) (t : Bytes) (u : Nat) : read ⟨b :: t, u⟩ = .ok (ofCode b) ⟨t, u + 1⟩ := by
  simp [read]

theorem read_ok {r r' : Reader} {x : EncapAckPayload} : read r = .ok x r' ↔ x.WF ∧ r.After [x.get] r' := by
  simp only [read, M.bind_ok, M.pure_ok, rdU8_ok, WF]
  constructor
  · rintro ⟨b, t, h, rfl, rfl⟩; simpa using h
  · rintro ⟨h, h'⟩; exact ⟨_, _, h', h, rfl⟩

theorem writes (x : EncapAckPayload) : Writes x.encode [x.get] := Writes.u8 _

theorem good : Rd.Good read := by unfold read; rd_good

end EncapAckPayload

/-- `RegistryOrStandardsBodyID` (spdmlib/src/message/vendor.rs:21-35). -/
inductive RegistryId where
  | dmtf | tcg | usb | pcisig | iana | hdbaset | mipi | cxl | jedec
  | unknown (b : UInt16)
  deriving Repr, DecidableEq

namespace RegistryId
/-- `get_u16` of `RegistryOrStandardsBodyID` (spdmlib/src/message/vendor.rs:21-35, codec/src/macros.rs). -/
def get : RegistryId → UInt16
  | .dmtf => 0x00
  | .tcg => 0x01
  | .usb => 0x02
  | .pcisig => 0x03
  | .iana => 0x04
  | .hdbaset => 0x05
  | .mipi => 0x06
  | .cxl => 0x07
  | .jedec => 0x08
  | .unknown b => b

/-- decoding of `RegistryOrStandardsBodyID` (spdmlib/src/message/vendor.rs:21-35, codec/src/macros.rs). -/
def ofCode (b : UInt16) : RegistryId :=
  match b with
  | 0x00 => .dmtf
  | 0x01 => .tcg
  | 0x02 => .usb
  | 0x03 => .pcisig
  | 0x04 => .iana
  | 0x05 => .hdbaset
  | 0x06 => .mipi
  | 0x07 => .cxl
  | 0x08 => .jedec
  | b => .unknown b

/-- `RegistryOrStandardsBodyID::read` (codec/src/macros.rs). -/
def read : Rd RegistryId := do
  let b ← rdU16
  pure (ofCode b)

/-- `RegistryOrStandardsBodyID::encode` (codec/src/macros.rs). -/
def encode (x : RegistryId) : Enc Nat := encU16 x.get

/-- A listed variant, or `Unknown` of an unlisted code: the values `read` produces. -/
def WF (x : RegistryId) : Prop := ofCode x.get = x
instance (x : RegistryId) : Decidable x.WF := by unfold WF; infer_instance

@[simp] theorem get_ofCode (b : UInt16) : (ofCode b).get = b := by
  unfold ofCode; split <;> rfl

@[simp] theorem wf_ofCode (b : UInt16) : (ofCode b).WF := by simp [WF]

@[simp] theorem read_put (x : RegistryId) (h : x.WF) (t : Bytes) (u : Nat) : read ⟨putU16 x.get ++ t, u⟩ = .ok x ⟨t, u + 2⟩ := by
  have h' : ofCode x.get = x := h
  simp [read, h']

theorem read_ok {r r' : Reader} {x : RegistryId} : read r = .ok x r' ↔ x.WF ∧ r.After (putU16 x.get) r' := by
  simp only [read, M.bind_ok, M.pure_ok, rdU16_ok, WF]
  constructor
  · rintro ⟨b, t, h, rfl, rfl⟩; simpa using h
  · rintro ⟨h, h'⟩; exact ⟨_, _, h', h, rfl⟩

theorem writes (x : RegistryId) : Writes x.encode (putU16 x.get) := Writes.u16 _

theorem good : Rd.Good read := by unfold read; rd_good

end RegistryId

end Verif
