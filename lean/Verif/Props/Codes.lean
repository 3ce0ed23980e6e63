/-
C04: one-byte (and two-byte) wire codes decode totally and without loss.
-/
import Verif.Proto.Enums

namespace Verif.Props
open Verif

/-- Specification of a lossless code table: decoding is total and injective, encoding is its inverse, and exactly the listed
codes are recognised (every other code is reported as unknown with the byte kept). -/
structure LosslessCodes {β α : Type} (ofCode : β → α) (get : α → β) (unknown : β → α) (listed : List β) : Prop where
  roundTrip : ∀ b, get (ofCode b) = b
  injective : ∀ a b, ofCode a = ofCode b → a = b
  unknownIff : ∀ b, ofCode b = unknown b ↔ b ∉ listed

/-- **C04** for `SpdmVersion`. -/
theorem C04_SpdmVersion :
    LosslessCodes (β := UInt8) SpdmVersion.ofCode SpdmVersion.get SpdmVersion.unknown
      [0x10, 0x11, 0x12] where
  roundTrip := SpdmVersion.get_ofCode
  injective := fun a b h => by rw [← SpdmVersion.get_ofCode a, h, SpdmVersion.get_ofCode]
  unknownIff := fun b => by
    unfold SpdmVersion.ofCode
    split <;> simp_all

/-- **C04** for `SpdmVersion`: reading takes one code off the front and cannot fail otherwise. -/
theorem C04_SpdmVersion_read (b : UInt8) (t : Bytes) (u : Nat) :
    SpdmVersion.read ⟨b :: t, u⟩ = .ok (SpdmVersion.ofCode b) ⟨t, u + 1⟩ := by
  simp [SpdmVersion.read]

/-- **C04** for `SpdmRequestResponseCode`. -/
theorem C04_ReqRespCode :
    LosslessCodes (β := UInt8) ReqRespCode.ofCode ReqRespCode.get ReqRespCode.unknown
      [0x01, 0x02, 0x03, 0x04, 0x60, 0x61, 0x63, 0x64, 0x65, 0x66, 0x67, 0x68, 0x69, 0x6A, 0x6B, 0x6C, 0x7E, 0x7F, 0x81, 0x82, 0x83, 0x84, 0xE0, 0xE1, 0xE3, 0xE4, 0xE5, 0xE6, 0xE7, 0xE8, 0xE9, 0xEA, 0xEB, 0xEC, 0xFE, 0xFF] where
  roundTrip := ReqRespCode.get_ofCode
  injective := fun a b h => by rw [← ReqRespCode.get_ofCode a, h, ReqRespCode.get_ofCode]
  unknownIff := fun b => by
    unfold ReqRespCode.ofCode
    split <;> simp_all

/-- **C04** for `SpdmRequestResponseCode`: reading takes one code off the front and cannot fail otherwise. -/
theorem C04_ReqRespCode_read (b : UInt8) (t : Bytes) (u : Nat) :
    ReqRespCode.read ⟨b :: t, u⟩ = .ok (ReqRespCode.ofCode b) ⟨t, u + 1⟩ := by
  simp [ReqRespCode.read]

/-- **C04** for `SpdmErrorCode`. -/
theorem C04_ErrorCode :
    LosslessCodes (β := UInt8) ErrorCode.ofCode ErrorCode.get ErrorCode.unknown
      [0x01, 0x03, 0x04, 0x05, 0x06, 0x07, 0x08, 0x09, 0x0A, 0x0B, 0x0C, 0x0D, 0x0E, 0x0F, 0x10, 0x41, 0x42, 0x43, 0xFF] where
  roundTrip := ErrorCode.get_ofCode
  injective := fun a b h => by rw [← ErrorCode.get_ofCode a, h, ErrorCode.get_ofCode]
  unknownIff := fun b => by
    unfold ErrorCode.ofCode
    split <;> simp_all

/-- **C04** for `SpdmErrorCode`: reading takes one code off the front and cannot fail otherwise. -/
theorem C04_ErrorCode_read (b : UInt8) (t : Bytes) (u : Nat) :
    ErrorCode.read ⟨b :: t, u⟩ = .ok (ErrorCode.ofCode b) ⟨t, u + 1⟩ := by
  simp [ErrorCode.read]

/-- **C04** for `SpdmStandardId`. -/
theorem C04_StandardId :
    LosslessCodes (β := UInt8) StandardId.ofCode StandardId.get StandardId.unknown
      [0x00, 0x01, 0x02, 0x03, 0x04, 0x05, 0x06, 0x07, 0x08] where
  roundTrip := StandardId.get_ofCode
  injective := fun a b h => by rw [← StandardId.get_ofCode a, h, StandardId.get_ofCode]
  unknownIff := fun b => by
    unfold StandardId.ofCode
    split <;> simp_all

/-- **C04** for `SpdmStandardId`: reading takes one code off the front and cannot fail otherwise. -/
theorem C04_StandardId_read (b : UInt8) (t : Bytes) (u : Nat) :
    StandardId.read ⟨b :: t, u⟩ = .ok (StandardId.ofCode b) ⟨t, u + 1⟩ := by
  simp [StandardId.read]

/-- **C04** for `SpdmAlgType`. -/
theorem C04_AlgType :
    LosslessCodes (β := UInt8) AlgType.ofCode AlgType.get AlgType.unknown
      [0x02, 0x03, 0x04, 0x05] where
  roundTrip := AlgType.get_ofCode
  injective := fun a b h => by rw [← AlgType.get_ofCode a, h, AlgType.get_ofCode]
  unknownIff := fun b => by
    unfold AlgType.ofCode
    split <;> simp_all

/-- **C04** for `SpdmAlgType`: reading takes one code off the front and cannot fail otherwise. -/
theorem C04_AlgType_read (b : UInt8) (t : Bytes) (u : Nat) :
    AlgType.read ⟨b :: t, u⟩ = .ok (AlgType.ofCode b) ⟨t, u + 1⟩ := by
  simp [AlgType.read]

/-- **C04** for `SpdmMeasurementSummaryHashType`. -/
theorem C04_SummaryHashType :
    LosslessCodes (β := UInt8) SummaryHashType.ofCode SummaryHashType.get SummaryHashType.unknown
      [0x00, 0x01, 0xFF] where
  roundTrip := SummaryHashType.get_ofCode
  injective := fun a b h => by rw [← SummaryHashType.get_ofCode a, h, SummaryHashType.get_ofCode]
  unknownIff := fun b => by
    unfold SummaryHashType.ofCode
    split <;> simp_all

/-- **C04** for `SpdmMeasurementSummaryHashType`: reading takes one code off the front and cannot fail otherwise. -/
theorem C04_SummaryHashType_read (b : UInt8) (t : Bytes) (u : Nat) :
    SummaryHashType.read ⟨b :: t, u⟩ = .ok (SummaryHashType.ofCode b) ⟨t, u + 1⟩ := by
  simp [SummaryHashType.read]

/-- **C04** for `SpdmDmtfMeasurementType`. -/
theorem C04_DmtfMeasurementType :
    LosslessCodes (β := UInt8) DmtfMeasurementType.ofCode DmtfMeasurementType.get DmtfMeasurementType.unknown
      [0x00, 0x01, 0x02, 0x03, 0x04, 0x05, 0x06, 0x07] where
  roundTrip := DmtfMeasurementType.get_ofCode
  injective := fun a b h => by rw [← DmtfMeasurementType.get_ofCode a, h, DmtfMeasurementType.get_ofCode]
  unknownIff := fun b => by
    unfold DmtfMeasurementType.ofCode
    split <;> simp_all

/-- **C04** for `SpdmDmtfMeasurementType`: reading takes one code off the front and cannot fail otherwise. -/
theorem C04_DmtfMeasurementType_read (b : UInt8) (t : Bytes) (u : Nat) :
    DmtfMeasurementType.read ⟨b :: t, u⟩ = .ok (DmtfMeasurementType.ofCode b) ⟨t, u + 1⟩ := by
  simp [DmtfMeasurementType.read]

/-- **C04** for `SpdmDmtfMeasurementRepresentation`. -/
theorem C04_DmtfRepresentation :
    LosslessCodes (β := UInt8) DmtfRepresentation.ofCode DmtfRepresentation.get DmtfRepresentation.unknown
      [0x00, 0x80] where
  roundTrip := DmtfRepresentation.get_ofCode
  injective := fun a b h => by rw [← DmtfRepresentation.get_ofCode a, h, DmtfRepresentation.get_ofCode]
  unknownIff := fun b => by
    unfold DmtfRepresentation.ofCode
    split <;> simp_all

/-- **C04** for `SpdmDmtfMeasurementRepresentation`: reading takes one code off the front and cannot fail otherwise. -/
theorem C04_DmtfRepresentation_read (b : UInt8) (t : Bytes) (u : Nat) :
    DmtfRepresentation.read ⟨b :: t, u⟩ = .ok (DmtfRepresentation.ofCode b) ⟨t, u + 1⟩ := by
  simp [DmtfRepresentation.read]

/-- **C04** for `SpdmKeyUpdateOperation`. -/
theorem C04_KeyUpdateOp :
    LosslessCodes (β := UInt8) KeyUpdateOp.ofCode KeyUpdateOp.get KeyUpdateOp.unknown
      [0x01, 0x02, 0x03] where
  roundTrip := KeyUpdateOp.get_ofCode
  injective := fun a b h => by rw [← KeyUpdateOp.get_ofCode a, h, KeyUpdateOp.get_ofCode]
  unknownIff := fun b => by
    unfold KeyUpdateOp.ofCode
    split <;> simp_all

/-- **C04** for `SpdmKeyUpdateOperation`: reading takes one code off the front and cannot fail otherwise. -/
theorem C04_KeyUpdateOp_read (b : UInt8) (t : Bytes) (u : Nat) :
    KeyUpdateOp.read ⟨b :: t, u⟩ = .ok (KeyUpdateOp.ofCode b) ⟨t, u + 1⟩ := by
  simp [KeyUpdateOp.read]

/-- **C04** for `SpdmMeasurementOperation`. -/
theorem C04_MeasOperation :
    LosslessCodes (β := UInt8) MeasOperation.ofCode MeasOperation.get MeasOperation.unknown
      [0x00, 0xFF] where
  roundTrip := MeasOperation.get_ofCode
  injective := fun a b h => by rw [← MeasOperation.get_ofCode a, h, MeasOperation.get_ofCode]
  unknownIff := fun b => by
    unfold MeasOperation.ofCode
    split <;> simp_all

/-- **C04** for `SpdmMeasurementOperation`: reading takes one code off the front and cannot fail otherwise. -/
theorem C04_MeasOperation_read (b : UInt8) (t : Bytes) (u : Nat) :
    MeasOperation.read ⟨b :: t, u⟩ = .ok (MeasOperation.ofCode b) ⟨t, u + 1⟩ := by
  simp [MeasOperation.read]

/-- **C04** for `SpdmEncapsulatedResponseAckPayloadType`. -/
theorem C04_EncapAckPayload :
    LosslessCodes (β := UInt8) EncapAckPayload.ofCode EncapAckPayload.get EncapAckPayload.unknown
      [0x00, 0x01, 0x02] where
  roundTrip := EncapAckPayload.get_ofCode
  injective := fun a b h => by rw [← EncapAckPayload.get_ofCode a, h, EncapAckPayload.get_ofCode]
  unknownIff := fun b => by
    unfold EncapAckPayload.ofCode
    split <;> simp_all

/-- **C04** for `SpdmEncapsulatedResponseAckPayloadType`: reading takes one code off the front and cannot fail otherwise. -/
theorem C04_EncapAckPayload_read (b : UInt8) (t : Bytes) (u : Nat) :
    EncapAckPayload.read ⟨b :: t, u⟩ = .ok (EncapAckPayload.ofCode b) ⟨t, u + 1⟩ := by
  simp [EncapAckPayload.read]

/-- **C04** for `RegistryOrStandardsBodyID`. -/
theorem C04_RegistryId :
    LosslessCodes (β := UInt16) RegistryId.ofCode RegistryId.get RegistryId.unknown
      [0x00, 0x01, 0x02, 0x03, 0x04, 0x05, 0x06, 0x07, 0x08] where
  roundTrip := RegistryId.get_ofCode
  injective := fun a b h => by rw [← RegistryId.get_ofCode a, h, RegistryId.get_ofCode]
  unknownIff := fun b => by
    unfold RegistryId.ofCode
    split <;> simp_all

/-- **C04** for `RegistryOrStandardsBodyID`: reading takes one code off the front and cannot fail otherwise. -/
theorem C04_RegistryId_read (b : UInt16) (t : Bytes) (u : Nat) :
    RegistryId.read ⟨putU16 b ++ t, u⟩ = .ok (RegistryId.ofCode b) ⟨t, u + 2⟩ := by
  simp [RegistryId.read]

example : ReqRespCode.ofCode 0x81 = .reqGetDigests ∧ ReqRespCode.ofCode 0x80 = .unknown 0x80 ∧
    SpdmVersion.ofCode 0x13 = .unknown 0x13 := by decide

end Verif.Props
