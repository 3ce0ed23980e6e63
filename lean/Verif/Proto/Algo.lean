/-
Algorithm bit sets: constants, masks, priorities, sizes (spdmlib/src/protocol/algo.rs).  Generated by transcription.
A `bitflags!` value is its raw integer; `from_bits(b & VALID_MASK)` of the readers is always `Some`.
-/
import Verif.Proto.Enums

namespace Verif

/-- `prioritize` (spdmlib/src/protocol/algo.rs:77-88 and the identical bodies of the other families): intersect with the
peer, then the first entry of the table that intersects, else empty. -/
def prio {α : Type} [AndOp α] [OfNat α 0] [DecidableEq α] (table : List α) (own peer : α) : α :=
  match table.find? (fun v => decide ((own &&& peer) &&& v ≠ 0)) with
  | some v => v
  | none => 0

/-! ### `SpdmMeasurementSpecification` (spdmlib/src/protocol/algo.rs:56-103) -/

/-- `SpdmMeasurementSpecification` (spdmlib/src/protocol/algo.rs:56-103): raw bits. -/
abbrev MeasSpec := UInt8

namespace MeasSpec
/-- flag of `SpdmMeasurementSpecification` (spdmlib/src/protocol/algo.rs:56-103). -/
def dmtf : MeasSpec := 0x1
/-- `VALID_MASK` (spdmlib/src/protocol/algo.rs:56-103). -/
def mask : MeasSpec := 0x1

/-- `is_no_more_than_one_selected` (spdmlib/src/protocol/algo.rs:56-103). -/
def noMoreThanOne (x : MeasSpec) : Bool := x == 0 || x &&& (x - 1) == 0
/-- `is_valid` (spdmlib/src/protocol/algo.rs:56-103). -/
def isValid (x : MeasSpec) : Bool := x &&& mask != 0
/-- `is_valid_one_select` (spdmlib/src/protocol/algo.rs:56-103). -/
def validOne (x : MeasSpec) : Bool := noMoreThanOne x && isValid x
/-- `read` (spdmlib/src/protocol/algo.rs:56-103). -/
def read : Rd MeasSpec := do
  let b ← rdU8
  pure (b &&& mask)
/-- `encode` (spdmlib/src/protocol/algo.rs:56-103). -/
def encode (x : MeasSpec) : Enc Nat := encU8 x
/-- A value `read` can produce. -/
def WF (x : MeasSpec) : Prop := x &&& mask = x
instance (x : MeasSpec) : Decidable (WF x) := by unfold WF; infer_instance

/-- `prio_table` of `prioritize` (spdmlib/src/protocol/algo.rs:56-103). -/
def table : List MeasSpec := [dmtf]
/-- `prioritize` (spdmlib/src/protocol/algo.rs:56-103). -/
def prioritize (own peer : MeasSpec) : MeasSpec := prio table own peer

theorem read_cons (b : UInt8) (t : Bytes) (u : Nat) : read ⟨b :: t, u⟩ = .ok (b &&& mask) ⟨t, u + 1⟩ := by
  simp [read]

theorem read_wf {x : MeasSpec} (h : WF x) (t : Bytes) (u : Nat) : read ⟨x :: t, u⟩ = .ok x ⟨t, u + 1⟩ := by
  rw [read_cons, h]

theorem read_ok {r r' : Reader} {x : MeasSpec} (h : read r = .ok x r') : WF x ∧ ∃ b, x = b &&& mask ∧ r.After [b] r' := by
  simp only [read, M.bind_ok, M.pure_ok, rdU8_ok] at h
  obtain ⟨b, t, h, rfl, rfl⟩ := h
  exact ⟨by simp [WF, UInt8.and_assoc], b, rfl, h⟩

theorem writes (x : MeasSpec) : Writes (encode x) [x] := Writes.u8 _

theorem good : Rd.Good read := by unfold read; rd_good

theorem wf_lt {x : MeasSpec} (h : WF x) : x.toNat < 256 := by
  have : x.toNat = x.toNat &&& mask.toNat := by
    conv => lhs; rw [← h]
    simp
  rw [this]
  exact Nat.lt_of_le_of_lt Nat.and_le_right (by decide)

/-- Case analysis over every value `read` can produce. -/
theorem wf_cases {P : MeasSpec → Prop} (h : ∀ i : Fin 256, WF (UInt8.ofNat i) → P (UInt8.ofNat i)) (x : MeasSpec) (hx : WF x) : P x := by
  have h1 := h ⟨x.toNat, wf_lt hx⟩
  simp only [UInt8.ofNat_toNat] at h1
  exact h1 hx

end MeasSpec

/-! ### `SpdmMeasurementHashAlgo` (spdmlib/src/protocol/algo.rs:105-168) -/

/-- `SpdmMeasurementHashAlgo` (spdmlib/src/protocol/algo.rs:105-168): raw bits. -/
abbrev MeasHash := UInt32

namespace MeasHash
/-- flag of `SpdmMeasurementHashAlgo` (spdmlib/src/protocol/algo.rs:105-168). -/
def rawBit : MeasHash := 0x1
/-- flag of `SpdmMeasurementHashAlgo` (spdmlib/src/protocol/algo.rs:105-168). -/
def sha256 : MeasHash := 0x2
/-- flag of `SpdmMeasurementHashAlgo` (spdmlib/src/protocol/algo.rs:105-168). -/
def sha384 : MeasHash := 0x4
/-- flag of `SpdmMeasurementHashAlgo` (spdmlib/src/protocol/algo.rs:105-168). -/
def sha512 : MeasHash := 0x8
/-- flag of `SpdmMeasurementHashAlgo` (spdmlib/src/protocol/algo.rs:105-168). -/
def sha3_256 : MeasHash := 0x10
/-- flag of `SpdmMeasurementHashAlgo` (spdmlib/src/protocol/algo.rs:105-168). -/
def sha3_384 : MeasHash := 0x20
/-- flag of `SpdmMeasurementHashAlgo` (spdmlib/src/protocol/algo.rs:105-168). -/
def sha3_512 : MeasHash := 0x40
/-- flag of `SpdmMeasurementHashAlgo` (spdmlib/src/protocol/algo.rs:105-168). -/
def sm3 : MeasHash := 0x80
/-- `VALID_MASK` (spdmlib/src/protocol/algo.rs:105-168). -/
def mask : MeasHash := 0x9f

/-- `is_no_more_than_one_selected` (spdmlib/src/protocol/algo.rs:105-168). -/
def noMoreThanOne (x : MeasHash) : Bool := x == 0 || x &&& (x - 1) == 0
/-- `is_valid` (spdmlib/src/protocol/algo.rs:105-168). -/
def isValid (x : MeasHash) : Bool := x &&& mask != 0
/-- `is_valid_one_select` (spdmlib/src/protocol/algo.rs:105-168). -/
def validOne (x : MeasHash) : Bool := noMoreThanOne x && isValid x
/-- `read` (spdmlib/src/protocol/algo.rs:105-168). -/
def read : Rd MeasHash := do
  let b ← rdU32
  pure (b &&& mask)
/-- `encode` (spdmlib/src/protocol/algo.rs:105-168). -/
def encode (x : MeasHash) : Enc Nat := encU32 x
/-- A value `read` can produce. -/
def WF (x : MeasHash) : Prop := x &&& mask = x
instance (x : MeasHash) : Decidable (WF x) := by unfold WF; infer_instance

/-- `get_size` (spdmlib/src/protocol/algo.rs:105-168); `none` is the panic. -/
def size? (x : MeasHash) : Option Nat :=
  if x = rawBit then some 0
  else if x = sha256 then some 32
  else if x = sha384 then some 48
  else if x = sha512 then some 64
  else if x = sha3_256 then some 32
  else if x = sha3_384 then some 48
  else if x = sha3_512 then some 64
  else if x = sm3 then some 32
  else none

theorem read_put (b : MeasHash) (t : Bytes) (u : Nat) :
    read ⟨putU32 b ++ t, u⟩ = .ok (b &&& mask) ⟨t, u + 4⟩ := by
  simp [read]

theorem read_wf {x : MeasHash} (h : WF x) (t : Bytes) (u : Nat) : read ⟨putU32 x ++ t, u⟩ = .ok x ⟨t, u + 4⟩ := by
  rw [read_put, h]

theorem read_ok {r r' : Reader} {x : MeasHash} (h : read r = .ok x r') : WF x ∧ ∃ b, x = b &&& mask ∧ r.After (putU32 b) r' := by
  simp only [read, M.bind_ok, M.pure_ok, rdU32_ok] at h
  obtain ⟨b, t, h, rfl, rfl⟩ := h
  exact ⟨by simp [WF, UInt32.and_assoc], b, rfl, h⟩

theorem writes (x : MeasHash) : Writes (encode x) (putU32 x) := Writes.u32 _

theorem good : Rd.Good read := by unfold read; rd_good

theorem wf_lt {x : MeasHash} (h : WF x) : x.toNat < 256 := by
  have : x.toNat = x.toNat &&& mask.toNat := by
    conv => lhs; rw [← h]
    simp
  rw [this]
  exact Nat.lt_of_le_of_lt Nat.and_le_right (by decide)

/-- Case analysis over every value `read` can produce. -/
theorem wf_cases {P : MeasHash → Prop} (h : ∀ i : Fin 256, WF (UInt32.ofNat i) → P (UInt32.ofNat i)) (x : MeasHash) (hx : WF x) : P x := by
  have h1 := h ⟨x.toNat, wf_lt hx⟩
  simp only [UInt32.ofNat_toNat] at h1
  exact h1 hx

end MeasHash

/-! ### `SpdmBaseAsymAlgo` (spdmlib/src/protocol/algo.rs:170-255) -/

/-- `SpdmBaseAsymAlgo` (spdmlib/src/protocol/algo.rs:170-255): raw bits. -/
abbrev BaseAsym := UInt32

namespace BaseAsym
/-- flag of `SpdmBaseAsymAlgo` (spdmlib/src/protocol/algo.rs:170-255). -/
def rsassa2048 : BaseAsym := 0x1
/-- flag of `SpdmBaseAsymAlgo` (spdmlib/src/protocol/algo.rs:170-255). -/
def rsapss2048 : BaseAsym := 0x2
/-- flag of `SpdmBaseAsymAlgo` (spdmlib/src/protocol/algo.rs:170-255). -/
def rsassa3072 : BaseAsym := 0x4
/-- flag of `SpdmBaseAsymAlgo` (spdmlib/src/protocol/algo.rs:170-255). -/
def rsapss3072 : BaseAsym := 0x8
/-- flag of `SpdmBaseAsymAlgo` (spdmlib/src/protocol/algo.rs:170-255). -/
def ecdsaP256 : BaseAsym := 0x10
/-- flag of `SpdmBaseAsymAlgo` (spdmlib/src/protocol/algo.rs:170-255). -/
def rsassa4096 : BaseAsym := 0x20
/-- flag of `SpdmBaseAsymAlgo` (spdmlib/src/protocol/algo.rs:170-255). -/
def rsapss4096 : BaseAsym := 0x40
/-- flag of `SpdmBaseAsymAlgo` (spdmlib/src/protocol/algo.rs:170-255). -/
def ecdsaP384 : BaseAsym := 0x80
/-- `VALID_MASK` (spdmlib/src/protocol/algo.rs:170-255). -/
def mask : BaseAsym := 0xff

/-- `is_no_more_than_one_selected` (spdmlib/src/protocol/algo.rs:170-255). -/
def noMoreThanOne (x : BaseAsym) : Bool := x == 0 || x &&& (x - 1) == 0
/-- `is_valid` (spdmlib/src/protocol/algo.rs:170-255). -/
def isValid (x : BaseAsym) : Bool := x &&& mask != 0
/-- `is_valid_one_select` (spdmlib/src/protocol/algo.rs:170-255). -/
def validOne (x : BaseAsym) : Bool := noMoreThanOne x && isValid x
/-- `read` (spdmlib/src/protocol/algo.rs:170-255). -/
def read : Rd BaseAsym := do
  let b ← rdU32
  pure (b &&& mask)
/-- `encode` (spdmlib/src/protocol/algo.rs:170-255). -/
def encode (x : BaseAsym) : Enc Nat := encU32 x
/-- A value `read` can produce. -/
def WF (x : BaseAsym) : Prop := x &&& mask = x
instance (x : BaseAsym) : Decidable (WF x) := by unfold WF; infer_instance

/-- `prio_table` of `prioritize` (spdmlib/src/protocol/algo.rs:170-255). -/
def table : List BaseAsym := [ecdsaP384, ecdsaP256, rsapss4096, rsapss3072, rsapss2048, rsassa4096, rsassa3072, rsassa2048]
/-- `prioritize` (spdmlib/src/protocol/algo.rs:170-255). -/
def prioritize (own peer : BaseAsym) : BaseAsym := prio table own peer

/-- `get_size` (spdmlib/src/protocol/algo.rs:170-255); `none` is the panic. -/
def size? (x : BaseAsym) : Option Nat :=
  if x = rsassa2048 then some 256
  else if x = rsapss2048 then some 256
  else if x = rsassa3072 then some 384
  else if x = rsapss3072 then some 384
  else if x = rsassa4096 then some 512
  else if x = rsapss4096 then some 512
  else if x = ecdsaP256 then some 64
  else if x = ecdsaP384 then some 96
  else none

theorem read_put (b : BaseAsym) (t : Bytes) (u : Nat) :
    read ⟨putU32 b ++ t, u⟩ = .ok (b &&& mask) ⟨t, u + 4⟩ := by
  simp [read]

theorem read_wf {x : BaseAsym} (h : WF x) (t : Bytes) (u : Nat) : read ⟨putU32 x ++ t, u⟩ = .ok x ⟨t, u + 4⟩ := by
  rw [read_put, h]

theorem read_ok {r r' : Reader} {x : BaseAsym} (h : read r = .ok x r') : WF x ∧ ∃ b, x = b &&& mask ∧ r.After (putU32 b) r' := by
  simp only [read, M.bind_ok, M.pure_ok, rdU32_ok] at h
  obtain ⟨b, t, h, rfl, rfl⟩ := h
  exact ⟨by simp [WF, UInt32.and_assoc], b, rfl, h⟩

theorem writes (x : BaseAsym) : Writes (encode x) (putU32 x) := Writes.u32 _

theorem good : Rd.Good read := by unfold read; rd_good

theorem wf_lt {x : BaseAsym} (h : WF x) : x.toNat < 256 := by
  have : x.toNat = x.toNat &&& mask.toNat := by
    conv => lhs; rw [← h]
    simp
  rw [this]
  exact Nat.lt_of_le_of_lt Nat.and_le_right (by decide)

/-- Case analysis over every value `read` can produce. -/
theorem wf_cases {P : BaseAsym → Prop} (h : ∀ i : Fin 256, WF (UInt32.ofNat i) → P (UInt32.ofNat i)) (x : BaseAsym) (hx : WF x) : P x := by
  have h1 := h ⟨x.toNat, wf_lt hx⟩
  simp only [UInt32.ofNat_toNat] at h1
  exact h1 hx

end BaseAsym

/-! ### `SpdmBaseHashAlgo` (spdmlib/src/protocol/algo.rs:257-322) -/

/-- `SpdmBaseHashAlgo` (spdmlib/src/protocol/algo.rs:257-322): raw bits. -/
abbrev BaseHash := UInt32

namespace BaseHash
/-- flag of `SpdmBaseHashAlgo` (spdmlib/src/protocol/algo.rs:257-322). -/
def sha256 : BaseHash := 0x1
/-- flag of `SpdmBaseHashAlgo` (spdmlib/src/protocol/algo.rs:257-322). -/
def sha384 : BaseHash := 0x2
/-- flag of `SpdmBaseHashAlgo` (spdmlib/src/protocol/algo.rs:257-322). -/
def sha512 : BaseHash := 0x4
/-- `VALID_MASK` (spdmlib/src/protocol/algo.rs:257-322). -/
def mask : BaseHash := 0x7

/-- `is_no_more_than_one_selected` (spdmlib/src/protocol/algo.rs:257-322). -/
def noMoreThanOne (x : BaseHash) : Bool := x == 0 || x &&& (x - 1) == 0
/-- `is_valid` (spdmlib/src/protocol/algo.rs:257-322). -/
def isValid (x : BaseHash) : Bool := x &&& mask != 0
/-- `is_valid_one_select` (spdmlib/src/protocol/algo.rs:257-322). -/
def validOne (x : BaseHash) : Bool := noMoreThanOne x && isValid x
/-- `read` (spdmlib/src/protocol/algo.rs:257-322). -/
def read : Rd BaseHash := do
  let b ← rdU32
  pure (b &&& mask)
/-- `encode` (spdmlib/src/protocol/algo.rs:257-322). -/
def encode (x : BaseHash) : Enc Nat := encU32 x
/-- A value `read` can produce. -/
def WF (x : BaseHash) : Prop := x &&& mask = x
instance (x : BaseHash) : Decidable (WF x) := by unfold WF; infer_instance

/-- `prio_table` of `prioritize` (spdmlib/src/protocol/algo.rs:257-322). -/
def table : List BaseHash := [sha512, sha384, sha256]
/-- `prioritize` (spdmlib/src/protocol/algo.rs:257-322). -/
def prioritize (own peer : BaseHash) : BaseHash := prio table own peer

/-- `get_size` (spdmlib/src/protocol/algo.rs:257-322); `none` is the panic. -/
def size? (x : BaseHash) : Option Nat :=
  if x = sha256 then some 32
  else if x = sha384 then some 48
  else if x = sha512 then some 64
  else none

theorem read_put (b : BaseHash) (t : Bytes) (u : Nat) :
    read ⟨putU32 b ++ t, u⟩ = .ok (b &&& mask) ⟨t, u + 4⟩ := by
  simp [read]

theorem read_wf {x : BaseHash} (h : WF x) (t : Bytes) (u : Nat) : read ⟨putU32 x ++ t, u⟩ = .ok x ⟨t, u + 4⟩ := by
  rw [read_put, h]

theorem read_ok {r r' : Reader} {x : BaseHash} (h : read r = .ok x r') : WF x ∧ ∃ b, x = b &&& mask ∧ r.After (putU32 b) r' := by
  simp only [read, M.bind_ok, M.pure_ok, rdU32_ok] at h
  obtain ⟨b, t, h, rfl, rfl⟩ := h
  exact ⟨by simp [WF, UInt32.and_assoc], b, rfl, h⟩

theorem writes (x : BaseHash) : Writes (encode x) (putU32 x) := Writes.u32 _

theorem good : Rd.Good read := by unfold read; rd_good

theorem wf_lt {x : BaseHash} (h : WF x) : x.toNat < 256 := by
  have : x.toNat = x.toNat &&& mask.toNat := by
    conv => lhs; rw [← h]
    simp
  rw [this]
  exact Nat.lt_of_le_of_lt Nat.and_le_right (by decide)

/-- Case analysis over every value `read` can produce. -/
theorem wf_cases {P : BaseHash → Prop} (h : ∀ i : Fin 256, WF (UInt32.ofNat i) → P (UInt32.ofNat i)) (x : BaseHash) (hx : WF x) : P x := by
  have h1 := h ⟨x.toNat, wf_lt hx⟩
  simp only [UInt32.ofNat_toNat] at h1
  exact h1 hx

end BaseHash

/-! ### `SpdmDheAlgo` (spdmlib/src/protocol/algo.rs:340-398) -/

/-- `SpdmDheAlgo` (spdmlib/src/protocol/algo.rs:340-398): raw bits. -/
abbrev Dhe := UInt16

namespace Dhe
/-- flag of `SpdmDheAlgo` (spdmlib/src/protocol/algo.rs:340-398). -/
def p256 : Dhe := 0x8
/-- flag of `SpdmDheAlgo` (spdmlib/src/protocol/algo.rs:340-398). -/
def p384 : Dhe := 0x10
/-- `VALID_MASK` (spdmlib/src/protocol/algo.rs:340-398). -/
def mask : Dhe := 0x18

/-- `is_no_more_than_one_selected` (spdmlib/src/protocol/algo.rs:340-398). -/
def noMoreThanOne (x : Dhe) : Bool := x == 0 || x &&& (x - 1) == 0
/-- `is_valid` (spdmlib/src/protocol/algo.rs:340-398). -/
def isValid (x : Dhe) : Bool := x &&& mask != 0
/-- `is_valid_one_select` (spdmlib/src/protocol/algo.rs:340-398). -/
def validOne (x : Dhe) : Bool := noMoreThanOne x && isValid x
/-- `read` (spdmlib/src/protocol/algo.rs:340-398). -/
def read : Rd Dhe := do
  let b ← rdU16
  pure (b &&& mask)
/-- `encode` (spdmlib/src/protocol/algo.rs:340-398). -/
def encode (x : Dhe) : Enc Nat := encU16 x
/-- A value `read` can produce. -/
def WF (x : Dhe) : Prop := x &&& mask = x
instance (x : Dhe) : Decidable (WF x) := by unfold WF; infer_instance

/-- `prio_table` of `prioritize` (spdmlib/src/protocol/algo.rs:340-398). -/
def table : List Dhe := [p384, p256]
/-- `prioritize` (spdmlib/src/protocol/algo.rs:340-398). -/
def prioritize (own peer : Dhe) : Dhe := prio table own peer

/-- `get_size` (spdmlib/src/protocol/algo.rs:340-398); `none` is the panic. -/
def size? (x : Dhe) : Option Nat :=
  if x = p256 then some 64
  else if x = p384 then some 96
  else none

theorem read_put (b : Dhe) (t : Bytes) (u : Nat) :
    read ⟨putU16 b ++ t, u⟩ = .ok (b &&& mask) ⟨t, u + 2⟩ := by
  simp [read]

theorem read_wf {x : Dhe} (h : WF x) (t : Bytes) (u : Nat) : read ⟨putU16 x ++ t, u⟩ = .ok x ⟨t, u + 2⟩ := by
  rw [read_put, h]

theorem read_ok {r r' : Reader} {x : Dhe} (h : read r = .ok x r') : WF x ∧ ∃ b, x = b &&& mask ∧ r.After (putU16 b) r' := by
  simp only [read, M.bind_ok, M.pure_ok, rdU16_ok] at h
  obtain ⟨b, t, h, rfl, rfl⟩ := h
  exact ⟨by simp [WF, UInt16.and_assoc], b, rfl, h⟩

theorem writes (x : Dhe) : Writes (encode x) (putU16 x) := Writes.u16 _

theorem good : Rd.Good read := by unfold read; rd_good

theorem wf_lt {x : Dhe} (h : WF x) : x.toNat < 256 := by
  have : x.toNat = x.toNat &&& mask.toNat := by
    conv => lhs; rw [← h]
    simp
  rw [this]
  exact Nat.lt_of_le_of_lt Nat.and_le_right (by decide)

/-- Case analysis over every value `read` can produce. -/
theorem wf_cases {P : Dhe → Prop} (h : ∀ i : Fin 256, WF (UInt16.ofNat i) → P (UInt16.ofNat i)) (x : Dhe) (hx : WF x) : P x := by
  have h1 := h ⟨x.toNat, wf_lt hx⟩
  simp only [UInt16.ofNat_toNat] at h1
  exact h1 hx

end Dhe

/-! ### `SpdmAeadAlgo` (spdmlib/src/protocol/algo.rs:400-485) -/

/-- `SpdmAeadAlgo` (spdmlib/src/protocol/algo.rs:400-485): raw bits. -/
abbrev Aead := UInt16

namespace Aead
/-- flag of `SpdmAeadAlgo` (spdmlib/src/protocol/algo.rs:400-485). -/
def aes128 : Aead := 0x1
/-- flag of `SpdmAeadAlgo` (spdmlib/src/protocol/algo.rs:400-485). -/
def aes256 : Aead := 0x2
/-- flag of `SpdmAeadAlgo` (spdmlib/src/protocol/algo.rs:400-485). -/
def chacha : Aead := 0x4
/-- `VALID_MASK` (spdmlib/src/protocol/algo.rs:400-485). -/
def mask : Aead := 0x7

/-- `is_no_more_than_one_selected` (spdmlib/src/protocol/algo.rs:400-485). -/
def noMoreThanOne (x : Aead) : Bool := x == 0 || x &&& (x - 1) == 0
/-- `is_valid` (spdmlib/src/protocol/algo.rs:400-485). -/
def isValid (x : Aead) : Bool := x &&& mask != 0
/-- `is_valid_one_select` (spdmlib/src/protocol/algo.rs:400-485). -/
def validOne (x : Aead) : Bool := noMoreThanOne x && isValid x
/-- `read` (spdmlib/src/protocol/algo.rs:400-485). -/
def read : Rd Aead := do
  let b ← rdU16
  pure (b &&& mask)
/-- `encode` (spdmlib/src/protocol/algo.rs:400-485). -/
def encode (x : Aead) : Enc Nat := encU16 x
/-- A value `read` can produce. -/
def WF (x : Aead) : Prop := x &&& mask = x
instance (x : Aead) : Decidable (WF x) := by unfold WF; infer_instance

/-- `prio_table` of `prioritize` (spdmlib/src/protocol/algo.rs:400-485). -/
def table : List Aead := [aes256, aes128, chacha]
/-- `prioritize` (spdmlib/src/protocol/algo.rs:400-485). -/
def prioritize (own peer : Aead) : Aead := prio table own peer

/-- `get_key_size` (spdmlib/src/protocol/algo.rs:400-485); `none` is the panic. -/
def keySize? (x : Aead) : Option Nat :=
  if x = aes128 then some 16
  else if x = aes256 then some 32
  else if x = chacha then some 32
  else none

/-- `get_iv_size` (spdmlib/src/protocol/algo.rs:400-485); `none` is the panic. -/
def ivSize? (x : Aead) : Option Nat :=
  if x = aes128 then some 12
  else if x = aes256 then some 12
  else if x = chacha then some 12
  else none

/-- `get_tag_size` (spdmlib/src/protocol/algo.rs:400-485); `none` is the panic. -/
def tagSize? (x : Aead) : Option Nat :=
  if x = aes128 then some 16
  else if x = aes256 then some 16
  else if x = chacha then some 16
  else none

theorem read_put (b : Aead) (t : Bytes) (u : Nat) :
    read ⟨putU16 b ++ t, u⟩ = .ok (b &&& mask) ⟨t, u + 2⟩ := by
  simp [read]

theorem read_wf {x : Aead} (h : WF x) (t : Bytes) (u : Nat) : read ⟨putU16 x ++ t, u⟩ = .ok x ⟨t, u + 2⟩ := by
  rw [read_put, h]

theorem read_ok {r r' : Reader} {x : Aead} (h : read r = .ok x r') : WF x ∧ ∃ b, x = b &&& mask ∧ r.After (putU16 b) r' := by
  simp only [read, M.bind_ok, M.pure_ok, rdU16_ok] at h
  obtain ⟨b, t, h, rfl, rfl⟩ := h
  exact ⟨by simp [WF, UInt16.and_assoc], b, rfl, h⟩

theorem writes (x : Aead) : Writes (encode x) (putU16 x) := Writes.u16 _

theorem good : Rd.Good read := by unfold read; rd_good

theorem wf_lt {x : Aead} (h : WF x) : x.toNat < 256 := by
  have : x.toNat = x.toNat &&& mask.toNat := by
    conv => lhs; rw [← h]
    simp
  rw [this]
  exact Nat.lt_of_le_of_lt Nat.and_le_right (by decide)

/-- Case analysis over every value `read` can produce. -/
theorem wf_cases {P : Aead → Prop} (h : ∀ i : Fin 256, WF (UInt16.ofNat i) → P (UInt16.ofNat i)) (x : Aead) (hx : WF x) : P x := by
  have h1 := h ⟨x.toNat, wf_lt hx⟩
  simp only [UInt16.ofNat_toNat] at h1
  exact h1 hx

end Aead

/-! ### `SpdmReqAsymAlgo` (spdmlib/src/protocol/algo.rs:487-572) -/

/-- `SpdmReqAsymAlgo` (spdmlib/src/protocol/algo.rs:487-572): raw bits. -/
abbrev ReqAsym := UInt16

namespace ReqAsym
/-- flag of `SpdmReqAsymAlgo` (spdmlib/src/protocol/algo.rs:487-572). -/
def rsassa2048 : ReqAsym := 0x1
/-- flag of `SpdmReqAsymAlgo` (spdmlib/src/protocol/algo.rs:487-572). -/
def rsapss2048 : ReqAsym := 0x2
/-- flag of `SpdmReqAsymAlgo` (spdmlib/src/protocol/algo.rs:487-572). -/
def rsassa3072 : ReqAsym := 0x4
/-- flag of `SpdmReqAsymAlgo` (spdmlib/src/protocol/algo.rs:487-572). -/
def rsapss3072 : ReqAsym := 0x8
/-- flag of `SpdmReqAsymAlgo` (spdmlib/src/protocol/algo.rs:487-572). -/
def ecdsaP256 : ReqAsym := 0x10
/-- flag of `SpdmReqAsymAlgo` (spdmlib/src/protocol/algo.rs:487-572). -/
def rsassa4096 : ReqAsym := 0x20
/-- flag of `SpdmReqAsymAlgo` (spdmlib/src/protocol/algo.rs:487-572). -/
def rsapss4096 : ReqAsym := 0x40
/-- flag of `SpdmReqAsymAlgo` (spdmlib/src/protocol/algo.rs:487-572). -/
def ecdsaP384 : ReqAsym := 0x80
/-- `VALID_MASK` (spdmlib/src/protocol/algo.rs:487-572). -/
def mask : ReqAsym := 0xff

/-- `is_no_more_than_one_selected` (spdmlib/src/protocol/algo.rs:487-572). -/
def noMoreThanOne (x : ReqAsym) : Bool := x == 0 || x &&& (x - 1) == 0
/-- `is_valid` (spdmlib/src/protocol/algo.rs:487-572). -/
def isValid (x : ReqAsym) : Bool := x &&& mask != 0
/-- `is_valid_one_select` (spdmlib/src/protocol/algo.rs:487-572). -/
def validOne (x : ReqAsym) : Bool := noMoreThanOne x && isValid x
/-- `read` (spdmlib/src/protocol/algo.rs:487-572). -/
def read : Rd ReqAsym := do
  let b ← rdU16
  pure (b &&& mask)
/-- `encode` (spdmlib/src/protocol/algo.rs:487-572). -/
def encode (x : ReqAsym) : Enc Nat := encU16 x
/-- A value `read` can produce. -/
def WF (x : ReqAsym) : Prop := x &&& mask = x
instance (x : ReqAsym) : Decidable (WF x) := by unfold WF; infer_instance

/-- `prio_table` of `prioritize` (spdmlib/src/protocol/algo.rs:487-572). -/
def table : List ReqAsym := [ecdsaP384, ecdsaP256, rsapss4096, rsapss3072, rsapss2048, rsassa4096, rsassa3072, rsassa2048]
/-- `prioritize` (spdmlib/src/protocol/algo.rs:487-572). -/
def prioritize (own peer : ReqAsym) : ReqAsym := prio table own peer

/-- `get_size` (spdmlib/src/protocol/algo.rs:487-572); `none` is the panic. -/
def size? (x : ReqAsym) : Option Nat :=
  if x = rsassa2048 then some 256
  else if x = rsapss2048 then some 256
  else if x = rsassa3072 then some 384
  else if x = rsapss3072 then some 384
  else if x = rsassa4096 then some 512
  else if x = rsapss4096 then some 512
  else if x = ecdsaP256 then some 64
  else if x = ecdsaP384 then some 96
  else none

theorem read_put (b : ReqAsym) (t : Bytes) (u : Nat) :
    read ⟨putU16 b ++ t, u⟩ = .ok (b &&& mask) ⟨t, u + 2⟩ := by
  simp [read]

theorem read_wf {x : ReqAsym} (h : WF x) (t : Bytes) (u : Nat) : read ⟨putU16 x ++ t, u⟩ = .ok x ⟨t, u + 2⟩ := by
  rw [read_put, h]

theorem read_ok {r r' : Reader} {x : ReqAsym} (h : read r = .ok x r') : WF x ∧ ∃ b, x = b &&& mask ∧ r.After (putU16 b) r' := by
  simp only [read, M.bind_ok, M.pure_ok, rdU16_ok] at h
  obtain ⟨b, t, h, rfl, rfl⟩ := h
  exact ⟨by simp [WF, UInt16.and_assoc], b, rfl, h⟩

theorem writes (x : ReqAsym) : Writes (encode x) (putU16 x) := Writes.u16 _

theorem good : Rd.Good read := by unfold read; rd_good

theorem wf_lt {x : ReqAsym} (h : WF x) : x.toNat < 256 := by
  have : x.toNat = x.toNat &&& mask.toNat := by
    conv => lhs; rw [← h]
    simp
  rw [this]
  exact Nat.lt_of_le_of_lt Nat.and_le_right (by decide)

/-- Case analysis over every value `read` can produce. -/
theorem wf_cases {P : ReqAsym → Prop} (h : ∀ i : Fin 256, WF (UInt16.ofNat i) → P (UInt16.ofNat i)) (x : ReqAsym) (hx : WF x) : P x := by
  have h1 := h ⟨x.toNat, wf_lt hx⟩
  simp only [UInt16.ofNat_toNat] at h1
  exact h1 hx

end ReqAsym

/-! ### `SpdmKeyScheduleAlgo` (spdmlib/src/protocol/algo.rs:574-621) -/

/-- `SpdmKeyScheduleAlgo` (spdmlib/src/protocol/algo.rs:574-621): raw bits. -/
abbrev KeySchedule := UInt16

namespace KeySchedule
/-- flag of `SpdmKeyScheduleAlgo` (spdmlib/src/protocol/algo.rs:574-621). -/
def spdm : KeySchedule := 0x1
/-- `VALID_MASK` (spdmlib/src/protocol/algo.rs:574-621). -/
def mask : KeySchedule := 0x1

/-- `is_no_more_than_one_selected` (spdmlib/src/protocol/algo.rs:574-621). -/
def noMoreThanOne (x : KeySchedule) : Bool := x == 0 || x &&& (x - 1) == 0
/-- `is_valid` (spdmlib/src/protocol/algo.rs:574-621). -/
def isValid (x : KeySchedule) : Bool := x &&& mask != 0
/-- `is_valid_one_select` (spdmlib/src/protocol/algo.rs:574-621). -/
def validOne (x : KeySchedule) : Bool := noMoreThanOne x && isValid x
/-- `read` (spdmlib/src/protocol/algo.rs:574-621). -/
def read : Rd KeySchedule := do
  let b ← rdU16
  pure (b &&& mask)
/-- `encode` (spdmlib/src/protocol/algo.rs:574-621). -/
def encode (x : KeySchedule) : Enc Nat := encU16 x
/-- A value `read` can produce. -/
def WF (x : KeySchedule) : Prop := x &&& mask = x
instance (x : KeySchedule) : Decidable (WF x) := by unfold WF; infer_instance

/-- `prio_table` of `prioritize` (spdmlib/src/protocol/algo.rs:574-621). -/
def table : List KeySchedule := [spdm]
/-- `prioritize` (spdmlib/src/protocol/algo.rs:574-621). -/
def prioritize (own peer : KeySchedule) : KeySchedule := prio table own peer

theorem read_put (b : KeySchedule) (t : Bytes) (u : Nat) :
    read ⟨putU16 b ++ t, u⟩ = .ok (b &&& mask) ⟨t, u + 2⟩ := by
  simp [read]

theorem read_wf {x : KeySchedule} (h : WF x) (t : Bytes) (u : Nat) : read ⟨putU16 x ++ t, u⟩ = .ok x ⟨t, u + 2⟩ := by
  rw [read_put, h]

theorem read_ok {r r' : Reader} {x : KeySchedule} (h : read r = .ok x r') : WF x ∧ ∃ b, x = b &&& mask ∧ r.After (putU16 b) r' := by
  simp only [read, M.bind_ok, M.pure_ok, rdU16_ok] at h
  obtain ⟨b, t, h, rfl, rfl⟩ := h
  exact ⟨by simp [WF, UInt16.and_assoc], b, rfl, h⟩

theorem writes (x : KeySchedule) : Writes (encode x) (putU16 x) := Writes.u16 _

theorem good : Rd.Good read := by unfold read; rd_good

theorem wf_lt {x : KeySchedule} (h : WF x) : x.toNat < 256 := by
  have : x.toNat = x.toNat &&& mask.toNat := by
    conv => lhs; rw [← h]
    simp
  rw [this]
  exact Nat.lt_of_le_of_lt Nat.and_le_right (by decide)

/-- Case analysis over every value `read` can produce. -/
theorem wf_cases {P : KeySchedule → Prop} (h : ∀ i : Fin 256, WF (UInt16.ofNat i) → P (UInt16.ofNat i)) (x : KeySchedule) (hx : WF x) : P x := by
  have h1 := h ⟨x.toNat, wf_lt hx⟩
  simp only [UInt16.ofNat_toNat] at h1
  exact h1 hx

end KeySchedule

end Verif
