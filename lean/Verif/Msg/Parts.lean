/-
Sub-structures shared by the messages: digests, signatures, exchange data, opaque data, nonces, measurement records,
algorithm structures (spdmlib/src/common/spdm_codec.rs, common/opaque.rs, protocol/algo.rs).

A Rust `{ data_size, data: [u8; MAX] }` is the byte list `data[..data_size]`.
-/
import Verif.Proto.Neg

namespace Verif

/-- Structural rules for `Writes`. -/
macro "wr" : tactic => `(tactic|
  repeat (first
    | assumption
    | exact Writes.seq_nil | exact Writes.pure0
    | exact Writes.u8 _ | exact Writes.u16 _ | exact Writes.u24 _ | exact Writes.u32 _ | exact Writes.u64 _
    | exact Writes.bytes _
    | apply Writes.seq_cons
    | apply Writes.iteBoth
    | intro _))

/-! ### Sized byte strings -/

/-- `SpdmDigestStruct::spdm_encode` (common/spdm_codec.rs:37-47): asserts the length, then the bytes. -/
def encDigest (c : Cc) (d : Bytes) : Enc Nat := do
  let n ← M.unwrap c.hashSize?
  if d.length ≠ n then M.panic else encBytes d
/-- `SpdmDigestStruct::spdm_read` (common/spdm_codec.rs:48-55). -/
def rdDigest (c : Cc) : Rd Bytes := do
  let n ← M.unwrap c.hashSize?
  rdBytes n

/-- `SpdmSignatureStruct::spdm_encode` (common/spdm_codec.rs:59-69). -/
def encSignature (c : Cc) (d : Bytes) : Enc Nat := do
  let n ← M.unwrap c.asymSize?
  if d.length ≠ n then M.panic else encBytes d
/-- `SpdmSignatureStruct::spdm_read` (common/spdm_codec.rs:70-77). -/
def rdSignature (c : Cc) : Rd Bytes := do
  let n ← M.unwrap c.asymSize?
  rdBytes n

/-- `SpdmDheExchangeStruct::spdm_encode` (common/spdm_codec.rs:161-170): no length assertion. -/
def encDhe (d : Bytes) : Enc Nat := encBytes d
/-- `SpdmDheExchangeStruct::spdm_read` (common/spdm_codec.rs:171-178). -/
def rdDhe (c : Cc) : Rd Bytes := do
  let n ← M.unwrap c.dheSize?
  rdBytes n

/-- `SpdmOpaqueStruct::spdm_encode` (common/opaque.rs:536-552). -/
def encOpaque (d : Bytes) : Enc Nat := Enc.seq [encU16 d.length.toUInt16, encBytes d]
/-- `SpdmOpaqueStruct::spdm_read` (common/opaque.rs:553-564); `MAX_SPDM_OPAQUE_SIZE` is 1024. -/
def rdOpaque : Rd Bytes := do
  let n ← rdU16
  if n > 1024 then Rd.none else rdBytes n.toNat

/-- Wire image of opaque data: two-byte length, then the data. -/
def opaqueWire (d : Bytes) : Bytes := putU16 d.length.toUInt16 ++ d

/-- Digest length fits the negotiated hash. -/
def Cc.DigestOk (c : Cc) (d : Bytes) : Prop := c.hashSize? = some d.length
/-- Signature length fits the negotiated signature algorithm. -/
def Cc.SigOk (c : Cc) (d : Bytes) : Prop := c.asymSize? = some d.length
/-- Exchange-data length fits the negotiated group. -/
def Cc.DheOk (c : Cc) (d : Bytes) : Prop := c.dheSize? = some d.length
instance (c : Cc) (d : Bytes) : Decidable (c.DigestOk d) := by unfold Cc.DigestOk; infer_instance
instance (c : Cc) (d : Bytes) : Decidable (c.SigOk d) := by unfold Cc.SigOk; infer_instance
instance (c : Cc) (d : Bytes) : Decidable (c.DheOk d) := by unfold Cc.DheOk; infer_instance

theorem encDigest_writes {c : Cc} {d : Bytes} (h : c.DigestOk d) : Writes (encDigest c d) d :=
  Writes.unwrap h (Writes.guardPanic (by simp) (Writes.bytes d))
theorem encSignature_writes {c : Cc} {d : Bytes} (h : c.SigOk d) : Writes (encSignature c d) d :=
  Writes.unwrap h (Writes.guardPanic (by simp) (Writes.bytes d))
theorem encDhe_writes (d : Bytes) : Writes (encDhe d) d := Writes.bytes d
theorem encOpaque_writes (d : Bytes) : Writes (encOpaque d) (opaqueWire d) := by
  unfold encOpaque
  apply Writes.cast
  · wr
  simp [opaqueWire]

theorem rdDigest_rt {c : Cc} {d : Bytes} (h : c.DigestOk d) : RT (rdDigest c) d d :=
  RT.bind' (List.nil_append d).symm (RT.unwrap h) (RT.bytes d rfl)
theorem rdSignature_rt {c : Cc} {d : Bytes} (h : c.SigOk d) : RT (rdSignature c) d d :=
  RT.bind' (List.nil_append d).symm (RT.unwrap h) (RT.bytes d rfl)
theorem rdDhe_rt {c : Cc} {d : Bytes} (h : c.DheOk d) : RT (rdDhe c) d d :=
  RT.bind' (List.nil_append d).symm (RT.unwrap h) (RT.bytes d rfl)
theorem rdOpaque_rt {d : Bytes} (h : d.length ≤ 1024) : RT rdOpaque (opaqueWire d) d := by
  have h1 : d.length.toUInt16.toNat = d.length := by simp; omega
  refine RT.bind (RT.u16 _) (RT.guard ?_ (RT.bytes d h1.symm))
  simp only [gt_iff_lt, UInt16.lt_iff_toNat_lt, h1]
  have : (1024 : UInt16).toNat = 1024 := by decide
  omega

theorem rdDigest_good {c : Cc} (h : c.hashSize?.isSome) : Rd.Good (rdDigest c) :=
  Rd.Good.bind (Rd.Good.unwrap h) fun _ => Rd.Good.bytes _
theorem rdSignature_good {c : Cc} (h : c.asymSize?.isSome) : Rd.Good (rdSignature c) :=
  Rd.Good.bind (Rd.Good.unwrap h) fun _ => Rd.Good.bytes _
theorem rdDhe_good {c : Cc} (h : c.dheSize?.isSome) : Rd.Good (rdDhe c) :=
  Rd.Good.bind (Rd.Good.unwrap h) fun _ => Rd.Good.bytes _
theorem rdOpaque_good : Rd.Good rdOpaque := by unfold rdOpaque; rd_good

theorem unwrap_ok {ε σ α : Type} {o : Option α} {a : α} {s s' : σ} :
    (M.unwrap o : M ε σ α) s = .ok a s' ↔ o = some a ∧ s = s' := by
  cases o <;> simp

theorem rdDigest_ok {c : Cc} {r r' : Reader} {d : Bytes} :
    rdDigest c r = .ok d r' ↔ c.DigestOk d ∧ r.After d r' := by
  simp only [rdDigest, M.bind_ok, unwrap_ok, rdBytes_ok, Cc.DigestOk]
  constructor
  · rintro ⟨n, t, ⟨h, rfl⟩, h1, h2⟩; exact ⟨by rw [h, h1], h2⟩
  · rintro ⟨h, h2⟩; exact ⟨_, _, ⟨h, rfl⟩, rfl, h2⟩
theorem rdSignature_ok {c : Cc} {r r' : Reader} {d : Bytes} :
    rdSignature c r = .ok d r' ↔ c.SigOk d ∧ r.After d r' := by
  simp only [rdSignature, M.bind_ok, unwrap_ok, rdBytes_ok, Cc.SigOk]
  constructor
  · rintro ⟨n, t, ⟨h, rfl⟩, h1, h2⟩; exact ⟨by rw [h, h1], h2⟩
  · rintro ⟨h, h2⟩; exact ⟨_, _, ⟨h, rfl⟩, rfl, h2⟩
theorem rdDhe_ok {c : Cc} {r r' : Reader} {d : Bytes} :
    rdDhe c r = .ok d r' ↔ c.DheOk d ∧ r.After d r' := by
  simp only [rdDhe, M.bind_ok, unwrap_ok, rdBytes_ok, Cc.DheOk]
  constructor
  · rintro ⟨n, t, ⟨h, rfl⟩, h1, h2⟩; exact ⟨by rw [h, h1], h2⟩
  · rintro ⟨h, h2⟩; exact ⟨_, _, ⟨h, rfl⟩, rfl, h2⟩
theorem rdOpaque_ok {r r' : Reader} {d : Bytes} :
    rdOpaque r = .ok d r' ↔ d.length ≤ 1024 ∧ r.After (opaqueWire d) r' := by
  simp only [rdOpaque, Rd.none, M.bind_ok, M.guard_ok, rdU16_ok, rdBytes_ok, opaqueWire]
  constructor
  · rintro ⟨n, t, h, hn, h1, h2⟩
    have h3 : n = d.length.toUInt16 := by rw [h1]; simp
    have : (1024 : UInt16).toNat = 1024 := by decide
    simp only [gt_iff_lt, UInt16.lt_iff_toNat_lt, ← h1] at hn
    exact ⟨by omega, h3 ▸ h.trans h2⟩
  · rintro ⟨hl, h⟩
    have h1 : d.length.toUInt16.toNat = d.length := by simp; omega
    refine ⟨d.length.toUInt16, ⟨d ++ r'.rest, r.used + 2⟩, ?_, ?_, h1.symm, ?_⟩
    · exact ⟨by rw [h.1]; simp, by simp⟩
    · simp only [gt_iff_lt, UInt16.lt_iff_toNat_lt, h1]
      have : (1024 : UInt16).toNat = 1024 := by decide
      omega
    · exact ⟨rfl, by rw [h.2]; simp [Nat.add_assoc]⟩

/-! ### Measurement blocks and records -/

/-- `SpdmDmtfMeasurementStructure` (protocol/algo.rs:960-975): the type, the representation and the value. -/
structure DmtfMeas where
  type : DmtfMeasurementType
  rep : DmtfRepresentation
  value : Bytes
  deriving Repr, DecidableEq

/-- `SpdmDmtfMeasurementStructure::spdm_encode` (common/spdm_codec.rs:182-204); the checked `u8` addition may panic. -/
def DmtfMeas.encode (m : DmtfMeas) : Enc Nat :=
  if m.type.get.toNat + m.rep.get.toNat > 255 then M.panic
  else Enc.seq [encU8 (m.type.get + m.rep.get), encU16 m.value.length.toUInt16, encBytes m.value]

/-- Type byte of `SpdmDmtfMeasurementStructure::spdm_read` (common/spdm_codec.rs:218-242): 5, 6, 7 only as raw bits. -/
def DmtfMeas.typeOf (rep : DmtfRepresentation) (b : UInt8) : Option DmtfMeasurementType :=
  if b = 5 ∨ b = 6 ∨ b = 7 then (if rep = .rawBit then some (DmtfMeasurementType.ofCode b) else none)
  else some (DmtfMeasurementType.ofCode b)

/-- `SpdmDmtfMeasurementStructure::spdm_read` (common/spdm_codec.rs:205-267); `MAX_SPDM_MEASUREMENT_VALUE_LEN` is 1024. The
branch `_ => return None` of the representation is unreachable (`b & 0x80` is 0 or 0x80). -/
def DmtfMeas.read (c : Cc) : Rd DmtfMeas := do
  let b ← rdU8
  let rep : DmtfRepresentation := if b &&& 0x80 = 0 then .digest else .rawBit
  let type ← M.ofOption () (DmtfMeas.typeOf rep (b &&& 0x7f))
  let n ← rdU16
  if n > 1024 then Rd.none else
  if rep = .digest then do
    let s ← M.unwrap (MeasHash.size? c.neg.measHash)
    if n.toNat ≠ s ∨ c.neg.measHash = MeasHash.rawBit then Rd.none else do
    let v ← rdBytes n.toNat
    pure ⟨type, rep, v⟩
  else do
    let v ← rdBytes n.toNat
    pure ⟨type, rep, v⟩

/-- `SpdmMeasurementBlockStructure` (protocol/algo.rs:985-995): `measurement_specification` is always DMTF in a decoded
block and `measurement_size` is `3 + value_size`, so both are kept as fields. -/
structure MeasBlock where
  index : UInt8
  spec : MeasSpec
  size : UInt16
  meas : DmtfMeas
  deriving Repr, DecidableEq

/-- `SpdmMeasurementBlockStructure::spdm_encode` (common/spdm_codec.rs:272-295). -/
def MeasBlock.encode (b : MeasBlock) : Enc Nat :=
  Enc.seq [encU8 b.index, MeasSpec.encode b.spec, encU16 b.size, b.meas.encode]

/-- `SpdmMeasurementBlockStructure::spdm_read` (common/spdm_codec.rs:296-319). `3 + measurement.value_size` cannot overflow
(`value_size ≤ 1024`). -/
def MeasBlock.read (c : Cc) : Rd MeasBlock := do
  let index ← rdU8
  let spec ← MeasSpec.read
  if spec ≠ MeasSpec.dmtf then Rd.none else do
  let size ← rdU16
  if size > 3 + 1024 then Rd.none else do
  let meas ← DmtfMeas.read c
  if size.toNat ≠ 3 + meas.value.length then Rd.none else
  pure ⟨index, spec, size, meas⟩

/-- Loop of `verify_measurement_record` (common/spdm_codec.rs:85-101). -/
def verifyBlocks (c : Cc) : Nat → UInt8 → Rd Bool
  | 0, _ => do
    let r ← M.get
    pure (!r.anyLeft)
  | n + 1, cur => do
    match ← M.try' (MeasBlock.read c) with
    | .error _ => pure false
    | .ok b => if b.index ≤ cur then pure false else verifyBlocks c n b.index

/-- `SpdmMeasurementRecordStructure` (protocol/algo.rs:1000-1010). -/
structure MeasRecord where
  blocks : UInt8
  data : Bytes
  deriving Repr, DecidableEq

/-- `SpdmMeasurementRecordStructure::spdm_encode` (common/spdm_codec.rs:105-128). -/
def MeasRecord.encode (m : MeasRecord) : Enc Nat :=
  Enc.seq [encU8 m.blocks, encU24 m.data.length.toUInt32, encBytes m.data]

/-- `verify_measurement_record` (common/spdm_codec.rs:81-101) as a step of the reader that called it. -/
def MeasRecord.verify (c : Cc) (m : MeasRecord) : Rd Bool := fun r =>
  match verifyBlocks c m.blocks.toNat 0 (Reader.init m.data) with
  | .ok b _ => .ok b r
  | .err _ _ => .ok false r
  | .panic => .panic

/-- `SpdmMeasurementRecordStructure::spdm_read` (common/spdm_codec.rs:130-157); `MAX_SPDM_MEASUREMENT_RECORD_SIZE` is
4000. -/
def MeasRecord.read (c : Cc) : Rd MeasRecord := do
  let n ← rdU8
  let len ← rdU24
  if len.toNat > 4000 then Rd.none else do
  let d ← rdBytes len.toNat
  let ok ← MeasRecord.verify c ⟨n, d⟩
  if !ok then Rd.none else pure ⟨n, d⟩

/-- Wire image of a measurement value. -/
def DmtfMeas.wire (m : DmtfMeas) : Bytes :=
  [m.type.get + m.rep.get] ++ putU16 m.value.length.toUInt16 ++ m.value
/-- Wire image of a measurement block. -/
def MeasBlock.wire (b : MeasBlock) : Bytes := [b.index, b.spec] ++ putU16 b.size ++ b.meas.wire
/-- Wire image of a measurement record. -/
def MeasRecord.wire (m : MeasRecord) : Bytes := [m.blocks] ++ putU24 m.data.length.toUInt32 ++ m.data

/-- A measurement a conforming responder can send: 7-bit type, one-bit representation, structured types only raw, digest
length as negotiated. -/
def DmtfMeas.WF (c : Cc) (m : DmtfMeas) : Prop :=
  m.type.WF ∧ m.type.get < 0x80 ∧ (m.rep = .digest ∨ m.rep = .rawBit) ∧
  (m.type.get ∈ [5, 6, 7] → m.rep = .rawBit) ∧ m.value.length ≤ 1024 ∧
  (m.rep = .digest → MeasHash.size? c.neg.measHash = some m.value.length ∧ c.neg.measHash ≠ MeasHash.rawBit)

/-- A DMTF block with consistent size. -/
def MeasBlock.WF (c : Cc) (b : MeasBlock) : Prop :=
  b.spec = MeasSpec.dmtf ∧ b.size.toNat = 3 + b.meas.value.length ∧ b.meas.WF c

/-- A record that is the concatenation of well-formed blocks with strictly increasing nonzero indices. -/
def MeasRecord.WF (c : Cc) (m : MeasRecord) : Prop :=
  m.data.length ≤ 4000 ∧ ∃ bs : List MeasBlock, bs.length = m.blocks.toNat ∧ m.data = bs.flatMap MeasBlock.wire ∧
    (∀ b ∈ bs, b.WF c) ∧ (bs.map (·.index)).Pairwise (· < ·) ∧ (∀ b ∈ bs, b.index ≠ 0)

theorem DmtfMeas.encode_writes {c : Cc} {m : DmtfMeas} (h : m.WF c) : Writes m.encode m.wire := by
  obtain ⟨_, h2, h3, _⟩ := h
  have hlt : ¬ (m.type.get.toNat + m.rep.get.toNat > 255) := by
    have : m.type.get.toNat < 128 := by simpa [UInt8.lt_iff_toNat_lt] using h2
    have h4 : m.rep.get.toNat ≤ 0x80 := by rcases h3 with h | h <;> rw [h] <;> decide
    omega
  unfold DmtfMeas.encode
  rw [if_neg hlt]
  apply Writes.cast
  · wr
  simp [DmtfMeas.wire]

theorem MeasBlock.encode_writes {c : Cc} {b : MeasBlock} (h : b.WF c) : Writes b.encode b.wire := by
  have h1 := DmtfMeas.encode_writes h.2.2
  have h2 := MeasSpec.writes b.spec
  unfold MeasBlock.encode
  apply Writes.cast
  · wr
  simp [MeasBlock.wire]

theorem MeasRecord.encode_writes (m : MeasRecord) : Writes m.encode m.wire := by
  unfold MeasRecord.encode
  apply Writes.cast
  · wr
  simp [MeasRecord.wire]

private theorem or_split (t r : UInt8) (ht : t < 0x80) (hr : r = 0 ∨ r = 0x80) :
    (t + r) &&& 0x7f = t ∧ ((t + r) &&& 0x80 = r) := by
  have key : ∀ i : Fin 128, ∀ r : UInt8, (r = 0 ∨ r = 0x80) →
      (UInt8.ofNat i + r) &&& 0x7f = UInt8.ofNat i ∧ ((UInt8.ofNat i + r) &&& 0x80 = r) := by
    intro i r hr
    rcases hr with rfl | rfl
    · revert i; decide
    · revert i; decide
  have h := key ⟨t.toNat, by simpa [UInt8.lt_iff_toNat_lt] using ht⟩ r hr
  simpa using h

theorem DmtfMeas.read_rt {c : Cc} {m : DmtfMeas} (h : m.WF c) : RT (DmtfMeas.read c) m.wire m := by
  obtain ⟨h1, h2, h3, h4, h5, h6⟩ := h
  have hl : m.value.length.toUInt16.toNat = m.value.length := by simp; omega
  have hn : ¬ (m.value.length.toUInt16 > 1024) := by
    simp only [gt_iff_lt, UInt16.lt_iff_toNat_lt, hl]
    have : (1024 : UInt16).toNat = 1024 := by decide
    omega
  have hr : m.rep.get = 0 ∨ m.rep.get = 0x80 := by rcases h3 with h | h <;> rw [h] <;> decide
  obtain ⟨e1, e2⟩ := or_split m.type.get m.rep.get h2 hr
  have hrep : (if (m.type.get + m.rep.get) &&& 0x80 = 0 then DmtfRepresentation.digest else .rawBit) = m.rep := by
    rw [e2]; rcases h3 with h | h <;> rw [h] <;> decide
  have htype : DmtfMeas.typeOf m.rep m.type.get = some m.type := by
    unfold DmtfMeas.typeOf
    have h1' : DmtfMeasurementType.ofCode m.type.get = m.type := h1
    by_cases hb : m.type.get = 5 ∨ m.type.get = 6 ∨ m.type.get = 7
    · rw [if_pos hb, if_pos (h4 (by simpa using hb)), h1']
    · rw [if_neg hb, h1']
  unfold DmtfMeas.read DmtfMeas.wire
  simp only [List.append_assoc]
  refine RT.bind (RT.u8 _) ?_
  simp only [hrep, e1, htype]
  refine RT.bind' (List.nil_append _).symm (a := m.type) (fun _ _ => rfl) ?_
  refine RT.bind (RT.u16 _) (RT.guard hn ?_)
  rw [hl]
  by_cases hd : m.rep = .digest
  · rw [if_pos hd]
    obtain ⟨g1, g2⟩ := h6 hd
    refine RT.bind' (List.nil_append _).symm (RT.unwrap g1) (RT.guard ?_ ?_)
    · rintro (h | h)
      · exact h rfl
      · exact g2 h
    · exact RT.bind' (List.append_nil _).symm (RT.bytes _ rfl) (RT.pure _)
  · rw [if_neg hd]
    exact RT.bind' (List.append_nil _).symm (RT.bytes _ rfl) (RT.pure _)

theorem MeasBlock.read_rt {c : Cc} {b : MeasBlock} (h : b.WF c) : RT (MeasBlock.read c) b.wire b := by
  obtain ⟨h1, h2, h3⟩ := h
  have hv : b.meas.value.length ≤ 1024 := h3.2.2.2.2.1
  unfold MeasBlock.read MeasBlock.wire
  simp only [List.cons_append, List.nil_append]
  refine RT.bind' (w1 := [b.index]) rfl (RT.u8 _) ?_
  refine RT.bind' (w1 := [b.spec]) rfl (a := b.spec) ?_ ?_
  · intro t u
    exact MeasSpec.read_wf (by rw [h1]; decide) t u
  refine RT.guard (by simp [h1]) (RT.bind (RT.u16 _) (RT.guard ?_ ?_))
  · simp only [gt_iff_lt, UInt16.lt_iff_toNat_lt, h2]
    have : (3 + 1024 : UInt16).toNat = 1027 := by decide
    omega
  · refine RT.bind' (List.append_nil _).symm (DmtfMeas.read_rt h3) (RT.guard (by simp [h2]) ?_)
    exact RT.pure _

theorem verifyBlocks_wf {c : Cc} (bs : List MeasBlock) (cur : UInt8) (u : Nat)
    (hw : ∀ b ∈ bs, b.WF c) (hs : (cur :: bs.map (·.index)).Pairwise (· < ·)) :
    ∃ r', verifyBlocks c bs.length cur ⟨bs.flatMap MeasBlock.wire, u⟩ = .ok true r' := by
  induction bs generalizing cur u with
  | nil => exact ⟨_, by simp [verifyBlocks, Reader.anyLeft]; rfl⟩
  | cons b bs ih =>
    have hb := MeasBlock.read_rt (hw b (by simp)) (bs.flatMap MeasBlock.wire) u
    have hlt : ¬ (b.index ≤ cur) := by
      have := (List.pairwise_cons.mp hs).1 b.index (by simp)
      simp only [UInt8.lt_iff_toNat_lt, UInt8.le_iff_toNat_le] at *
      omega
    obtain ⟨r', hr'⟩ := ih b.index (u + b.wire.length) (fun x hx => hw x (by simp [hx]))
      (List.pairwise_cons.mp hs).2
    refine ⟨r', ?_⟩
    simp only [List.length_cons, List.flatMap_cons, verifyBlocks, M.bind_apply, M.try_apply, hb]
    simp [hlt, hr']

theorem MeasRecord.read_rt {c : Cc} {m : MeasRecord} (h : m.WF c) : RT (MeasRecord.read c) m.wire m := by
  obtain ⟨h1, bs, h2, h3, h4, h5, h6⟩ := h
  have hl : m.data.length.toUInt32.toNat = m.data.length := by simp; omega
  unfold MeasRecord.read MeasRecord.wire
  simp only [List.append_assoc]
  refine RT.bind (RT.u8 _) (RT.bind (RT.u24 _ (by omega)) (RT.guard (by omega) ?_))
  rw [hl]
  refine RT.bind' (List.append_nil _).symm (RT.bytes _ rfl) ?_
  refine RT.bind' (List.nil_append _).symm (a := true) ?_ (RT.guard (by simp) (RT.pure _))
  intro t u
  obtain ⟨r', hr'⟩ := verifyBlocks_wf bs 0 0 h4 (by
    rw [List.pairwise_cons]
    refine ⟨?_, h5⟩
    intro a ha
    obtain ⟨b, hb, rfl⟩ := List.mem_map.mp ha
    have := h6 b hb
    have h0 : b.index.toNat ≠ 0 := fun h => this (UInt8.toNat.inj h)
    simp [UInt8.lt_iff_toNat_lt]; omega)
  rw [h2] at hr'
  simp only [MeasRecord.verify, Reader.init, h3, hr']
  simp

theorem DmtfMeas.read_good {c : Cc} (h : (MeasHash.size? c.neg.measHash).isSome) : Rd.Good (DmtfMeas.read c) := by
  have := Rd.Good.unwrap h
  unfold DmtfMeas.read; rd_good

theorem MeasBlock.read_good {c : Cc} (h : (MeasHash.size? c.neg.measHash).isSome) : Rd.Good (MeasBlock.read c) := by
  have := DmtfMeas.read_good h
  have h2 := MeasSpec.good
  unfold MeasBlock.read; rd_good

theorem verifyBlocks_ne_panic {c : Cc} (h : (MeasHash.size? c.neg.measHash).isSome) (n : Nat) (cur : UInt8) (r : Reader) :
    verifyBlocks c n cur r ≠ .panic := by
  induction n generalizing cur r with
  | zero => simp [verifyBlocks]
  | succ n ih =>
    simp only [verifyBlocks, M.bind_apply, M.try_apply]
    rcases MeasBlock.read_good h r with ⟨a, bs, r', h1, _⟩ | ⟨bs, r', h1, _⟩
    · rw [h1]
      simp only []
      by_cases hi : a.index ≤ cur
      · simp [hi]
      · simpa [hi] using ih _ _
    · rw [h1]; simp

theorem MeasRecord.read_good {c : Cc} (h : (MeasHash.size? c.neg.measHash).isSome) : Rd.Good (MeasRecord.read c) := by
  have hv : ∀ m : MeasRecord, Rd.Good (MeasRecord.verify c m) := by
    intro m r
    have hp := verifyBlocks_ne_panic h m.blocks.toNat 0 (Reader.init m.data)
    unfold MeasRecord.verify
    cases hb : verifyBlocks c m.blocks.toNat 0 (Reader.init m.data) with
    | ok b s => exact .inl ⟨b, [], r, rfl, Reader.After.refl r⟩
    | err e s => exact .inl ⟨false, [], r, rfl, Reader.After.refl r⟩
    | panic => exact absurd hb hp
  unfold MeasRecord.read
  refine Rd.Good.bind Rd.Good.u8 fun n => Rd.Good.bind Rd.Good.u24 fun len => Rd.Good.ite Rd.Good.none ?_
  exact Rd.Good.bind (Rd.Good.bytes _) fun d => Rd.Good.bind (hv _) fun ok => Rd.Good.ite Rd.Good.none (Rd.Good.pure _)

theorem MeasRecord.read_ok {c : Cc} {r r' : Reader} {m : MeasRecord} (h : MeasRecord.read c r = .ok m r') :
    m.data.length ≤ 4000 ∧ r.After m.wire r' := by
  simp only [MeasRecord.read, Rd.none, M.bind_ok, M.guard_ok, rdU8_ok, rdU24_ok, rdBytes_ok, M.pure_ok] at h
  obtain ⟨n, t1, h1, len, t2, ⟨hlen, h2⟩, h3, d, t3, ⟨h4, h5⟩, ok, t4, h6, h7, rfl, rfl⟩ := h
  have ht : t3 = t4 := by
    unfold MeasRecord.verify at h6
    cases hb : verifyBlocks c n.toNat 0 (Reader.init d) <;> simp_all
  subst ht
  have he : len = d.length.toUInt32 := by rw [h4]; simp
  refine ⟨by simp; omega, ?_⟩
  have := (h1.trans h2).trans h5
  simpa [MeasRecord.wire, ← he] using this

/-! ### Algorithm structures -/

/-- `SpdmAlg` (protocol/algo.rs:651-658). -/
inductive Alg where
  | dhe (b : Dhe) | aead (b : Aead) | reqAsym (b : ReqAsym) | keySchedule (b : KeySchedule)
  | unknown
  deriving Repr, DecidableEq

/-- `SpdmAlgStruct` (protocol/algo.rs:665-669). -/
structure AlgStruct where
  type : AlgType
  alg : Alg
  deriving Repr, DecidableEq

/-- The encoder of the algorithm bits (protocol/algo.rs:680-697). -/
def Alg.encode : Alg → Enc Nat
  | .dhe b => Dhe.encode b
  | .aead b => Aead.encode b
  | .reqAsym b => ReqAsym.encode b
  | .keySchedule b => KeySchedule.encode b
  | .unknown => pure 0

/-- `SpdmAlgStruct::encode` (protocol/algo.rs:672-699): type, fixed/ext counts `0x20`, bits. -/
def AlgStruct.encode (a : AlgStruct) : Enc Nat := Enc.seq [a.type.encode, encU8 0x20, a.alg.encode]

/-- `SpdmAlgStruct::read` (protocol/algo.rs:701-731). -/
def AlgStruct.read : Rd AlgStruct := do
  let type ← AlgType.read
  let count ← rdU8
  if count >>> 4 ≠ 2 then Rd.none else
  if count &&& 0xF ≠ 0 then Rd.none else
  match type with
  | .dhe => do let b ← Dhe.read; pure ⟨type, .dhe b⟩
  | .aead => do let b ← Aead.read; pure ⟨type, .aead b⟩
  | .reqAsym => do let b ← ReqAsym.read; pure ⟨type, .reqAsym b⟩
  | .keySchedule => do let b ← KeySchedule.read; pure ⟨type, .keySchedule b⟩
  | _ => Rd.none

/-- Type code of an algorithm family on the wire. -/
def Alg.type : Alg → AlgType
  | .dhe _ => .dhe
  | .aead _ => .aead
  | .reqAsym _ => .reqAsym
  | .keySchedule _ => .keySchedule
  | .unknown => .unknown 0
/-- The 16 algorithm bits. -/
def Alg.bits : Alg → UInt16
  | .dhe b => b
  | .aead b => b
  | .reqAsym b => b
  | .keySchedule b => b
  | .unknown => 0
/-- Wire image of an algorithm structure: type, `0x20`, bits. -/
def AlgStruct.wire (a : AlgStruct) : Bytes := [a.type.get, 0x20] ++ putU16 a.alg.bits

/-- Known family, matching type code, only defined algorithm bits. -/
def AlgStruct.WF (a : AlgStruct) : Prop :=
  a.type = a.alg.type ∧ match a.alg with
  | .dhe b => Dhe.WF b
  | .aead b => Aead.WF b
  | .reqAsym b => ReqAsym.WF b
  | .keySchedule b => KeySchedule.WF b
  | .unknown => False

theorem AlgStruct.encode_writes {a : AlgStruct} (h : a.alg ≠ .unknown) : Writes a.encode a.wire := by
  obtain ⟨ty, al⟩ := a
  have h1 := AlgType.writes ty
  have h2 : Writes al.encode (putU16 al.bits) := by
    cases al with
    | dhe b => exact Dhe.writes b
    | aead b => exact Aead.writes b
    | reqAsym b => exact ReqAsym.writes b
    | keySchedule b => exact KeySchedule.writes b
    | unknown => exact absurd rfl h
  unfold AlgStruct.encode
  apply Writes.cast
  · wr
  simp [AlgStruct.wire]

theorem AlgStruct.read_rt {a : AlgStruct} (h : a.WF) : RT AlgStruct.read a.wire a := by
  obtain ⟨ty, al⟩ := a
  obtain ⟨hty, h⟩ := h
  simp only at hty h
  subst hty
  intro t u
  cases al with
  | unknown => exact absurd h id
  | dhe b => simp [AlgStruct.read, AlgStruct.wire, Alg.type, Alg.bits, AlgType.get, AlgType.ofCode, Dhe.read_put, show b &&& Dhe.mask = b from h,
      show (32 : UInt8) >>> 4 = 2 by decide, show (32 : UInt8) &&& 15 = 0 by decide]
  | aead b => simp [AlgStruct.read, AlgStruct.wire, Alg.type, Alg.bits, AlgType.get, AlgType.ofCode, Aead.read_put, show b &&& Aead.mask = b from h,
      show (32 : UInt8) >>> 4 = 2 by decide, show (32 : UInt8) &&& 15 = 0 by decide]
  | reqAsym b => simp [AlgStruct.read, AlgStruct.wire, Alg.type, Alg.bits, AlgType.get, AlgType.ofCode, ReqAsym.read_put, show b &&& ReqAsym.mask = b from h,
      show (32 : UInt8) >>> 4 = 2 by decide, show (32 : UInt8) &&& 15 = 0 by decide]
  | keySchedule b => simp [AlgStruct.read, AlgStruct.wire, Alg.type, Alg.bits, AlgType.get, AlgType.ofCode, KeySchedule.read_put, show b &&& KeySchedule.mask = b from h,
      show (32 : UInt8) >>> 4 = 2 by decide, show (32 : UInt8) &&& 15 = 0 by decide]

theorem AlgStruct.read_good : Rd.Good AlgStruct.read := by
  have h0 := AlgType.good
  have h1 := Dhe.good
  have h2 := Aead.good
  have h3 := ReqAsym.good
  have h4 := KeySchedule.good
  unfold AlgStruct.read; rd_good

theorem AlgStruct.read_wf {r r' : Reader} {a : AlgStruct} (h : AlgStruct.read r = .ok a r') : a.WF := by
  simp only [AlgStruct.read, Rd.none, M.bind_ok, M.guard_ok] at h
  obtain ⟨ty, t, _, cnt, t2, _, _, _, h⟩ := h
  cases ty <;> simp only [M.bind_ok, M.pure_ok, M.fail_ok] at h
  all_goals first
    | exact absurd h id
    | (obtain ⟨b, t3, hb, rfl, _⟩ := h
       first
        | exact ⟨rfl, (Dhe.read_ok hb).1⟩
        | exact ⟨rfl, (Aead.read_ok hb).1⟩
        | exact ⟨rfl, (ReqAsym.read_ok hb).1⟩
        | exact ⟨rfl, (KeySchedule.read_ok hb).1⟩)

/-! ### Optional parts, nonces and the tactics used for the message files -/

/-- A byte string present only under a condition; absent is the empty (default) structure. -/
def rdOpt (b : Bool) (x : Rd Bytes) : Rd Bytes := if b = true then x else pure []
/-- Encoder of an optional part. -/
def encOpt (b : Bool) (e : Enc Nat) : Enc Nat := if b = true then e else pure 0
/-- Wire image of an optional part. -/
def optWire (b : Bool) (d : Bytes) : Bytes := if b = true then d else []
/-- An optional part is either present and right, or absent and empty. -/
def OptOk (b : Bool) (P : Bytes → Prop) (d : Bytes) : Prop := if b = true then P d else d = []

theorem encOpt_writes {b : Bool} {e : Enc Nat} {d : Bytes} (h : b = true → Writes e d) : Writes (encOpt b e) (optWire b d) := by
  cases b
  · exact Writes.pure0
  · exact h rfl
theorem rdOpt_rt {b : Bool} {x : Rd Bytes} {P : Bytes → Prop} {d : Bytes} (h : OptOk b P d) (hx : P d → RT x d d) :
    RT (rdOpt b x) (optWire b d) d := by
  cases b
  · simp only [OptOk] at h; simp at h; subst h; exact RT.pure _
  · exact hx h
theorem rdOpt_good {b : Bool} {x : Rd Bytes} (h : b = true → x.Good) : (rdOpt b x).Good := by
  cases b
  · exact Rd.Good.pure _
  · exact h rfl
theorem rdOpt_ok {b : Bool} {x : Rd Bytes} {P : Bytes → Prop} {d : Bytes} {r r' : Reader} (h : rdOpt b x r = .ok d r')
    (hx : x r = .ok d r' → P d) : OptOk b P d := by
  cases b
  · simp [rdOpt] at h; simp [OptOk, h.1]
  · exact hx h

/-- `SpdmNonceStruct`/`SpdmRandomStruct` codec (protocol/algo.rs:754-795): 32 bytes. -/
def rdNonce : Rd Bytes := rdBytes 32

theorem RT.cast_nil {α : Type} {x : Rd α} {w : Bytes} {a : α} (h : RT x (w ++ []) a) : RT x w a := by simpa using h

/-- Continue under a decoder whose result is known. -/
theorem Reader.Contains.step {α : Type} {x : Rd α} {r r' : Reader} {a : α} {d : Bytes} (h : x r = .ok a r') (hg : x.Good)
    (h' : r'.Contains d) : r.Contains d := by
  obtain ⟨bs, hb⟩ := hg.after h
  exact hb.contains h'

theorem rdBytes_contains {n : Nat} {r r' : Reader} {d : Bytes} (h : rdBytes n r = .ok d r') : d.length = n ∧ r.Contains d := by
  obtain ⟨h1, h2⟩ := rdBytes_ok.mp h
  exact ⟨h1, h2.contains_self⟩

theorem rdOpaque_contains {r r' : Reader} {d : Bytes} (h : rdOpaque r = .ok d r') : d.length ≤ 1024 ∧ r.Contains d := by
  obtain ⟨h1, h2⟩ := rdOpaque_ok.mp h
  refine ⟨h1, putU16 d.length.toUInt16, r'.rest, ?_⟩
  simpa [opaqueWire] using h2.1

/-- Step through a decoder and its wire image in parallel. -/
macro "rt" : tactic => `(tactic|
  repeat (first
    | exact RT.pure _
    | refine RT.bind (by assumption) ?_
    | refine RT.bind (RT.u8 _) ?_ | refine RT.bind (RT.u16 _) ?_ | refine RT.bind (RT.u32 _) ?_
    | refine RT.bind (RT.bytes _ (by assumption)) ?_))

end Verif
