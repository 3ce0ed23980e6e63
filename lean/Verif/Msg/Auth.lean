/-
Authentication messages: DIGESTS, GET_CERTIFICATE/CERTIFICATE, CHALLENGE/CHALLENGE_AUTH, GET_MEASUREMENTS/MEASUREMENTS
(spdmlib/src/message/digest.rs, certificate.rs, challenge.rs, measurement.rs).
-/
import Verif.Msg.Negotiate

namespace Verif

/-! ### DIGESTS -/

/-- Number of bits set among the eight slot bits (message/digest.rs:53-58). -/
def slotCount (m : UInt8) : Nat := ((List.range 8).filter fun i => m &&& ((1 : UInt8) <<< i.toUInt8) ≠ 0).length

/-- `SpdmDigestsResponsePayload` (message/digest.rs:36-40); `digests[..slot count]`. -/
structure Digests where
  slotMask : UInt8
  digests : List Bytes
  deriving Repr, DecidableEq

/-- `SpdmDigestsResponsePayload::spdm_encode` (message/digest.rs:42-66); `digests` are the entries the loop visits. -/
def Digests.encode (c : Cc) (m : Digests) : Enc Nat :=
  Enc.seq [encU8 0, encU8 m.slotMask, encN (encDigest c) (m.digests.take (slotCount m.slotMask))]
/-- `SpdmDigestsResponsePayload::spdm_read` (message/digest.rs:68-88). -/
def Digests.read (c : Cc) : Rd Digests := do
  let _ ← rdU8
  let slotMask ← rdU8
  let digests ← rdN (slotCount slotMask) (rdDigest c)
  pure ⟨slotMask, digests⟩
/-- Wire image: reserved, slot mask, one digest per set bit. -/
def Digests.wire (m : Digests) : Bytes := [0] ++ [m.slotMask] ++ m.digests.flatten
/-- One digest of the negotiated length per set bit of the mask. -/
def Digests.WF (c : Cc) (m : Digests) : Prop := m.digests.length = slotCount m.slotMask ∧ ∀ d ∈ m.digests, c.DigestOk d

theorem Digests.encode_writes {c : Cc} {m : Digests} (h : m.WF c) : Writes (m.encode c) m.wire := by
  have hd : Writes (encN (encDigest c) (m.digests.take (slotCount m.slotMask))) (m.digests.flatMap id) := by
    rw [← h.1, List.take_length]
    exact Writes.repeat _ fun d hd => encDigest_writes (h.2 d hd)
  unfold Digests.encode
  apply Writes.cast
  · wr
  simp [Digests.wire]
theorem Digests.read_rt {c : Cc} {m : Digests} (h : m.WF c) : RT (Digests.read c) m.wire m := by
  have hd : RT (rdN (slotCount m.slotMask) (rdDigest c)) m.digests.flatten m.digests := by
    rw [← h.1]
    simpa using RT.repeat (w := id) m.digests fun d hd => rdDigest_rt (h.2 d hd)
  apply RT.cast_nil
  unfold Digests.read Digests.wire
  simp only [List.append_assoc]
  rt
theorem Digests.read_good {c : Cc} (h : c.hashSize?.isSome) : Rd.Good (Digests.read c) := by
  have := fun n => Rd.Good.repeat (rdDigest_good h) n
  unfold Digests.read
  exact Rd.Good.bind Rd.Good.u8 fun _ => Rd.Good.bind Rd.Good.u8 fun _ => Rd.Good.bind (this _) fun _ => Rd.Good.pure _
theorem Digests.read_wf {c : Cc} {r r' : Reader} {m : Digests} (h : Digests.read c r = .ok m r') : m.WF c := by
  simp only [Digests.read, M.bind_ok, M.pure_ok] at h
  obtain ⟨_, _, _, sm, _, _, ds, _, hd, rfl, rfl⟩ := h
  exact ⟨rdN_length hd, rdN_forall (P := c.DigestOk) (fun _ _ _ h => (rdDigest_ok.mp h).1) hd⟩

/-! ### GET_CERTIFICATE / CERTIFICATE -/

/-- `SpdmGetCertificateRequestPayload` (message/certificate.rs:12-17). -/
structure GetCert where
  slot : UInt8
  offset : UInt16
  length : UInt16
  deriving Repr, DecidableEq
/-- `SpdmGetCertificateRequestPayload::spdm_encode` (message/certificate.rs:19-41). -/
def GetCert.encode (m : GetCert) : Enc Nat := Enc.seq [encU8 m.slot, encU8 0, encU16 m.offset, encU16 m.length]
/-- `SpdmGetCertificateRequestPayload::spdm_read` (message/certificate.rs:43-58). -/
def GetCert.read : Rd GetCert := do
  let slot ← rdU8
  let _ ← rdU8
  let offset ← rdU16
  let length ← rdU16
  pure ⟨slot, offset, length⟩
/-- Wire image: slot, reserved, offset, length. -/
def GetCert.wire (m : GetCert) : Bytes := [m.slot] ++ [0] ++ putU16 m.offset ++ putU16 m.length

theorem GetCert.encode_writes (m : GetCert) : Writes m.encode m.wire := by
  unfold GetCert.encode
  apply Writes.cast
  · wr
  simp [GetCert.wire]
theorem GetCert.read_rt (m : GetCert) : RT GetCert.read m.wire m := by
  apply RT.cast_nil
  unfold GetCert.read GetCert.wire
  simp only [List.append_assoc]
  rt
theorem GetCert.read_good : Rd.Good GetCert.read := by unfold GetCert.read; rd_good

/-- `SpdmCertificateResponsePayload` (message/certificate.rs:61-78). `data` is `cert_chain[..min(portion_length, 512)]`, what
encoding writes and decoding fills. -/
structure CertRsp where
  slot : UInt8
  portion : UInt16
  remainder : UInt16
  data : Bytes
  deriving Repr, DecidableEq
/-- `SpdmCertificateResponsePayload::spdm_encode` (message/certificate.rs:80-107). -/
def CertRsp.encode (m : CertRsp) : Enc Nat :=
  Enc.seq [encU8 m.slot, encU8 0, encU16 m.portion, encU16 m.remainder, encBytes (m.data.take (min m.portion.toNat 512))]
/-- `SpdmCertificateResponsePayload::spdm_read` (message/certificate.rs:109-130): the portion length is not checked against
the 512-byte array; only the first 512 bytes are read. -/
def CertRsp.read : Rd CertRsp := do
  let slot ← rdU8
  let _ ← rdU8
  let portion ← rdU16
  let remainder ← rdU16
  let data ← rdBytes (min portion.toNat 512)
  pure ⟨slot, portion, remainder, data⟩
/-- Wire image: slot, reserved, portion length, remainder length, portion. -/
def CertRsp.wire (m : CertRsp) : Bytes := [m.slot] ++ [0] ++ putU16 m.portion ++ putU16 m.remainder ++ m.data
/-- The portion length is the length of the portion, which fits. -/
def CertRsp.WF (m : CertRsp) : Prop := m.portion.toNat = m.data.length ∧ m.data.length ≤ 512

theorem CertRsp.encode_writes {m : CertRsp} (h : m.WF) : Writes m.encode m.wire := by
  have hm : min m.portion.toNat 512 = m.data.length := by have := h.1; have := h.2; omega
  unfold CertRsp.encode
  rw [hm, List.take_length]
  apply Writes.cast
  · wr
  simp [CertRsp.wire]
theorem CertRsp.read_rt {m : CertRsp} (h : m.WF) : RT CertRsp.read m.wire m := by
  have hm : m.data.length = min m.portion.toNat 512 := by have := h.1; have := h.2; omega
  apply RT.cast_nil
  unfold CertRsp.read CertRsp.wire
  simp only [List.append_assoc]
  rt
theorem CertRsp.read_good : Rd.Good CertRsp.read := by unfold CertRsp.read; rd_good

/-! ### CHALLENGE / CHALLENGE_AUTH -/

/-- Check shared by CHALLENGE, KEY_EXCHANGE and PSK_EXCHANGE (message/challenge.rs:50-67, key_exchange.rs:76-93,
psk_exchange.rs:85-102): `true` is `return None`. -/
def summaryRefused (c : Cc) (t : SummaryHashType) : Bool :=
  match t with
  | .none => false
  | .all | .tcb => !Cap.has c.neg.rspCaps Cap.measSig && !Cap.has c.neg.rspCaps Cap.measNoSig
  | .unknown _ => true

/-- `SpdmChallengeRequestPayload` (message/challenge.rs:15-20). -/
structure Challenge where
  slot : UInt8
  summary : SummaryHashType
  nonce : Bytes
  deriving Repr, DecidableEq
/-- `SpdmChallengeRequestPayload::spdm_encode` (message/challenge.rs:23-42). -/
def Challenge.encode (m : Challenge) : Enc Nat := Enc.seq [encU8 m.slot, m.summary.encode, encBytes m.nonce]
/-- `SpdmChallengeRequestPayload::spdm_read` (message/challenge.rs:44-75). -/
def Challenge.read (c : Cc) : Rd Challenge := do
  let slot ← rdU8
  let summary ← SummaryHashType.read
  if summaryRefused c summary = true then Rd.none else do
  let nonce ← rdNonce
  pure ⟨slot, summary, nonce⟩
/-- Wire image: slot, summary type, nonce. -/
def Challenge.wire (m : Challenge) : Bytes := [m.slot] ++ [m.summary.get] ++ m.nonce
/-- A 32-byte nonce and a summary type the negotiated capabilities allow. -/
def Challenge.WF (c : Cc) (m : Challenge) : Prop :=
  m.nonce.length = 32 ∧ summaryRefused c m.summary = false

theorem summary_wf {c : Cc} {t : SummaryHashType} (h : summaryRefused c t = false) : t.WF := by
  cases t <;> simp_all [summaryRefused, SummaryHashType.WF] <;> decide
theorem SummaryHashType.rt {t : SummaryHashType} (h : t.WF) : RT SummaryHashType.read [t.get] t := by
  intro s u
  have h' : SummaryHashType.ofCode t.get = t := h
  simp [h']

theorem Challenge.encode_writes (m : Challenge) : Writes m.encode m.wire := by
  have := SummaryHashType.writes m.summary
  unfold Challenge.encode
  apply Writes.cast
  · wr
  simp [Challenge.wire]
theorem Challenge.read_rt {c : Cc} {m : Challenge} (h : m.WF c) : RT (Challenge.read c) m.wire m := by
  have h1 := SummaryHashType.rt (summary_wf h.2)
  have h2 : RT rdNonce m.nonce m.nonce := RT.bytes _ h.1
  apply RT.cast_nil
  unfold Challenge.read Challenge.wire
  simp only [List.append_assoc]
  rt
  exact RT.guard (by simp [h.2]) (by rt)
theorem Challenge.read_good (c : Cc) : Rd.Good (Challenge.read c) := by
  have := SummaryHashType.good
  unfold Challenge.read rdNonce; rd_good

/-- `SpdmChallengeAuthResponsePayload` (message/challenge.rs:85-95). -/
structure ChallengeAuth where
  slot : UInt8
  attr : UInt8
  slotMask : UInt8
  certHash : Bytes
  nonce : Bytes
  summary : Bytes
  opaq : Bytes
  signature : Bytes
  deriving Repr, DecidableEq
/-- `SpdmChallengeAuthResponsePayload::spdm_encode` (message/challenge.rs:98-121); the checked `u8` addition of slot and
attribute may panic. -/
def ChallengeAuth.encode (c : Cc) (m : ChallengeAuth) : Enc Nat :=
  if m.slot.toNat + m.attr.toNat > 255 then M.panic else
  Enc.seq [encU8 (m.slot + m.attr), encU8 m.slotMask, encDigest c m.certHash, encBytes m.nonce,
    encOpt c.needSummary (encDigest c m.summary), encOpaque m.opaq, encSignature c m.signature]
/-- `SpdmChallengeAuthResponsePayload::spdm_read` (message/challenge.rs:123-150); `from_bits(param1 & 0xF0)` accepts `0` and
`0x80`. -/
def ChallengeAuth.read (c : Cc) : Rd ChallengeAuth := do
  let p1 ← rdU8
  if ¬ (p1 &&& 0xF0 = 0 ∨ p1 &&& 0xF0 = 0x80) then Rd.none else do
  let slotMask ← rdU8
  let certHash ← rdDigest c
  let nonce ← rdNonce
  let summary ← rdOpt c.needSummary (rdDigest c)
  let opaq ← rdOpaque
  let signature ← rdSignature c
  pure ⟨p1 &&& 0xF, p1 &&& 0xF0, slotMask, certHash, nonce, summary, opaq, signature⟩
/-- Wire image of CHALLENGE_AUTH. -/
def ChallengeAuth.wire (c : Cc) (m : ChallengeAuth) : Bytes :=
  [m.slot + m.attr] ++ [m.slotMask] ++ m.certHash ++ m.nonce ++ optWire c.needSummary m.summary ++ opaqueWire m.opaq ++ m.signature
/-- Field sizes as negotiated; four-bit slot, the only defined attribute bit. -/
def ChallengeAuth.WF (c : Cc) (m : ChallengeAuth) : Prop :=
  m.slot < 16 ∧ (m.attr = 0 ∨ m.attr = 0x80) ∧ c.DigestOk m.certHash ∧ m.nonce.length = 32 ∧
  OptOk c.needSummary c.DigestOk m.summary ∧ m.opaq.length ≤ 1024 ∧ c.SigOk m.signature

private theorem nibbles : ∀ i : Fin 16, ∀ a : UInt8, (a = 0 ∨ a = 0x80) →
    (UInt8.ofNat i + a) &&& 0xF0 = a ∧ (UInt8.ofNat i + a) &&& 0xF = UInt8.ofNat i := by
  intro i a ha
  rcases ha with rfl | rfl <;> revert i <;> decide
private theorem nibbles' {s a : UInt8} (hs : s < 16) (ha : a = 0 ∨ a = 0x80) :
    (s + a) &&& 0xF0 = a ∧ (s + a) &&& 0xF = s := by
  have h := nibbles ⟨s.toNat, by simpa [UInt8.lt_iff_toNat_lt] using hs⟩ a ha
  simpa using h

theorem ChallengeAuth.encode_writes {c : Cc} {m : ChallengeAuth} (h : m.WF c) : Writes (m.encode c) (m.wire c) := by
  obtain ⟨h1, h2, h3, h4, h5, h6, h7⟩ := h
  have a1 := encDigest_writes h3
  have a2 : Writes (encOpt c.needSummary (encDigest c m.summary)) (optWire c.needSummary m.summary) :=
    encOpt_writes fun hb => encDigest_writes (by simpa [OptOk, hb] using h5)
  have a3 := encOpaque_writes m.opaq
  have a4 := encSignature_writes h7
  have hlt : ¬ (m.slot.toNat + m.attr.toNat > 255) := by
    have : m.slot.toNat < 16 := by simpa [UInt8.lt_iff_toNat_lt] using h1
    have h4 : m.attr.toNat ≤ 0x80 := by rcases h2 with h | h <;> rw [h] <;> decide
    omega
  unfold ChallengeAuth.encode
  rw [if_neg hlt]
  apply Writes.cast
  · wr
  simp [ChallengeAuth.wire]
theorem ChallengeAuth.read_rt {c : Cc} {m : ChallengeAuth} (h : m.WF c) : RT (ChallengeAuth.read c) (m.wire c) m := by
  obtain ⟨h1, h2, h3, h4, h5, h6, h7⟩ := h
  have a1 := rdDigest_rt h3
  have a2 : RT rdNonce m.nonce m.nonce := RT.bytes _ h4
  have a3 := rdOpt_rt h5 fun h => rdDigest_rt h
  have a4 := rdOpaque_rt h6
  have a5 := rdSignature_rt h7
  obtain ⟨e1, e2⟩ := nibbles' h1 h2
  apply RT.cast_nil
  unfold ChallengeAuth.read ChallengeAuth.wire
  simp only [List.append_assoc]
  refine RT.bind (RT.u8 _) (RT.guard (by rw [e1]; exact fun h => h h2) ?_)
  rw [e1, e2]
  rt
theorem ChallengeAuth.read_good {c : Cc} (h : c.hashSize?.isSome) (hs : c.asymSize?.isSome) : Rd.Good (ChallengeAuth.read c) := by
  have h1 := rdDigest_good h
  have h2 := rdSignature_good hs
  have h3 := rdOpaque_good
  have h4 : Rd.Good (rdOpt c.needSummary (rdDigest c)) := rdOpt_good fun _ => h1
  unfold ChallengeAuth.read rdNonce; rd_good

/-! ### GET_MEASUREMENTS / MEASUREMENTS -/

/-- `SpdmGetMeasurementsRequestPayload` (message/measurement.rs:54-60). -/
structure GetMeas where
  attr : UInt8
  op : MeasOperation
  nonce : Bytes
  slot : UInt8
  deriving Repr, DecidableEq
/-- SIGNATURE_REQUESTED (message/measurement.rs:23). -/
def GetMeas.signed (m : GetMeas) : Bool := m.attr &&& 1 != 0
/-- `SpdmGetMeasurementsRequestPayload::spdm_encode` (message/measurement.rs:63-95). -/
def GetMeas.encode (c : Cc) (m : GetMeas) : Enc Nat :=
  Enc.seq [encU8 m.attr, m.op.encode,
    if m.attr &&& 1 ≠ 0 then Enc.seq [encBytes m.nonce, if c.ge11 = true then encU8 m.slot else pure 0] else pure 0]
/-- `SpdmGetMeasurementsRequestPayload::spdm_read` (message/measurement.rs:97-128); `from_bits` refuses undefined attribute
bits. -/
def GetMeas.read (c : Cc) : Rd GetMeas := do
  let attr ← rdU8
  if attr > 3 then Rd.none else do
  let op ← MeasOperation.read
  if attr &&& 1 ≠ 0 then do
    let nonce ← rdNonce
    if c.ge11 = true then do
      let slot ← rdU8
      pure ⟨attr, op, nonce, slot⟩
    else pure ⟨attr, op, nonce, 0⟩
  else pure ⟨attr, op, List.replicate 32 0, 0⟩
/-- Wire image: attributes, operation, and when a signature is requested the nonce and (1.1+) the slot. -/
def GetMeas.wire (c : Cc) (m : GetMeas) : Bytes :=
  [m.attr] ++ [m.op.get] ++ (if m.attr &&& 1 ≠ 0 then m.nonce ++ (if c.ge11 = true then [m.slot] else []) else [])
/-- Defined attribute bits; absent fields have their default. -/
def GetMeas.WF (c : Cc) (m : GetMeas) : Prop :=
  m.attr ≤ 3 ∧ m.op.WF ∧ m.nonce.length = 32 ∧
  (m.attr &&& 1 = 0 → m.nonce = List.replicate 32 0 ∧ m.slot = 0) ∧ (c.ge11 = false → m.slot = 0)

theorem GetMeas.encode_writes (c : Cc) (m : GetMeas) : Writes (m.encode c) (m.wire c) := by
  have := MeasOperation.writes m.op
  unfold GetMeas.encode
  apply Writes.cast
  · wr
  simp [GetMeas.wire]
theorem MeasOperation.rt {t : MeasOperation} (h : t.WF) : RT MeasOperation.read [t.get] t := by
  intro s u
  have h' : MeasOperation.ofCode t.get = t := h
  simp [h']
theorem GetMeas.read_rt {c : Cc} {m : GetMeas} (h : m.WF c) : RT (GetMeas.read c) (m.wire c) m := by
  obtain ⟨attr, op, nonce, slot⟩ := m
  obtain ⟨h1, h2, h3, h4, h5⟩ := h
  simp only at h1 h2 h3 h4 h5
  have a1 := MeasOperation.rt h2
  have a2 : RT rdNonce nonce nonce := RT.bytes _ h3
  unfold GetMeas.read GetMeas.wire
  simp only [List.append_assoc]
  refine RT.bind (RT.u8 _) (RT.guard (by simp [UInt8.lt_iff_toNat_lt, UInt8.le_iff_toNat_le] at *; omega) (RT.bind a1 ?_))
  by_cases g : attr &&& 1 = 0
  · obtain ⟨rfl, rfl⟩ := h4 g
    simp only [g, ne_eq, not_true_eq_false, if_false]
    exact RT.pure _
  · simp only [ne_eq, g, not_false_eq_true, if_true]
    refine RT.bind a2 ?_
    by_cases g1 : c.ge11 = true
    · simp only [g1, if_true]
      exact RT.bind' (List.append_nil _).symm (RT.u8 _) (RT.pure _)
    · simp only [g1]
      rw [h5 (by simpa using g1)]
      exact RT.pure _
theorem GetMeas.read_good (c : Cc) : Rd.Good (GetMeas.read c) := by
  have := MeasOperation.good
  unfold GetMeas.read rdNonce; rd_good

/-- `SpdmMeasurementsResponsePayload` (message/measurement.rs:131-140). -/
structure Meas where
  number : UInt8
  changed : UInt8
  slot : UInt8
  record : MeasRecord
  nonce : Bytes
  opaq : Bytes
  signature : Bytes
  deriving Repr, DecidableEq
/-- Parameter 2 of MEASUREMENTS (message/measurement.rs:160-176). -/
def Meas.param2 (c : Cc) (m : Meas) : UInt8 :=
  if c.ge12 = true ∧ c.needSig = true then m.slot ||| m.changed
  else if c.ge11 = true ∧ c.needSig = true then m.slot else 0
/-- `SpdmMeasurementsResponsePayload::spdm_encode` (message/measurement.rs:143-187): a single measurement is announced as
`0`. -/
def Meas.encode (c : Cc) (m : Meas) : Enc Nat :=
  Enc.seq [encU8 (if m.number = 1 then 0 else m.number), encU8 (m.param2 c), m.record.encode, encBytes m.nonce, encOpaque m.opaq,
    encOpt c.needSig (encSignature c m.signature)]
/-- `SpdmMeasurementsResponsePayload::spdm_read` (message/measurement.rs:189-215). -/
def Meas.read (c : Cc) : Rd Meas := do
  let number ← rdU8
  let p2 ← rdU8
  let record ← MeasRecord.read c
  let nonce ← rdNonce
  let opaq ← rdOpaque
  let signature ← rdOpt c.needSig (rdSignature c)
  pure ⟨number, p2 &&& 0x30, p2 &&& 0xF, record, nonce, opaq, signature⟩
/-- Wire image of MEASUREMENTS. -/
def Meas.wire (c : Cc) (m : Meas) : Bytes :=
  [if m.number = 1 then 0 else m.number] ++ [m.param2 c] ++ m.record.wire ++ m.nonce ++ opaqueWire m.opaq ++ optWire c.needSig m.signature
/-- Field sizes as negotiated; parameter 2 carries only what the version has; the count is not 1 (which is written as 0). -/
def Meas.WF (c : Cc) (m : Meas) : Prop :=
  m.number ≠ 1 ∧ m.slot < 16 ∧ m.changed &&& 0x30 = m.changed ∧
  (¬ (c.ge12 = true ∧ c.needSig = true) → m.changed = 0) ∧ (¬ (c.ge11 = true ∧ c.needSig = true) → m.slot = 0) ∧
  m.record.WF c ∧ m.nonce.length = 32 ∧ m.opaq.length ≤ 1024 ∧ OptOk c.needSig c.SigOk m.signature

private theorem orNibbles : ∀ i : Fin 16, ∀ a : UInt8, a &&& 0x30 = a →
    (UInt8.ofNat i ||| a) &&& 0x30 = a ∧ (UInt8.ofNat i ||| a) &&& 0xF = UInt8.ofNat i := by
  intro i a ha
  have : a = 0 ∨ a = 0x10 ∨ a = 0x20 ∨ a = 0x30 := by
    have key : ∀ j : Fin 256, UInt8.ofNat j &&& 0x30 = UInt8.ofNat j →
        UInt8.ofNat j = 0 ∨ UInt8.ofNat j = 0x10 ∨ UInt8.ofNat j = 0x20 ∨ UInt8.ofNat j = 0x30 := by
      set_option maxRecDepth 20000 in decide
    have := key ⟨a.toNat, a.toNat_lt⟩
    simpa using this (by simpa using ha)
  rcases this with rfl | rfl | rfl | rfl <;> revert i <;> decide
theorem Meas.param2_spec {c : Cc} {m : Meas} (h : m.WF c) : m.param2 c &&& 0x30 = m.changed ∧ m.param2 c &&& 0xF = m.slot := by
  obtain ⟨_, h1, h2, h3, h4, _⟩ := h
  have hi : m.slot.toNat < 16 := by simpa [UInt8.lt_iff_toNat_lt] using h1
  have k0 := orNibbles ⟨m.slot.toNat, hi⟩ 0 (by decide)
  have k1 := orNibbles ⟨m.slot.toNat, hi⟩ m.changed h2
  simp only [UInt8.ofNat_toNat, UInt8.or_zero] at k0 k1
  unfold Meas.param2
  by_cases g1 : c.ge12 = true ∧ c.needSig = true
  · simp only [g1]; exact k1
  · rw [if_neg g1, h3 g1]
    by_cases g2 : c.ge11 = true ∧ c.needSig = true
    · rw [if_pos g2]; exact k0
    · rw [if_neg g2, h4 g2]; decide

theorem Meas.encode_writes {c : Cc} {m : Meas} (h : OptOk c.needSig c.SigOk m.signature) : Writes (m.encode c) (m.wire c) := by
  have a1 := MeasRecord.encode_writes m.record
  have a2 := encOpaque_writes m.opaq
  have a3 : Writes (encOpt c.needSig (encSignature c m.signature)) (optWire c.needSig m.signature) :=
    encOpt_writes fun hb => encSignature_writes (by simpa [OptOk, hb] using h)
  unfold Meas.encode
  apply Writes.cast
  · wr
  simp [Meas.wire]
theorem Meas.read_rt {c : Cc} {m : Meas} (h : m.WF c) : RT (Meas.read c) (m.wire c) m := by
  obtain ⟨e1, e2⟩ := Meas.param2_spec h
  obtain ⟨h1, h2, h3, h4, h5, h6, h7, h8, h9⟩ := h
  have a1 := MeasRecord.read_rt h6
  have a2 : RT rdNonce m.nonce m.nonce := RT.bytes _ h7
  have a3 := rdOpaque_rt h8
  have a4 := rdOpt_rt h9 fun h => rdSignature_rt h
  apply RT.cast_nil
  unfold Meas.read Meas.wire
  simp only [List.append_assoc]
  rw [if_neg h1]
  refine RT.bind (RT.u8 _) (RT.bind (RT.u8 _) ?_)
  rw [e1, e2]
  rt
theorem Meas.read_good {c : Cc} (h : (MeasHash.size? c.neg.measHash).isSome) (hs : c.needSig = true → c.asymSize?.isSome) :
    Rd.Good (Meas.read c) := by
  have h1 := MeasRecord.read_good h
  have h3 := rdOpaque_good
  have h4 : Rd.Good (rdOpt c.needSig (rdSignature c)) := rdOpt_good fun hb => rdSignature_good (hs hb)
  unfold Meas.read rdNonce; rd_good

end Verif
