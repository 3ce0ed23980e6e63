/-
Session messages: KEY_EXCHANGE, FINISH, PSK_EXCHANGE, PSK_FINISH, KEY_UPDATE, END_SESSION and their responses, vendor-defined
messages and ERROR (spdmlib/src/message/key_exchange.rs, finish.rs, psk_exchange.rs, psk_finish.rs, key_update.rs,
end_session.rs, vendor.rs, error.rs).
-/
import Verif.Msg.Auth

namespace Verif

theorem len16 {d : Bytes} {k : Nat} (h : d.length ≤ k) (hk : k < 65536) : d.length.toUInt16.toNat = d.length := by
  simp; omega

/-! ### KEY_EXCHANGE -/

/-- `SpdmKeyExchangeRequestPayload` (message/key_exchange.rs:20-29). -/
structure KeyEx where
  summary : SummaryHashType
  slot : UInt8
  reqSession : UInt16
  policy : UInt8
  random : Bytes
  exchange : Bytes
  opaq : Bytes
  deriving Repr, DecidableEq
/-- `SpdmKeyExchangeRequestPayload::spdm_encode` (message/key_exchange.rs:32-69). -/
def KeyEx.encode (c : Cc) (m : KeyEx) : Enc Nat :=
  Enc.seq [m.summary.encode, encU8 m.slot, encU16 m.reqSession, encU8 (if c.ge12 = true then m.policy else 0), encU8 0,
    encBytes m.random, encDhe m.exchange, encOpaque m.opaq]
/-- `SpdmKeyExchangeRequestPayload::spdm_read` (message/key_exchange.rs:71-112). -/
def KeyEx.read (c : Cc) : Rd KeyEx := do
  let summary ← SummaryHashType.read
  if summaryRefused c summary = true then Rd.none else do
  let slot ← rdU8
  let reqSession ← rdU16
  let policy ← rdU8
  let _ ← rdU8
  let random ← rdNonce
  let exchange ← rdDhe c
  let opaq ← rdOpaque
  pure ⟨summary, slot, reqSession, policy, random, exchange, opaq⟩
/-- Wire image of KEY_EXCHANGE. -/
def KeyEx.wire (c : Cc) (m : KeyEx) : Bytes :=
  [m.summary.get] ++ [m.slot] ++ putU16 m.reqSession ++ [if c.ge12 = true then m.policy else 0] ++ [0] ++ m.random ++
  m.exchange ++ opaqueWire m.opaq
/-- Field sizes as negotiated; session policy only from 1.2. -/
def KeyEx.WF (c : Cc) (m : KeyEx) : Prop :=
  summaryRefused c m.summary = false ∧ (c.ge12 = false → m.policy = 0) ∧ m.random.length = 32 ∧ c.DheOk m.exchange ∧
  m.opaq.length ≤ 1024

theorem KeyEx.encode_writes (c : Cc) (m : KeyEx) : Writes (m.encode c) (m.wire c) := by
  have a1 := SummaryHashType.writes m.summary
  have a2 := encDhe_writes m.exchange
  have a3 := encOpaque_writes m.opaq
  unfold KeyEx.encode
  apply Writes.cast
  · wr
  simp [KeyEx.wire]
theorem KeyEx.read_rt {c : Cc} {m : KeyEx} (h : m.WF c) : RT (KeyEx.read c) (m.wire c) m := by
  obtain ⟨h1, h2, h3, h4, h5⟩ := h
  have a1 := SummaryHashType.rt (summary_wf h1)
  have a2 : RT rdNonce m.random m.random := RT.bytes _ h3
  have a3 := rdDhe_rt h4
  have a4 := rdOpaque_rt h5
  have hp : (if c.ge12 = true then m.policy else 0) = m.policy := by
    by_cases g : c.ge12 = true
    · simp [g]
    · simp [g, h2 (by simpa using g)]
  apply RT.cast_nil
  unfold KeyEx.read KeyEx.wire
  simp only [List.append_assoc]
  rw [hp]
  exact RT.bind a1 (RT.guard (by simp [h1]) (by rt))
theorem KeyEx.read_good {c : Cc} (h : c.dheSize?.isSome) : Rd.Good (KeyEx.read c) := by
  have h0 := SummaryHashType.good
  have h1 := rdDhe_good h
  have h2 := rdOpaque_good
  unfold KeyEx.read rdNonce; rd_good

/-- `SpdmKeyExchangeResponsePayload` (message/key_exchange.rs:136-148). -/
structure KeyExRsp where
  heartbeat : UInt8
  rspSession : UInt16
  mutAuth : UInt8
  reqSlot : UInt8
  random : Bytes
  exchange : Bytes
  summary : Bytes
  opaq : Bytes
  signature : Bytes
  verify : Bytes
  deriving Repr, DecidableEq
/-- `SpdmKeyExchangeResponsePayload::spdm_encode` (message/key_exchange.rs:151-198). -/
def KeyExRsp.encode (c : Cc) (m : KeyExRsp) : Enc Nat :=
  Enc.seq [encU8 m.heartbeat, encU8 0, encU16 m.rspSession, encU8 m.mutAuth, encU8 m.reqSlot, encBytes m.random,
    encDhe m.exchange, encOpt c.needSummary (encDigest c m.summary), encOpaque m.opaq, encSignature c m.signature,
    encOpt (!c.inClear) (encDigest c m.verify)]
/-- `SpdmKeyExchangeResponsePayload::spdm_read` (message/key_exchange.rs:200-254). -/
def KeyExRsp.read (c : Cc) : Rd KeyExRsp := do
  let heartbeat ← rdU8
  let _ ← rdU8
  let rspSession ← rdU16
  let mutAuth ← rdU8
  if mutAuth > 7 then Rd.none else do
  let reqSlot ← rdU8
  if mutAuth ≠ 0 ∧ mutAuth ≠ 1 ∧ mutAuth ≠ 2 ∧ mutAuth ≠ 4 then Rd.none else do
  let random ← rdNonce
  let exchange ← rdDhe c
  let summary ← rdOpt c.needSummary (rdDigest c)
  let opaq ← rdOpaque
  let signature ← rdSignature c
  let verify ← rdOpt (!c.inClear) (rdDigest c)
  pure ⟨heartbeat, rspSession, mutAuth, reqSlot, random, exchange, summary, opaq, signature, verify⟩
/-- Wire image of KEY_EXCHANGE_RSP. -/
def KeyExRsp.wire (c : Cc) (m : KeyExRsp) : Bytes :=
  [m.heartbeat] ++ [0] ++ putU16 m.rspSession ++ [m.mutAuth] ++ [m.reqSlot] ++ m.random ++ m.exchange ++
  optWire c.needSummary m.summary ++ opaqueWire m.opaq ++ m.signature ++ optWire (!c.inClear) m.verify
/-- Field sizes as negotiated; at most one mutual-authentication bit. -/
def KeyExRsp.WF (c : Cc) (m : KeyExRsp) : Prop :=
  (m.mutAuth = 0 ∨ m.mutAuth = 1 ∨ m.mutAuth = 2 ∨ m.mutAuth = 4) ∧ m.random.length = 32 ∧ c.DheOk m.exchange ∧
  OptOk c.needSummary c.DigestOk m.summary ∧ m.opaq.length ≤ 1024 ∧ c.SigOk m.signature ∧
  OptOk (!c.inClear) c.DigestOk m.verify

theorem KeyExRsp.encode_writes {c : Cc} {m : KeyExRsp} (h : m.WF c) : Writes (m.encode c) (m.wire c) := by
  obtain ⟨h1, h2, h3, h4, h5, h6, h7⟩ := h
  have a1 := encDhe_writes m.exchange
  have a2 : Writes (encOpt c.needSummary (encDigest c m.summary)) (optWire c.needSummary m.summary) :=
    encOpt_writes fun hb => encDigest_writes (by simpa [OptOk, hb] using h4)
  have a3 := encOpaque_writes m.opaq
  have a4 := encSignature_writes h6
  have a5 : Writes (encOpt (!c.inClear) (encDigest c m.verify)) (optWire (!c.inClear) m.verify) :=
    encOpt_writes fun hb => encDigest_writes (by simp only [OptOk, hb] at h7; exact h7)
  unfold KeyExRsp.encode
  apply Writes.cast
  · wr
  simp [KeyExRsp.wire]
theorem KeyExRsp.read_rt {c : Cc} {m : KeyExRsp} (h : m.WF c) : RT (KeyExRsp.read c) (m.wire c) m := by
  obtain ⟨h1, h2, h3, h4, h5, h6, h7⟩ := h
  have a1 : RT rdNonce m.random m.random := RT.bytes _ h2
  have a2 := rdDhe_rt h3
  have a3 := rdOpt_rt h4 fun h => rdDigest_rt h
  have a4 := rdOpaque_rt h5
  have a5 := rdSignature_rt h6
  have a6 := rdOpt_rt h7 fun h => rdDigest_rt h
  apply RT.cast_nil
  unfold KeyExRsp.read KeyExRsp.wire
  simp only [List.append_assoc]
  rt
  refine RT.guard ?_ (RT.bind (RT.u8 _) (RT.guard ?_ (by rt)))
  · rcases h1 with h | h | h | h <;> rw [h] <;> decide
  · rcases h1 with h | h | h | h <;> simp [h]
theorem KeyExRsp.read_good {c : Cc} (h : c.hashSize?.isSome) (hs : c.asymSize?.isSome) (hd : c.dheSize?.isSome) :
    Rd.Good (KeyExRsp.read c) := by
  have h1 := rdDigest_good h
  have h2 := rdSignature_good hs
  have h3 := rdOpaque_good
  have h4 : ∀ b, Rd.Good (rdOpt b (rdDigest c)) := fun b => rdOpt_good fun _ => h1
  have h5 := h4 c.needSummary
  have h6 := h4 (!c.inClear)
  have h7 := rdDhe_good hd
  unfold KeyExRsp.read rdNonce; rd_good

/-! ### FINISH -/

/-- `SpdmFinishRequestPayload` (message/finish.rs:32-38). -/
structure Finish where
  attr : UInt8
  reqSlot : UInt8
  signature : Bytes
  verify : Bytes
  deriving Repr, DecidableEq
/-- SIGNATURE_INCLUDED (message/finish.rs:16). -/
def sigIncluded (attr : UInt8) : Bool := attr &&& 1 != 0
/-- `SpdmFinishRequestPayload::spdm_encode` (message/finish.rs:41-63). -/
def Finish.encode (c : Cc) (m : Finish) : Enc Nat :=
  Enc.seq [encU8 m.attr, encU8 m.reqSlot, encOpt (sigIncluded m.attr) (encSignature c m.signature), encDigest c m.verify]
/-- `SpdmFinishRequestPayload::spdm_read` (message/finish.rs:65-83). -/
def Finish.read (c : Cc) : Rd Finish := do
  let attr ← rdU8
  if attr > 1 then Rd.none else do
  let reqSlot ← rdU8
  let signature ← rdOpt (sigIncluded attr) (rdSignature c)
  let verify ← rdDigest c
  pure ⟨attr, reqSlot, signature, verify⟩
/-- Wire image of FINISH. -/
def Finish.wire (m : Finish) : Bytes := [m.attr] ++ [m.reqSlot] ++ optWire (sigIncluded m.attr) m.signature ++ m.verify
/-- Defined attribute bit, signature exactly when announced. -/
def Finish.WF (c : Cc) (m : Finish) : Prop :=
  m.attr ≤ 1 ∧ OptOk (sigIncluded m.attr) c.SigOk m.signature ∧ c.DigestOk m.verify

theorem Finish.encode_writes {c : Cc} {m : Finish} (h : m.WF c) : Writes (m.encode c) m.wire := by
  obtain ⟨h1, h2, h3⟩ := h
  have a1 : Writes (encOpt (sigIncluded m.attr) (encSignature c m.signature)) (optWire (sigIncluded m.attr) m.signature) :=
    encOpt_writes fun hb => encSignature_writes (by simpa [OptOk, hb] using h2)
  have a2 := encDigest_writes h3
  unfold Finish.encode
  apply Writes.cast
  · wr
  simp [Finish.wire]
theorem Finish.read_rt {c : Cc} {m : Finish} (h : m.WF c) : RT (Finish.read c) m.wire m := by
  obtain ⟨h1, h2, h3⟩ := h
  have a1 := rdOpt_rt h2 fun h => rdSignature_rt h
  have a2 := rdDigest_rt h3
  apply RT.cast_nil
  unfold Finish.read Finish.wire
  simp only [List.append_assoc]
  refine RT.bind (RT.u8 _) (RT.guard ?_ (by rt))
  simp [UInt8.lt_iff_toNat_lt, UInt8.le_iff_toNat_le] at *; omega
theorem Finish.read_good {c : Cc} (h : c.hashSize?.isSome) (hs : c.asymSize?.isSome) : Rd.Good (Finish.read c) := by
  have h1 := rdDigest_good h
  have h2 : ∀ b, Rd.Good (rdOpt b (rdSignature c)) := fun b => rdOpt_good fun _ => rdSignature_good hs
  unfold Finish.read
  refine Rd.Good.bind Rd.Good.u8 fun a => Rd.Good.ite Rd.Good.none (Rd.Good.bind Rd.Good.u8 fun _ => Rd.Good.bind (h2 _) fun _ =>
    Rd.Good.bind h1 fun _ => Rd.Good.pure _)

/-- `SpdmFinishResponsePayload::spdm_encode` (message/finish.rs:92-112). The payload is the verify data. -/
def encFinishRsp (c : Cc) (v : Bytes) : Enc Nat := Enc.seq [encU8 0, encU8 0, encOpt c.inClear (encDigest c v)]
/-- `SpdmFinishResponsePayload::spdm_read` (message/finish.rs:114-137). -/
def rdFinishRsp (c : Cc) : Rd Bytes := do
  let _ ← rdU8
  let _ ← rdU8
  let v ← rdOpt c.inClear (rdDigest c)
  pure v
/-- Wire image of FINISH_RSP: verify data only when the handshake was in the clear. -/
def finishRspWire (c : Cc) (v : Bytes) : Bytes := [0] ++ [0] ++ optWire c.inClear v

theorem encFinishRsp_writes {c : Cc} {v : Bytes} (h : OptOk c.inClear c.DigestOk v) : Writes (encFinishRsp c v) (finishRspWire c v) := by
  have a1 : Writes (encOpt c.inClear (encDigest c v)) (optWire c.inClear v) :=
    encOpt_writes fun hb => encDigest_writes (by simpa [OptOk, hb] using h)
  unfold encFinishRsp
  apply Writes.cast
  · wr
  simp [finishRspWire]
theorem rdFinishRsp_rt {c : Cc} {v : Bytes} (h : OptOk c.inClear c.DigestOk v) : RT (rdFinishRsp c) (finishRspWire c v) v := by
  have a1 := rdOpt_rt h fun h => rdDigest_rt h
  apply RT.cast_nil
  unfold rdFinishRsp finishRspWire
  simp only [List.append_assoc]
  rt
  simpa using a1
theorem rdFinishRsp_good {c : Cc} (h : c.hashSize?.isSome) : Rd.Good (rdFinishRsp c) := by
  have h1 : Rd.Good (rdOpt c.inClear (rdDigest c)) := rdOpt_good fun _ => rdDigest_good h
  unfold rdFinishRsp; rd_good

/-! ### PSK_EXCHANGE -/

/-- `SpdmPskExchangeRequestPayload` (message/psk_exchange.rs:16-23). -/
structure PskEx where
  summary : SummaryHashType
  reqSession : UInt16
  hint : Bytes
  context : Bytes
  opaq : Bytes
  deriving Repr, DecidableEq
/-- `SpdmPskExchangeRequestPayload::spdm_encode` (message/psk_exchange.rs:26-78). -/
def PskEx.encode (m : PskEx) : Enc Nat :=
  Enc.seq [m.summary.encode, encU8 0, encU16 m.reqSession, encU16 m.hint.length.toUInt16, encU16 m.context.length.toUInt16,
    encU16 m.opaq.length.toUInt16, encBytes m.hint, encBytes m.context, encBytes m.opaq]
/-- `SpdmPskExchangeRequestPayload::spdm_read` (message/psk_exchange.rs:80-144). -/
def PskEx.read (c : Cc) : Rd PskEx := do
  let summary ← SummaryHashType.read
  if summaryRefused c summary = true then Rd.none else do
  let _ ← rdU8
  let reqSession ← rdU16
  let hl ← rdU16
  if hl.toNat > 32 then Rd.none else do
  let cl ← rdU16
  if cl.toNat > 64 then Rd.none else do
  let ol ← rdU16
  if ol.toNat > 1024 then Rd.none else do
  let hint ← rdBytes hl.toNat
  let context ← rdBytes cl.toNat
  let opaq ← rdBytes ol.toNat
  pure ⟨summary, reqSession, hint, context, opaq⟩
/-- Wire image of PSK_EXCHANGE. -/
def PskEx.wire (m : PskEx) : Bytes :=
  [m.summary.get] ++ [0] ++ putU16 m.reqSession ++ putU16 m.hint.length.toUInt16 ++ putU16 m.context.length.toUInt16 ++
  putU16 m.opaq.length.toUInt16 ++ m.hint ++ m.context ++ m.opaq
/-- Lengths within the fixed storage. -/
def PskEx.WF (c : Cc) (m : PskEx) : Prop :=
  summaryRefused c m.summary = false ∧ m.hint.length ≤ 32 ∧ m.context.length ≤ 64 ∧ m.opaq.length ≤ 1024

theorem PskEx.encode_writes (m : PskEx) : Writes m.encode m.wire := by
  have a1 := SummaryHashType.writes m.summary
  unfold PskEx.encode
  apply Writes.cast
  · wr
  simp [PskEx.wire]
theorem PskEx.read_rt {c : Cc} {m : PskEx} (h : m.WF c) : RT (PskEx.read c) m.wire m := by
  obtain ⟨h1, h2, h3, h4⟩ := h
  have a1 := SummaryHashType.rt (summary_wf h1)
  have l1 := len16 h2 (by omega)
  have l2 := len16 h3 (by omega)
  have l3 := len16 h4 (by omega)
  have l1' := l1.symm
  have l2' := l2.symm
  have l3' := l3.symm
  apply RT.cast_nil
  unfold PskEx.read PskEx.wire
  simp only [List.append_assoc]
  refine RT.bind a1 (RT.guard (by simp [h1]) (RT.bind (RT.u8 _) (RT.bind (RT.u16 _) (RT.bind (RT.u16 _) (RT.guard (by omega)
    (RT.bind (RT.u16 _) (RT.guard (by omega) (RT.bind (RT.u16 _) (RT.guard (by omega) ?_)))))))))
  rt
theorem PskEx.read_good (c : Cc) : Rd.Good (PskEx.read c) := by
  have h0 := SummaryHashType.good
  unfold PskEx.read; rd_good

/-- responder PSK capability without context (message/psk_exchange.rs:175-178). -/
def Cc.pskNoContext (c : Cc) : Bool := Cap.has c.neg.rspCaps Cap.pskNoCtx

/-- `SpdmPskExchangeResponsePayload` (message/psk_exchange.rs:147-155). -/
structure PskExRsp where
  heartbeat : UInt8
  rspSession : UInt16
  summary : Bytes
  context : Bytes
  opaq : Bytes
  verify : Bytes
  deriving Repr, DecidableEq
/-- `SpdmPskExchangeResponsePayload::spdm_encode` (message/psk_exchange.rs:158-212). -/
def PskExRsp.encode (c : Cc) (m : PskExRsp) : Enc Nat :=
  Enc.seq [encU8 m.heartbeat, encU8 0, encU16 m.rspSession, encU16 0,
    encU16 (if c.pskNoContext = true then 0 else m.context.length.toUInt16), encU16 m.opaq.length.toUInt16,
    encOpt c.needSummary (encDigest c m.summary), encOpt (!c.pskNoContext) (encBytes m.context), encBytes m.opaq,
    encDigest c m.verify]
/-- `SpdmPskExchangeResponsePayload::spdm_read` (message/psk_exchange.rs:214-272). -/
def PskExRsp.read (c : Cc) : Rd PskExRsp := do
  let heartbeat ← rdU8
  let _ ← rdU8
  let rspSession ← rdU16
  let _ ← rdU16
  let cl ← rdU16
  if (c.pskNoContext = true ∧ cl ≠ 0) ∨ (¬ c.pskNoContext = true ∧ cl = 0) then Rd.none else do
  if cl.toNat > 64 then Rd.none else do
  let ol ← rdU16
  if ol.toNat > 1024 then Rd.none else do
  let summary ← rdOpt c.needSummary (rdDigest c)
  let context ← rdBytes cl.toNat
  let opaq ← rdBytes ol.toNat
  let verify ← rdDigest c
  pure ⟨heartbeat, rspSession, summary, context, opaq, verify⟩
/-- Wire image of PSK_EXCHANGE_RSP. -/
def PskExRsp.wire (c : Cc) (m : PskExRsp) : Bytes :=
  [m.heartbeat] ++ [0] ++ putU16 m.rspSession ++ putU16 0 ++ putU16 m.context.length.toUInt16 ++ putU16 m.opaq.length.toUInt16 ++
  optWire c.needSummary m.summary ++ m.context ++ m.opaq ++ m.verify
/-- Lengths within the fixed storage; a context exactly when the responder has the context capability. -/
def PskExRsp.WF (c : Cc) (m : PskExRsp) : Prop :=
  OptOk c.needSummary c.DigestOk m.summary ∧ m.context.length ≤ 64 ∧ (c.pskNoContext = true ↔ m.context = []) ∧
  m.opaq.length ≤ 1024 ∧ c.DigestOk m.verify

theorem PskExRsp.encode_writes {c : Cc} {m : PskExRsp} (h : m.WF c) : Writes (m.encode c) (m.wire c) := by
  obtain ⟨h1, h2, h3, h4, h5⟩ := h
  have a1 : Writes (encOpt c.needSummary (encDigest c m.summary)) (optWire c.needSummary m.summary) :=
    encOpt_writes fun hb => encDigest_writes (by simpa [OptOk, hb] using h1)
  have a2 : Writes (encOpt (!c.pskNoContext) (encBytes m.context)) (optWire (!c.pskNoContext) m.context) :=
    encOpt_writes fun hb => Writes.bytes _
  have a3 := encDigest_writes h5
  unfold PskExRsp.encode
  apply Writes.cast
  · wr
  by_cases g : c.pskNoContext = true
  · simp [PskExRsp.wire, g, h3.mp g, optWire]
  · simp [PskExRsp.wire, g, optWire]
theorem PskExRsp.read_rt {c : Cc} {m : PskExRsp} (h : m.WF c) : RT (PskExRsp.read c) (m.wire c) m := by
  obtain ⟨h1, h2, h3, h4, h5⟩ := h
  have a1 := rdOpt_rt h1 fun h => rdDigest_rt h
  have a2 := rdDigest_rt h5
  have l1 := len16 h2 (by omega)
  have l2 := len16 h4 (by omega)
  have l1' := l1.symm
  have l2' := l2.symm
  apply RT.cast_nil
  unfold PskExRsp.read PskExRsp.wire
  simp only [List.append_assoc]
  refine RT.bind (RT.u8 _) (RT.bind (RT.u8 _) (RT.bind (RT.u16 _) (RT.bind (RT.u16 _) (RT.bind (RT.u16 _) (RT.guard ?_ (RT.guard (by omega)
    (RT.bind (RT.u16 _) (RT.guard (by omega) ?_))))))))
  · by_cases g : c.pskNoContext = true
    · simp [g, h3.mp g]
    · have : m.context ≠ [] := fun h => g (h3.mpr h)
      have hl : m.context.length ≠ 0 := by simpa using this
      simp only [g]
      rintro (⟨h, _⟩ | ⟨_, h⟩)
      · exact absurd h (by simp)
      · rw [h] at l1; simp at l1; omega
  · rt
theorem PskExRsp.read_good {c : Cc} (h : c.hashSize?.isSome) : Rd.Good (PskExRsp.read c) := by
  have h1 := rdDigest_good h
  have h2 : Rd.Good (rdOpt c.needSummary (rdDigest c)) := rdOpt_good fun _ => h1
  unfold PskExRsp.read; rd_good

/-! ### PSK_FINISH -/

/-- `SpdmPskFinishRequestPayload::spdm_encode` (message/psk_finish.rs:17-27). -/
def encPskFinish (c : Cc) (v : Bytes) : Enc Nat := Enc.seq [encU8 0, encU8 0, encDigest c v]
/-- `SpdmPskFinishRequestPayload::spdm_read` (message/psk_finish.rs:29-38). -/
def rdPskFinish (c : Cc) : Rd Bytes := do
  let _ ← rdU8
  let _ ← rdU8
  let v ← rdDigest c
  pure v
/-- Wire image of PSK_FINISH. -/
def pskFinishWire (v : Bytes) : Bytes := [0] ++ [0] ++ v
theorem encPskFinish_writes {c : Cc} {v : Bytes} (h : c.DigestOk v) : Writes (encPskFinish c v) (pskFinishWire v) := by
  have a1 := encDigest_writes h
  unfold encPskFinish
  apply Writes.cast
  · wr
  simp [pskFinishWire]
theorem rdPskFinish_rt {c : Cc} {v : Bytes} (h : c.DigestOk v) : RT (rdPskFinish c) (pskFinishWire v) v := by
  have a1 := rdDigest_rt h
  apply RT.cast_nil
  unfold rdPskFinish pskFinishWire
  simp only [List.append_assoc]
  rt
  simpa using a1
theorem rdPskFinish_good {c : Cc} (h : c.hashSize?.isSome) : Rd.Good (rdPskFinish c) := by
  have h1 := rdDigest_good h
  unfold rdPskFinish; rd_good

/-! ### KEY_UPDATE -/

/-- `SpdmKeyUpdateRequestPayload`, `SpdmKeyUpdateResponsePayload` (message/key_update.rs:26-30, 71-75). -/
structure KeyUpd where
  op : KeyUpdateOp
  tag : UInt8
  deriving Repr, DecidableEq
/-- `spdm_encode` of both (message/key_update.rs:33-48, 78-93). -/
def KeyUpd.encode (m : KeyUpd) : Enc Nat := Enc.seq [m.op.encode, encU8 m.tag]
/-- The operation is one of the three defined ones (message/key_update.rs:57-62). -/
def KeyUpdateOp.known : KeyUpdateOp → Bool
  | .unknown _ => false
  | _ => true
/-- `spdm_read` of both (message/key_update.rs:50-68, 95-113). -/
def KeyUpd.read : Rd KeyUpd := do
  let op ← KeyUpdateOp.read
  let tag ← rdU8
  if op.known = false then Rd.none else pure ⟨op, tag⟩
/-- Wire image: operation, tag. -/
def KeyUpd.wire (m : KeyUpd) : Bytes := [m.op.get] ++ [m.tag]
theorem KeyUpd.encode_writes (m : KeyUpd) : Writes m.encode m.wire := by
  have a1 := KeyUpdateOp.writes m.op
  unfold KeyUpd.encode
  apply Writes.cast
  · wr
  simp [KeyUpd.wire]
theorem KeyUpd.read_rt {m : KeyUpd} (h : m.op.known = true) : RT KeyUpd.read m.wire m := by
  have a1 : RT KeyUpdateOp.read [m.op.get] m.op := by
    intro s u
    have h' : KeyUpdateOp.ofCode m.op.get = m.op := by
      cases hm : m.op <;> simp_all [KeyUpdateOp.known] <;> rfl
    simp [h']
  apply RT.cast_nil
  unfold KeyUpd.read KeyUpd.wire
  simp only [List.append_assoc]
  exact RT.bind a1 (RT.bind (RT.u8 _) (RT.guard (by simp [h]) (RT.pure _)))
theorem KeyUpd.read_good : Rd.Good KeyUpd.read := by
  have := KeyUpdateOp.good
  unfold KeyUpd.read; rd_good

/-! ### END_SESSION -/

/-- `SpdmEndSessionRequestPayload::spdm_encode` (message/end_session.rs:35-47); the payload is the attribute byte. -/
def encEndSession (a : UInt8) : Enc Nat := Enc.seq [encU8 a, encU8 0]
/-- `SpdmEndSessionRequestPayload::spdm_read` (message/end_session.rs:49-59). -/
def rdEndSession : Rd UInt8 := do
  let a ← rdU8
  if a > 1 then Rd.none else do
  let _ ← rdU8
  pure a
/-- Wire image: attribute, reserved. -/
def endSessionWire (a : UInt8) : Bytes := [a] ++ [0]
theorem encEndSession_writes (a : UInt8) : Writes (encEndSession a) (endSessionWire a) := by
  unfold encEndSession
  apply Writes.cast
  · wr
  simp [endSessionWire]
theorem rdEndSession_rt {a : UInt8} (h : a ≤ 1) : RT rdEndSession (endSessionWire a) a := by
  apply RT.cast_nil
  unfold rdEndSession endSessionWire
  simp only [List.append_assoc]
  refine RT.bind (RT.u8 _) (RT.guard ?_ (by rt))
  simp [UInt8.lt_iff_toNat_lt, UInt8.le_iff_toNat_le] at *; omega
theorem rdEndSession_good : Rd.Good rdEndSession := by unfold rdEndSession; rd_good

/-! ### Vendor-defined messages -/

/-- `SpdmVendorDefinedRequestPayload`/`SpdmVendorDefinedResponsePayload` (message/vendor.rs:156-161, 205-210). `data` is the
first `min(length, 4087)` bytes of the payload array. -/
structure Vendor where
  standard : RegistryId
  vendorId : Bytes
  length : UInt16
  data : Bytes
  deriving Repr, DecidableEq
/-- `spdm_encode` of both (message/vendor.rs:60-68, 90-102, 126-138, 163-186, 212-235). -/
def Vendor.encode (m : Vendor) : Enc Nat :=
  Enc.seq [encU8 0, encU8 0, m.standard.encode, Enc.seq [encU8 m.vendorId.length.toUInt8, encBytes m.vendorId],
    Enc.seq [encU16 m.length, encBytes (m.data.take (min m.length.toNat 4087))]]
/-- `spdm_read` of both (message/vendor.rs:70-77, 104-117, 140-153, 188-202, 237-251): the payload length is not checked
against the 4087-byte array. -/
def Vendor.read : Rd Vendor := do
  let _ ← rdU8
  let _ ← rdU8
  let standard ← RegistryId.read
  let n ← rdU8
  let vendorId ← rdBytes n.toNat
  let length ← rdU16
  let data ← rdBytes (min length.toNat 4087)
  pure ⟨standard, vendorId, length, data⟩
/-- Wire image of a vendor-defined message. -/
def Vendor.wire (m : Vendor) : Bytes :=
  [0] ++ [0] ++ putU16 m.standard.get ++ [m.vendorId.length.toUInt8] ++ m.vendorId ++ putU16 m.length ++ m.data
/-- Lengths are the lengths of the data, within the fixed storage. -/
def Vendor.WF (m : Vendor) : Prop :=
  m.standard.WF ∧ m.vendorId.length ≤ 255 ∧ m.length.toNat = m.data.length ∧ m.data.length ≤ 4087
theorem Vendor.encode_writes {m : Vendor} (h : m.WF) : Writes m.encode m.wire := by
  have a1 := RegistryId.writes m.standard
  have hm : min m.length.toNat 4087 = m.data.length := by have := h.2.2; omega
  unfold Vendor.encode
  rw [hm, List.take_length]
  apply Writes.cast
  · wr
  simp [Vendor.wire]
theorem Vendor.read_rt {m : Vendor} (h : m.WF) : RT Vendor.read m.wire m := by
  have hm : m.data.length = min m.length.toNat 4087 := by have := h.2.2; omega
  have hl : m.vendorId.length = m.vendorId.length.toUInt8.toNat := by have := h.2.1; simp; omega
  have a1 : RT RegistryId.read (putU16 m.standard.get) m.standard := by
    intro s u
    have h' : RegistryId.ofCode m.standard.get = m.standard := h.1
    have := RegistryId.read_put m.standard h.1 s u
    simpa using this
  apply RT.cast_nil
  unfold Vendor.read Vendor.wire
  simp only [List.append_assoc]
  rt
theorem Vendor.read_good : Rd.Good Vendor.read := by
  have := RegistryId.good
  unfold Vendor.read; rd_good

/-! ### ERROR -/

/-- `SpdmErrorResponseExtData` (message/error.rs:182-187). -/
inductive ErrExt where
  | none
  | notReady (rdtExp reqCode token rdtm : UInt8)
  | vendor (d : Bytes)
  deriving Repr, DecidableEq
/-- `SpdmErrorResponsePayload` (message/error.rs:194-199). -/
structure ErrorRsp where
  code : ErrorCode
  data : UInt8
  ext : ErrExt
  deriving Repr, DecidableEq
/-- `spdm_encode` of the extended data (message/error.rs:47-54, 97-120, 147-156); `data_size ≤ 32`. -/
def ErrExt.encode : ErrExt → Enc Nat
  | .none => pure 0
  | .notReady a b c d => Enc.seq [encU8 a, encU8 b, encU8 c, encU8 d]
  | .vendor d => encBytes d
/-- `SpdmErrorResponsePayload::spdm_encode` (message/error.rs:202-230). -/
def ErrorRsp.encode (m : ErrorRsp) : Enc Nat := Enc.seq [m.code.encode, encU8 m.data, m.ext.encode]
/-- `SpdmErrorResponseVendorExtData::spdm_read` (message/error.rs:158-179): bytes until the input or the array ends. -/
def rdUpTo : Nat → Rd Bytes
  | 0 => pure []
  | n + 1 => do
    match ← M.try' rdU8 with
    | .ok b => do
      let bs ← rdUpTo n
      pure (b :: bs)
    | .error _ => pure []
/-- `SpdmErrorResponsePayload::spdm_read` (message/error.rs:232-262). -/
def ErrorRsp.read : Rd ErrorRsp := do
  let code ← ErrorCode.read
  let data ← rdU8
  match code with
  | .responseNotReady => do
    let a ← rdU8
    let b ← rdU8
    let c ← rdU8
    let d ← rdU8
    pure ⟨code, data, .notReady a b c d⟩
  | .vendorDefined => do
    let d ← rdUpTo 32
    pure ⟨code, data, .vendor d⟩
  | _ => pure ⟨code, data, .none⟩
/-- Wire image of the extended data. -/
def ErrExt.wire : ErrExt → Bytes
  | .none => []
  | .notReady a b c d => [a] ++ [b] ++ [c] ++ [d]
  | .vendor d => d
/-- Wire image of ERROR: code, data, extended data. -/
def ErrorRsp.wire (m : ErrorRsp) : Bytes := [m.code.get] ++ [m.data] ++ m.ext.wire
/-- The extended data is the kind the error code calls for; vendor data fill the fixed storage (vendor data are not
delimited on the wire, see `ErrorRsp.read_rt_vendor`). -/
def ErrorRsp.WF (m : ErrorRsp) : Prop :=
  m.code.WF ∧ match m.ext with
  | .none => m.code ≠ .responseNotReady ∧ m.code ≠ .vendorDefined
  | .notReady _ _ _ _ => m.code = .responseNotReady
  | .vendor d => m.code = .vendorDefined ∧ d.length = 32

theorem ErrorRsp.encode_writes (m : ErrorRsp) : Writes m.encode m.wire := by
  have a1 := ErrorCode.writes m.code
  have a2 : Writes m.ext.encode m.ext.wire := by
    cases m.ext with
    | none => exact Writes.pure0
    | notReady a b c d =>
      unfold ErrExt.encode
      apply Writes.cast
      · wr
      simp [ErrExt.wire]
    | vendor d => exact Writes.bytes d
  unfold ErrorRsp.encode
  apply Writes.cast
  · wr
  simp [ErrorRsp.wire]

theorem rdUpTo_full (d t : Bytes) (u : Nat) : rdUpTo d.length ⟨d ++ t, u⟩ = .ok d ⟨t, u + d.length⟩ := by
  induction d generalizing u with
  | nil => simp [rdUpTo]
  | cons b d ih => simp [rdUpTo, ih]; omega
theorem rdUpTo_end (n : Nat) (d : Bytes) (u : Nat) (h : d.length ≤ n) : rdUpTo n ⟨d, u⟩ = .ok d ⟨[], u + d.length⟩ := by
  induction n generalizing d u with
  | zero => have : d = [] := by simpa using h
            subst this; simp [rdUpTo]
  | succ n ih =>
    cases d with
    | nil => simp [rdUpTo]
    | cons b d => simp at h; simp [rdUpTo, ih d (u + 1) (by omega)]; omega

theorem ErrorCode.rt {t : ErrorCode} (h : t.WF) : RT ErrorCode.read [t.get] t := by
  intro s u
  have h' : ErrorCode.ofCode t.get = t := h
  simp [h']
theorem ErrorRsp.read_rt {m : ErrorRsp} (h : m.WF) : RT ErrorRsp.read m.wire m := by
  obtain ⟨code, data, ext⟩ := m
  obtain ⟨h1, h2⟩ := h
  simp only at h1 h2
  have a1 := ErrorCode.rt h1
  unfold ErrorRsp.read ErrorRsp.wire
  simp only [List.append_assoc]
  refine RT.bind a1 (RT.bind (RT.u8 _) ?_)
  cases ext with
  | none =>
    simp only at h2
    cases code <;> first | exact absurd rfl h2.1 | exact absurd rfl h2.2 | exact RT.pure _
  | notReady a b c d =>
    simp only at h2; subst h2
    exact RT.cast_nil (by simp only [ErrExt.wire, List.append_assoc]; rt)
  | vendor d =>
    obtain ⟨rfl, hl⟩ := h2
    have : RT (rdUpTo 32) d d := by rw [← hl]; exact fun t u => rdUpTo_full d t u
    exact RT.cast_nil (by simp only [ErrExt.wire]; rt)
/-- Vendor extended data of any size are recovered when nothing follows them. -/
theorem ErrorRsp.read_vendor (d : Bytes) (b : UInt8) (h : d.length ≤ 32) :
    ErrorRsp.read (Reader.init (ErrorRsp.wire ⟨.vendorDefined, b, .vendor d⟩)) =
      .ok ⟨.vendorDefined, b, .vendor d⟩ ⟨[], 2 + d.length⟩ := by
  have h0 : ErrorCode.ofCode ErrorCode.vendorDefined.get = .vendorDefined := by decide
  simp [ErrorRsp.read, ErrorRsp.wire, ErrExt.wire, Reader.init, h0, rdUpTo_end 32 d 2 h]

theorem rdUpTo_good (n : Nat) : Rd.Good (rdUpTo n) := by
  induction n with
  | zero => exact Rd.Good.pure _
  | succ n ih =>
    have ht : Rd.Good (M.try' rdU8) := by
      intro r
      rcases Rd.Good.u8 r with ⟨a, bs, r', h, h'⟩ | ⟨bs, r', h, h'⟩
      · exact .inl ⟨.ok a, bs, r', by simp [h], h'⟩
      · exact .inl ⟨.error (), bs, r', by simp [h], h'⟩
    refine Rd.Good.bind ht fun e => ?_
    cases e with
    | ok b => exact Rd.Good.bind ih fun _ => Rd.Good.pure _
    | error e => exact Rd.Good.pure _
theorem ErrorRsp.read_good : Rd.Good ErrorRsp.read := by
  have h1 := ErrorCode.good
  have h2 := rdUpTo_good 32
  unfold ErrorRsp.read; rd_good

theorem rdUpTo_contains {n : Nat} {r r' : Reader} {d : Bytes} (h : rdUpTo n r = .ok d r') : d.length ≤ n ∧ r.After d r' := by
  induction n generalizing r d with
  | zero => simp [rdUpTo] at h; obtain ⟨rfl, rfl⟩ := h; exact ⟨by simp, Reader.After.refl _⟩
  | succ n ih =>
    obtain ⟨bs, u⟩ := r
    cases bs with
    | nil => simp [rdUpTo] at h; obtain ⟨rfl, rfl⟩ := h; exact ⟨by simp, Reader.After.refl _⟩
    | cons b bs =>
      simp only [rdUpTo, M.bind_apply, M.try_apply, rdU8_cons] at h
      cases h2 : rdUpTo n ⟨bs, u + 1⟩ with
      | ok d2 r2 =>
        rw [h2] at h; simp at h
        obtain ⟨rfl, rfl⟩ := h
        obtain ⟨i1, i2⟩ := ih h2
        refine ⟨by simp; omega, ?_⟩
        have : Reader.After ⟨b :: bs, u⟩ [b] ⟨bs, u + 1⟩ := ⟨rfl, rfl⟩
        simpa using this.trans i2
      | err e s => rw [h2] at h; simp at h
      | panic => rw [h2] at h; simp at h

end Verif
