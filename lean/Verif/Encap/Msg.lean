/-
The messages that carry encapsulated requests and responses (spdmlib/src/message/encapsulated.rs), compiled with the `mut-auth`
feature.
-/
import Verif.Msg.Message

namespace Verif
namespace Encap

/-- `SpdmGetEncapsulatedRequestPayload::spdm_encode` (message/encapsulated.rs:17-26). -/
def encGet : Enc Nat := Enc.seq [encU8 0, encU8 0]
/-- `SpdmGetEncapsulatedRequestPayload::spdm_read` (message/encapsulated.rs:28-36). -/
def rdGet : Rd Unit := do
  let _ ← rdU8
  let _ ← rdU8
  pure ()

/-- `SpdmEncapsulatedRequestPayload::spdm_encode`, `SpdmDeliverEncapsulatedResponsePayload::spdm_encode`
(message/encapsulated.rs:45-57, 75-87): the two are the same, a request number and a zero byte. -/
def encId (id : UInt8) : Enc Nat := Enc.seq [encU8 id, encU8 0]
/-- `SpdmEncapsulatedRequestPayload::spdm_read`, `SpdmDeliverEncapsulatedResponsePayload::spdm_read`
(message/encapsulated.rs:59-67, 89-97). -/
def rdId : Rd UInt8 := do
  let id ← rdU8
  let _ ← rdU8
  pure id

/-- `SpdmEncapsulatedResponseAckPayload` (message/encapsulated.rs:100-105). -/
structure Ack where
  requestId : UInt8
  payload : EncapAckPayload
  ackId : UInt8
  deriving Repr, DecidableEq
/-- `SpdmEncapsulatedResponseAckPayload::spdm_encode` (message/encapsulated.rs:108-135). -/
def Ack.encode (c : Cc) (m : Ack) : Enc Nat :=
  Enc.seq [encU8 m.requestId, m.payload.encode, encOpt c.ge12 (Enc.seq [encU8 m.ackId, encU24 0])]
/-- `SpdmEncapsulatedResponseAckPayload::spdm_read` (message/encapsulated.rs:137-155). -/
def Ack.read (c : Cc) : Rd Ack := do
  let requestId ← rdU8
  let payload ← EncapAckPayload.read
  if c.ge12 = true then do
    let ackId ← rdU8
    let _ ← rdU24
    pure ⟨requestId, payload, ackId⟩
  else pure ⟨requestId, payload, 0⟩
/-- Wire image: request number, payload type and, from version 1.2, the acknowledged number and three zero bytes. -/
def Ack.wire (c : Cc) (m : Ack) : Bytes := [m.requestId, m.payload.get] ++ (if c.ge12 = true then [m.ackId, 0, 0, 0] else [])
/-- A payload type the decoder can produce; before version 1.2 there is no acknowledged number. -/
def Ack.WF (c : Cc) (m : Ack) : Prop := m.payload.WF ∧ (c.ge12 = false → m.ackId = 0)

theorem encGet_writes : Writes encGet [0, 0] := by
  unfold encGet
  apply Writes.cast
  · wr
  rfl
theorem rdGet_good : Rd.Good rdGet := by unfold rdGet; rd_good

theorem encId_writes (id : UInt8) : Writes (encId id) [id, 0] := by
  unfold encId
  apply Writes.cast
  · wr
  rfl
theorem rdId_rt (id : UInt8) : RT rdId [id, 0] id := by
  apply RT.cast_nil
  unfold rdId
  show RT _ (([id] ++ ([0] ++ [])) ++ []) _
  simp only [List.append_assoc]
  rt
theorem rdId_good : Rd.Good rdId := by unfold rdId; rd_good

theorem Ack.encode_writes (c : Cc) (m : Ack) : Writes (m.encode c) (m.wire c) := by
  have a1 := EncapAckPayload.writes m.payload
  have a2 : Writes (encOpt c.ge12 (Enc.seq [encU8 m.ackId, encU24 0])) (optWire c.ge12 [m.ackId, 0, 0, 0]) := by
    refine encOpt_writes fun _ => ?_
    apply Writes.cast
    · wr
    rfl
  unfold Ack.encode
  apply Writes.cast
  · wr
  simp [Ack.wire, optWire]
theorem Ack.read_rt {c : Cc} {m : Ack} (h : m.WF c) : RT (Ack.read c) (m.wire c) m := by
  obtain ⟨h1, h2⟩ := h
  intro t u
  unfold Ack.wire Ack.read
  by_cases g : c.ge12 = true
  · simp only [g, if_true, List.cons_append, List.nil_append]
    rw [M.bind_apply, rdU8_cons]
    dsimp only
    rw [M.bind_apply, EncapAckPayload.read_cons, h1]
    dsimp only
    rw [M.bind_apply, rdU8_cons]
    dsimp only
    rw [M.bind_apply]
    rw [rdU24_cons]
    rfl
  · simp only [g, List.cons_append, List.nil_append]
    rw [M.bind_apply, rdU8_cons]
    dsimp only
    rw [M.bind_apply, EncapAckPayload.read_cons, h1]
    dsimp only
    rw [if_neg (by decide)]
    have := h2 (by simpa using g)
    cases m
    simp at this
    subst this
    rfl
theorem Ack.read_good (c : Cc) : Rd.Good (Ack.read c) := by
  have := EncapAckPayload.good
  unfold Ack.read; rd_good

end Encap
end Verif
