/-
Destination buffers (`&mut [u8]`) and the transport interface.
-/
import Verif.Proto.Status

namespace Verif

/-- `buf[off..off+bs.len()].copy_from_slice(bs)`: overwrite part of a buffer.  Panics if the range does not fit. -/
def copyAt (off : Nat) (bs : Bytes) : M Status Bytes Unit := fun buf =>
  if off + bs.length ≤ buf.length then .ok () (buf.take off ++ bs ++ buf.drop (off + bs.length)) else .panic

/-- `Writer::init(&mut buf)` followed by an encoder, its failure mapped to `e`; the bytes the encoder wrote are in the
buffer even when it failed.  Returns `writer.used()`. -/
def encodeInto (e : Status) (x : Enc Nat) : M Status Bytes Nat := fun buf =>
  match x (Writer.init buf.length) with
  | .ok _ w => .ok w.used (w.out ++ buf.drop w.used)
  | .err _ w => .err e (w.out ++ buf.drop w.used)
  | .panic => .panic

/-- `trait SpdmTransportEncap` (spdmlib/src/common/mod.rs:94-121: `encap`, `decap`,
`encap_app`, `decap_app`, `get_sequence_number_count`, `get_max_random_count`).  The mutable destination buffer is the
state. -/
structure Transport where
  encap : Bytes → Bool → M Status Bytes Nat
  decap : Bytes → M Status Bytes (Nat × Bool)
  encapApp : Bytes → Bool → M Status Bytes Nat
  decapApp : Bytes → M Status Bytes (Nat × Bool)
  seqCount : UInt8
  maxRandom : UInt16

theorem encodeInto_of_writes {e : Status} {x : Enc Nat} {bs : Bytes} (h : Writes x bs) (buf : Bytes)
    (hl : bs.length ≤ buf.length) :
    encodeInto e x buf = .ok bs.length (bs ++ buf.drop bs.length) := by
  have := (h (Writer.init buf.length) (by simp [Writer.WF, Writer.init])).1 (by simpa [Writer.init] using hl)
  unfold encodeInto
  rw [this]
  simp [Writer.init, Writer.used]

theorem encodeInto_of_short {e : Status} {x : Enc Nat} {bs : Bytes} (h : Writes x bs) (buf : Bytes)
    (hl : buf.length < bs.length) :
    ∃ buf', encodeInto e x buf = .err e buf' ∧ buf'.length = buf.length := by
  obtain ⟨p, -, hp, he⟩ := (h (Writer.init buf.length) (by simp [Writer.WF, Writer.init])).2 (by simpa [Writer.init] using hl)
  refine ⟨p ++ buf.drop p.length, ?_, ?_⟩
  · unfold encodeInto
    rw [he]
    simp [Writer.init, Writer.used]
  · simp [Writer.init] at hp ⊢; omega

theorem copyAt_ok {off : Nat} {bs buf : Bytes} (h : off + bs.length ≤ buf.length) :
    copyAt off bs buf = .ok () (buf.take off ++ bs ++ buf.drop (off + bs.length)) := by
  simp [copyAt, h]

end Verif
