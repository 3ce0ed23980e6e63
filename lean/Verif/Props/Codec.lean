/-
C01, C02, C03: the byte-level reader, writer and integer codecs.
-/
import Verif.Codec.Good

namespace Verif.Props
open Verif

/-! ## C01 reading never goes past the end of the buffer -/

/-- One call on a `Reader`: `take(n)` or `rest()` (every decoder is a sequence of these calls). -/
inductive ReadOp where
  | take (n : Nat)
  | rest
  deriving Repr

/-- One call on the Rust representation (whole buffer + offset). -/
def readStep (op : ReadOp) (r : RustReader) : Option Bytes × RustReader :=
  match op with
  | .take n => r.take n
  | .rest => (some r.rest.1, r.rest.2)

/-- A sequence of calls, whatever the caller does with failures. -/
def readRun : List ReadOp → RustReader → List (Option Bytes) × RustReader
  | [], r => ([], r)
  | op :: ops, r =>
    let s := readStep op r
    let t := readRun ops s.2
    (s.1 :: t.1, t.2)

/-- What the successful calls returned, in order. -/
def delivered (outs : List (Option Bytes)) : Bytes := (outs.filterMap id).flatten

private theorem readRun_inv (ops : List ReadOp) (r : RustReader) (h : r.offs ≤ r.buf.length) :
    (readRun ops r).2.buf = r.buf ∧ (readRun ops r).2.offs ≤ r.buf.length ∧ r.offs ≤ (readRun ops r).2.offs ∧
    r.buf.take r.offs ++ delivered (readRun ops r).1 = r.buf.take (readRun ops r).2.offs := by
  induction ops generalizing r with
  | nil => simp [readRun, delivered, h]
  | cons op ops ih =>
    have step : (readStep op r).2.buf = r.buf ∧ (readStep op r).2.offs ≤ r.buf.length ∧
        r.offs ≤ (readStep op r).2.offs ∧
        r.buf.take r.offs ++ ((readStep op r).1.getD []) = r.buf.take (readStep op r).2.offs := by
      cases op with
      | take n =>
        simp only [readStep, RustReader.take, RustReader.left]
        by_cases hl : r.buf.length - r.offs < n
        · simp [hl, h]
        · simp only [hl, if_false, Option.getD_some, true_and]
          refine ⟨by omega, by omega, ?_⟩
          rw [List.take_add]
      | rest =>
        simp [readStep, RustReader.rest, h]
    obtain ⟨h1, h2, h3, h4⟩ := step
    have hb : (readStep op r).2.offs ≤ (readStep op r).2.buf.length := by rw [h1]; exact h2
    obtain ⟨g1, g2, g3, g4⟩ := ih (readStep op r).2 hb
    simp only [readRun]
    refine ⟨by rw [g1, h1], by rw [h1] at g2; exact g2, by omega, ?_⟩
    rw [h1] at g4
    rw [← g4, ← h4, List.append_assoc]
    congr 1
    cases hc : (readStep op r).1 <;> simp [delivered]

/-- **C01**: after any sequence of reads the buffer is unchanged, the offset is inside it and the bytes handed out are, in
order and without gaps, exactly the part of the buffer before the offset. -/
theorem C01_reads_in_order_and_in_bounds (buf : Bytes) (ops : List ReadOp) :
    let res := readRun ops (RustReader.init buf)
    res.2.buf = buf ∧ res.2.offs ≤ buf.length ∧ delivered res.1 = buf.take res.2.offs := by
  have := readRun_inv ops (RustReader.init buf) (Nat.zero_le _)
  exact ⟨this.1, this.2.1, by simpa [RustReader.init] using this.2.2.2⟩

/-- **C01**: a read succeeds exactly when enough bytes are left, and a failed read consumes nothing. -/
theorem C01_take_iff (r : RustReader) (n : Nat) :
    ((∃ bs, (r.take n).1 = some bs) ↔ n ≤ r.buf.length - r.offs) ∧
    ((r.take n).1 = none → (r.take n).2 = r) ∧
    (∀ bs, (r.take n).1 = some bs → bs.length = n ∧ bs = (r.buf.drop r.offs).take n ∧
      (r.take n).2 = { r with offs := r.offs + n }) := by
  unfold RustReader.take RustReader.left
  by_cases h : r.buf.length - r.offs < n
  · simp [h]
  · simp only [h, if_false]
    refine ⟨⟨fun _ => by omega, fun _ => ⟨_, rfl⟩⟩, by simp, ?_⟩
    intro bs hbs
    simp only [Option.some.injEq] at hbs
    subst hbs
    refine ⟨?_, rfl, by simp⟩
    simp; omega

/-- **C01** for the decoders: `Rd.take` is the Rust `take` on the abstraction of the Rust reader, so what is proved about
`Rd` decoders holds for the Rust reader. -/
theorem C01_model_reader_is_rust_reader (r : RustReader) (n : Nat) (h : r.offs ≤ r.buf.length) :
    Rd.take n r.abs = (match (r.take n).1 with
      | some bs => .ok bs (r.take n).2.abs
      | none => .err () (r.take n).2.abs) ∧
    Rd.rest r.abs = .ok r.rest.1 r.rest.2.abs :=
  ⟨(RustReader.take_sim r n h).1.symm, (RustReader.rest_sim r h).symm⟩

/-- **C01** for any decoder that is `Good` (all message decoders are, see `C01_message_decoders` in Props/Messages): the
number of consumed bytes never exceeds the buffer, the unread rest is the corresponding suffix, and no input panics. -/
theorem C01_good_decoder {α : Type} (x : Rd α) (hx : x.Good) (buf : Bytes) :
    x (Reader.init buf) ≠ .panic ∧
    ∀ a r', x (Reader.init buf) = .ok a r' → r'.used ≤ buf.length ∧ r'.rest = buf.drop r'.used := by
  refine ⟨hx.ne_panic _, ?_⟩
  intro a r' h
  obtain ⟨bs, h1, h2⟩ := hx.after h
  simp only [Reader.init] at h1 h2
  subst h1
  simp [h2]

example : (readRun [.take 2, .take 5, .take 1, .rest] (RustReader.init [1, 2, 3, 4])) =
    ([some [1, 2], none, some [3], some [4]], ⟨[1, 2, 3, 4], 4⟩) := by decide

/-! ## C02 encoding never writes past the buffer

Specification of "encodes to `bs`" in terms of the caller's buffer only. -/

/-- `e` behaves as an encoder of the byte string `bs` into a caller-supplied buffer: for every buffer size and previous
content, either everything fits, exactly `bs` is appended and its length is returned, or the call fails, and in both cases
the earlier content is kept, what was added is a prefix of `bs`, and the buffer is not overrun. -/
def EncodesTo (e : Enc Nat) (bs : Bytes) : Prop :=
  ∀ (cap : Nat) (old : Bytes), old.length ≤ cap →
    (old.length + bs.length ≤ cap ∧ e ⟨cap, old⟩ = .ok bs.length ⟨cap, old ++ bs⟩) ∨
    (cap < old.length + bs.length ∧
      ∃ p, p <+: bs ∧ (old ++ p).length ≤ cap ∧ e ⟨cap, old⟩ = .err .bufferFull ⟨cap, old ++ p⟩)

theorem EncodesTo_of_Writes {e : Enc Nat} {bs : Bytes} (h : Writes e bs) : EncodesTo e bs := by
  intro cap old hle
  obtain ⟨h1, h2⟩ := h ⟨cap, old⟩ hle
  by_cases hf : old.length + bs.length ≤ cap
  · exact .inl ⟨hf, h1 hf⟩
  · obtain ⟨p, hp, hl, he⟩ := h2 (by simp only at hf ⊢; omega)
    exact .inr ⟨by omega, p, hp, by simpa using hl, he⟩

/-- **C02** for the writer primitives and integers (messages: Props/Messages). -/
theorem C02_primitive_encoders :
    (∀ v, EncodesTo (encU8 v) [v]) ∧ (∀ v, EncodesTo (encU16 v) (putU16 v)) ∧
    (∀ v, EncodesTo (encU24 v) (putU24 v)) ∧ (∀ v, EncodesTo (encU32 v) (putU32 v)) ∧
    (∀ v, EncodesTo (encU64 v) (putU64 v)) ∧ (∀ bs, EncodesTo (Enc.extend bs) bs) ∧
    (∀ bs, EncodesTo (encBytes bs) bs) :=
  ⟨fun v => EncodesTo_of_Writes (Writes.u8 v), fun v => EncodesTo_of_Writes (Writes.u16 v),
   fun v => EncodesTo_of_Writes (Writes.u24 v), fun v => EncodesTo_of_Writes (Writes.u32 v),
   fun v => EncodesTo_of_Writes (Writes.u64 v), fun v => EncodesTo_of_Writes (Writes.extend v),
   fun v => EncodesTo_of_Writes (Writes.bytes v)⟩

/-- **C02**: encoders compose: fields one after the other. -/
theorem C02_composition {x y : Enc Nat} {a b : Bytes} (hx : Writes x a) (hy : Writes y b) :
    EncodesTo (do let n ← x; let m ← y; pure (n + m)) (a ++ b) :=
  EncodesTo_of_Writes (Writes.seq2 hx hy)

example : encU32 0x01020304 ⟨3, []⟩ = .err .bufferFull ⟨3, [4, 3, 2]⟩ := by decide
example : encU16 0x0102 ⟨3, [9]⟩ = .ok 2 ⟨3, [9, 2, 1]⟩ := by decide

/-! ## C03 integers are little-endian and round-trip -/

/-- Independent meaning of a little-endian byte string. -/
def leValue : Bytes → Nat
  | [] => 0
  | b :: bs => b.toNat + 256 * leValue bs

/-- **C03**: the encoded bytes are the little-endian representation. -/
theorem C03_little_endian :
    (∀ v : UInt16, leValue (putU16 v) = v.toNat) ∧
    (∀ v : UInt32, leValue (putU32 v) = v.toNat) ∧
    (∀ v : UInt64, leValue (putU64 v) = v.toNat) ∧
    (∀ v : UInt32, v.toNat < 2^24 → leValue (putU24 v) = v.toNat) := by
  refine ⟨fun v => ?_, fun v => ?_, fun v => ?_, fun v h => ?_⟩
  · have := decU16_toNat v.toUInt8 (v >>> 8).toUInt8
    rw [dec_putU16] at this
    simp only [putU16, leValue]; omega
  · have := decU32_toNat v.toUInt8 (v >>> 8).toUInt8 (v >>> 16).toUInt8 (v >>> 24).toUInt8
    rw [dec_putU32] at this
    simp only [putU32, leValue]; omega
  · have := decU64_toNat v.toUInt8 (v >>> 8).toUInt8 (v >>> 16).toUInt8 (v >>> 24).toUInt8
      (v >>> 32).toUInt8 (v >>> 40).toUInt8 (v >>> 48).toUInt8 (v >>> 56).toUInt8
    rw [dec_putU64] at this
    simp only [putU64, leValue]; omega
  · have := decU24_toNat v.toUInt8 (v >>> 8).toUInt8 (v >>> 16).toUInt8
    rw [dec_putU24 v h] at this
    simp only [putU24, leValue]; omega

/-- **C03**: decoding the encoding gives the value back, whatever follows, consuming exactly the encoding. -/
theorem C03_round_trip (t : Bytes) (u : Nat) :
    (∀ v : UInt8, rdU8 ⟨[v] ++ t, u⟩ = .ok v ⟨t, u + 1⟩) ∧
    (∀ v : UInt16, rdU16 ⟨putU16 v ++ t, u⟩ = .ok v ⟨t, u + 2⟩) ∧
    (∀ v : UInt32, v.toNat < 2^24 → rdU24 ⟨putU24 v ++ t, u⟩ = .ok v ⟨t, u + 3⟩) ∧
    (∀ v : UInt32, rdU32 ⟨putU32 v ++ t, u⟩ = .ok v ⟨t, u + 4⟩) ∧
    (∀ v : UInt64, rdU64 ⟨putU64 v ++ t, u⟩ = .ok v ⟨t, u + 8⟩) :=
  ⟨fun v => by simp, fun v => rdU16_put v t u, fun v h => rdU24_put v h t u, fun v => rdU32_put v t u,
   fun v => rdU64_put v t u⟩

/-- **C03**: every long enough byte string decodes, to the value of its first bytes, and re-encodes to the same bytes. -/
theorem C03_decode_total (t : Bytes) (u : Nat) :
    (∀ a, ∃ v, rdU8 ⟨a :: t, u⟩ = .ok v ⟨t, u + 1⟩ ∧ [v] = [a]) ∧
    (∀ a b, ∃ v, rdU16 ⟨a :: b :: t, u⟩ = .ok v ⟨t, u + 2⟩ ∧ putU16 v = [a, b] ∧ v.toNat = leValue [a, b]) ∧
    (∀ a b c, ∃ v, rdU24 ⟨a :: b :: c :: t, u⟩ = .ok v ⟨t, u + 3⟩ ∧ putU24 v = [a, b, c] ∧
      v.toNat = leValue [a, b, c]) ∧
    (∀ a b c d, ∃ v, rdU32 ⟨a :: b :: c :: d :: t, u⟩ = .ok v ⟨t, u + 4⟩ ∧ putU32 v = [a, b, c, d] ∧
      v.toNat = leValue [a, b, c, d]) := by
  refine ⟨fun a => ⟨a, by simp⟩, fun a b => ⟨_, rdU16_cons a b t u, putU16_dec a b, ?_⟩,
    fun a b c => ⟨_, rdU24_cons a b c t u, putU24_dec a b c, ?_⟩,
    fun a b c d => ⟨_, rdU32_cons a b c d t u, putU32_dec a b c d, ?_⟩⟩
  · simp only [decU16_toNat, leValue]; omega
  · simp only [decU24_toNat, leValue]; omega
  · simp only [decU32_toNat, leValue]; omega

/-- **C03**, eight-byte case. -/
theorem C03_decode_total_u64 (a b c d e f g h : UInt8) (t : Bytes) (u : Nat) :
    ∃ v, rdU64 ⟨[a, b, c, d, e, f, g, h] ++ t, u⟩ = .ok v ⟨t, u + 8⟩ ∧ putU64 v = [a, b, c, d, e, f, g, h] ∧
      v.toNat = leValue [a, b, c, d, e, f, g, h] := by
  refine ⟨decU64 a b c d e f g h, ?_, putU64_dec _ _ _ _ _ _ _ _, ?_⟩
  · rw [← putU64_dec a b c d e f g h]; exact rdU64_put _ t u
  · simp only [decU64_toNat, leValue]; omega

end Verif.Props
