/-
Model of `codec/src/codec.rs`: `Reader`, `Writer` and the integer codecs.
-/
import Verif.Codec.Monad

namespace Verif

/-- Byte strings. -/
abbrev Bytes := List UInt8

/-! ### Reader -/

/-- `Reader { buf, offs }` (codec/src/codec.rs:8-11). Representation: `rest` is `buf[offs..]` and `used` is `offs`; the
bytes already consumed are not observable through a `Reader`.  `RustReader` below keeps the Rust representation and
`RustReader.take_sim`/`RustReader.rest_sim` (Codec/Lemmas.lean) show that the two agree. -/
structure Reader where
  rest : Bytes
  used : Nat
  deriving Repr, DecidableEq

namespace Reader
/-- `Reader::init` (codec/src/codec.rs:14-19). -/
def init (bs : Bytes) : Reader := ⟨bs, 0⟩
/-- `Reader::left` (codec/src/codec.rs:41-43). -/
def left (r : Reader) : Nat := r.rest.length
/-- `Reader::any_left` (codec/src/codec.rs:37-39). -/
def anyLeft (r : Reader) : Bool := decide (0 < r.rest.length)
end Reader

/-- A function reading from a `Reader` and returning `Option<T>`. -/
abbrev Rd (α : Type) := M Unit Reader α

/-- `Reader::take` (codec/src/codec.rs:27-35). -/
def Rd.take (len : Nat) : Rd Bytes := fun r =>
  if r.left < len then .err () r
  else .ok (r.rest.take len) ⟨r.rest.drop len, r.used + len⟩

/-- `Reader::rest` (codec/src/codec.rs:21-25). -/
def Rd.rest : Rd Bytes := fun r => .ok r.rest ⟨[], r.used + r.rest.length⟩

/-- The Rust representation of `Reader` (codec/src/codec.rs:8-11), used only to justify `Reader`. -/
structure RustReader where
  buf : Bytes
  offs : Nat
  deriving Repr, DecidableEq

namespace RustReader
/-- `Reader::init` (codec/src/codec.rs:14-19). -/
def init (bs : Bytes) : RustReader := ⟨bs, 0⟩
/-- `Reader::left` (codec/src/codec.rs:41-43), `usize` subtraction. -/
def left (r : RustReader) : Nat := r.buf.length - r.offs
/-- `Reader::take` (codec/src/codec.rs:27-35). -/
def take (len : Nat) (r : RustReader) : Option Bytes × RustReader :=
  if r.left < len then (none, r)
  else (some ((r.buf.drop r.offs).take len), { r with offs := r.offs + len })
/-- `Reader::rest` (codec/src/codec.rs:21-25). -/
def rest (r : RustReader) : Bytes × RustReader := (r.buf.drop r.offs, { r with offs := r.buf.length })
/-- Abstraction to `Reader`. -/
def abs (r : RustReader) : Reader := ⟨r.buf.drop r.offs, r.offs⟩
end RustReader

/-- `return None`. -/
def Rd.none {α : Type} : Rd α := M.fail ()

/-! ### Integers (little-endian) -/

/-- `u8::read` (codec/src/codec.rs:137-139, decode_u8 128-130). -/
def rdU8 : Rd UInt8 := do
  let b ← Rd.take 1
  match b with
  | [a] => pure a
  | _ => M.panic

/-- `decode_u16` (codec/src/codec.rs:147-149). -/
def decU16 (a b : UInt8) : UInt16 := a.toUInt16 ||| (b.toUInt16 <<< 8)

/-- `u16::read` (codec/src/codec.rs:159-161). -/
def rdU16 : Rd UInt16 := do
  let b ← Rd.take 2
  match b with
  | [a, b] => pure (decU16 a b)
  | _ => M.panic

/-- `u24::decode` (codec/src/codec.rs:179-183), value held in a `u32`. -/
def decU24 (a b c : UInt8) : UInt32 := a.toUInt32 ||| (b.toUInt32 <<< 8) ||| (c.toUInt32 <<< 16)

/-- `u24::read` (codec/src/codec.rs:194-196). -/
def rdU24 : Rd UInt32 := do
  let b ← Rd.take 3
  match b with
  | [a, b, c] => pure (decU24 a b c)
  | _ => M.panic

/-- `decode_u32` (codec/src/codec.rs:199-206). -/
def decU32 (a b c d : UInt8) : UInt32 :=
  a.toUInt32 ||| (b.toUInt32 <<< 8) ||| (c.toUInt32 <<< 16) ||| (d.toUInt32 <<< 24)

/-- `u32::read` (codec/src/codec.rs:217-219). -/
def rdU32 : Rd UInt32 := do
  let b ← Rd.take 4
  match b with
  | [a, b, c, d] => pure (decU32 a b c d)
  | _ => M.panic

/-- `decode_u64` (codec/src/codec.rs:233-244). -/
def decU64 (a b c d e f g h : UInt8) : UInt64 :=
  a.toUInt64 ||| (b.toUInt64 <<< 8) ||| (c.toUInt64 <<< 16) ||| (d.toUInt64 <<< 24) |||
  (e.toUInt64 <<< 32) ||| (f.toUInt64 <<< 40) ||| (g.toUInt64 <<< 48) ||| (h.toUInt64 <<< 56)

/-- `u64::read` (codec/src/codec.rs:254-256). -/
def rdU64 : Rd UInt64 := do
  let b ← Rd.take 8
  match b with
  | [a, b, c, d, e, f, g, h] => pure (decU64 a b c d e f g h)
  | _ => M.panic

/-- `put_u16` (codec/src/codec.rs:142-145). -/
def putU16 (v : UInt16) : Bytes := [v.toUInt8, (v >>> 8).toUInt8]
/-- bytes pushed by `u24::encode` (codec/src/codec.rs:187-192). -/
def putU24 (v : UInt32) : Bytes := [v.toUInt8, (v >>> 8).toUInt8, (v >>> 16).toUInt8]
/-- bytes pushed by `u32::encode` (codec/src/codec.rs:209-215). -/
def putU32 (v : UInt32) : Bytes := [v.toUInt8, (v >>> 8).toUInt8, (v >>> 16).toUInt8, (v >>> 24).toUInt8]
/-- `put_u64` (codec/src/codec.rs:222-231). -/
def putU64 (v : UInt64) : Bytes :=
  [v.toUInt8, (v >>> 8).toUInt8, (v >>> 16).toUInt8, (v >>> 24).toUInt8,
   (v >>> 32).toUInt8, (v >>> 40).toUInt8, (v >>> 48).toUInt8, (v >>> 56).toUInt8]

/-- Read `n` single bytes one after the other (`for d in data.iter_mut().take(n) { *d = u8::read(r)?; }`, the loop that
every fixed-array payload of `spdmlib/src/message` uses). -/
def rdBytes : Nat → Rd Bytes
  | 0 => pure []
  | n + 1 => do
    let b ← rdU8
    let bs ← rdBytes n
    pure (b :: bs)

/-! ### Writer -/

/-- `Writer { buf, offs }` (codec/src/codec.rs:55-58). `out` is `buf[..offs]`, `cap` is `buf.len()`; the bytes of `buf`
after `offs` are not observable through the writer. -/
structure Writer where
  cap : Nat
  out : Bytes
  deriving Repr, DecidableEq

namespace Writer
/-- `Writer::init` (codec/src/codec.rs:61-66). -/
def init (cap : Nat) : Writer := ⟨cap, []⟩
/-- `Writer::left` (codec/src/codec.rs:89-91). -/
def left (w : Writer) : Nat := w.cap - w.out.length
/-- `Writer::used` (codec/src/codec.rs:93-95). -/
def used (w : Writer) : Nat := w.out.length
/-- Invariant kept by every `Writer` operation. -/
def WF (w : Writer) : Prop := w.out.length ≤ w.cap
end Writer

/-- Encoding failure: `EncodeErr` (codec/src/codec.rs:107), which every `spdm_encode` maps to
`SPDM_STATUS_BUFFER_FULL` (`map_err(|_| SPDM_STATUS_BUFFER_FULL)`). `unsupportedCap` is the other status an encoder
returns (spdmlib/src/common/opaque.rs:294), `invalidField`/`invalidState` are returned by a few encoders. -/
inductive EncErr where
  | bufferFull
  | unsupportedCap
  deriving Repr, DecidableEq

/-- A function writing to a `Writer` and returning `Result<T, _>`. -/
abbrev Enc (α : Type) := M EncErr Writer α

/-- `Writer::extend_from_slice` (codec/src/codec.rs:68-78) followed by `.ok_or(EncodeErr)?`. -/
def Enc.extend (bs : Bytes) : Enc Nat := fun w =>
  if w.left < bs.length then .err .bufferFull w
  else .ok bs.length { w with out := w.out ++ bs }

/-- `Writer::push` (codec/src/codec.rs:80-87) followed by `.ok_or(EncodeErr)?`. -/
def Enc.push (b : UInt8) : Enc Nat := fun w =>
  if w.left < 1 then .err .bufferFull w
  else .ok 1 { w with out := w.out ++ [b] }

/-- `u8::encode` (codec/src/codec.rs:133-136). -/
def encU8 (v : UInt8) : Enc Nat := Enc.push v
/-- `u16::encode` (codec/src/codec.rs:152-157): the two bytes are written together or not at all. -/
def encU16 (v : UInt16) : Enc Nat := Enc.extend (putU16 v)
/-- `u24::encode` (codec/src/codec.rs:187-192): three separate pushes. -/
def encU24 (v : UInt32) : Enc Nat := do
  let _ ← Enc.push v.toUInt8
  let _ ← Enc.push (v >>> 8).toUInt8
  let _ ← Enc.push (v >>> 16).toUInt8
  pure 3
/-- `u32::encode` (codec/src/codec.rs:209-215): four separate pushes. -/
def encU32 (v : UInt32) : Enc Nat := do
  let _ ← Enc.push v.toUInt8
  let _ ← Enc.push (v >>> 8).toUInt8
  let _ ← Enc.push (v >>> 16).toUInt8
  let _ ← Enc.push (v >>> 24).toUInt8
  pure 4
/-- `u64::encode` (codec/src/codec.rs:247-252). -/
def encU64 (v : UInt64) : Enc Nat := Enc.extend (putU64 v)

/-- Write bytes one at a time, counting (`for d in data.iter().take(n) { cnt += d.encode(bytes)?; }`). -/
def encBytes : Bytes → Enc Nat
  | [] => pure 0
  | b :: bs => do
    let a ← encU8 b
    let c ← encBytes bs
    pure (a + c)

/-- `cnt += a; cnt += b` -/
def Enc.seq (xs : List (Enc Nat)) : Enc Nat :=
  match xs with
  | [] => pure 0
  | x :: xs => do
    let a ← x
    let b ← Enc.seq xs
    pure (a + b)

end Verif
