/-
PCI DOE transport (pcidoe_transport/src/header.rs).
-/
import Verif.Transport.Basic
import Verif.Codec.Combi

namespace Verif

/-- `PciDoeVendorId` (pcidoe_transport/src/header.rs:10-16). -/
inductive DoeVendor where
  | pciSig
  | unknown (b : UInt16)
  deriving Repr, DecidableEq

/-- `PciDoeDataObjectType` (header.rs:23-31). -/
inductive DoeType where
  | discovery | spdm | securedSpdm
  | unknown (b : UInt8)
  deriving Repr, DecidableEq

namespace DoeVendor
/-- `get_u16` (header.rs:10-16, codec/src/macros.rs). -/
def get : DoeVendor → UInt16
  | .pciSig => 0x0001 | .unknown b => b
/-- decoding (header.rs:10-16, codec/src/macros.rs). -/
def ofCode (b : UInt16) : DoeVendor :=
  match b with
  | 0x0001 => .pciSig | b => .unknown b
end DoeVendor

namespace DoeType
/-- `get_u8` (header.rs:23-31, codec/src/macros.rs). -/
def get : DoeType → UInt8
  | .discovery => 0x00 | .spdm => 0x01 | .securedSpdm => 0x02 | .unknown b => b
/-- decoding (header.rs:23-31, codec/src/macros.rs). -/
def ofCode (b : UInt8) : DoeType :=
  match b with
  | 0x00 => .discovery | 0x01 => .spdm | 0x02 => .securedSpdm | b => .unknown b
end DoeType

/-- `PciDoeMessageHeader` (header.rs:38-43). -/
structure DoeHeader where
  vendor : DoeVendor
  type : DoeType
  payloadLength : UInt32
  deriving Repr, DecidableEq

namespace DoeHeader
/-- The length field: `(payload_length + 8) >> 2` (header.rs:51; the addition wraps in a release build, it panics in a
debug build when `payload_length > 2^32 - 9`). -/
def dwords (h : DoeHeader) : UInt32 := (h.payloadLength + 8) >>> 2

/-- `PciDoeMessageHeader::encode` (header.rs:46-60). -/
def encode (h : DoeHeader) : Enc Nat := Enc.seq
  [ encU16 h.vendor.get, encU8 h.type.get, encU8 0,
    (if h.dwords > 0x40000 then M.panic else encU32 (if h.dwords = 0x40000 then 0 else h.dwords)) ]

/-- `PciDoeMessageHeader::read` (header.rs:62-81). -/
def read : Rd DoeHeader := do
  let v ← rdU16
  let t ← rdU8
  let _ ← rdU8
  let l ← rdU32
  let l := l &&& 0x3ffff
  let l := if l = 0 then 0x40000 else l
  if l < 2 then Rd.none else
  -- `(length << 2).checked_sub(8)?` cannot fail here: 2 ≤ length ≤ 0x40000
  pure ⟨DoeVendor.ofCode v, DoeType.ofCode t, (l <<< 2) - 8⟩
end DoeHeader

namespace PciDoe

/-- payload length rounded up to a multiple of four (header.rs:95). -/
def aligned (n : Nat) : Nat := (n + 3) / 4 * 4

/-- `PciDoeTransportEncap::encap` (header.rs:88-114); padding bytes are not written. -/
def encap (spdm : Bytes) (secured : Bool) : M Status Bytes Nat := do
  let headerSize ← encodeInto .encapFail
    (DoeHeader.encode ⟨.pciSig, if secured then .securedSpdm else .spdm, UInt32.ofNat (aligned spdm.length)⟩)
  let buf ← M.get
  if buf.length < headerSize + aligned spdm.length then M.fail .encapFail else do
    copyAt headerSize spdm
    pure (headerSize + aligned spdm.length)

/-- `PciDoeTransportEncap::decap` (header.rs:116-146). -/
def decap (tb : Bytes) : M Status Bytes (Nat × Bool) := do
  match DoeHeader.read (Reader.init tb) with
  | .panic => M.panic
  | .err _ _ => M.fail .decapFail
  | .ok h r =>
    match h.vendor with
    | .pciSig =>
      match h.type with
      | .spdm => finish r h false
      | .securedSpdm => finish r h true
      | _ => M.fail .decapFail
    | _ => M.fail .decapFail
where
  /-- header.rs:133-145 -/
  finish (r : Reader) (h : DoeHeader) (flag : Bool) : M Status Bytes (Nat × Bool) := do
    let payloadSize := h.payloadLength.toNat
    if tb.length < r.used + payloadSize then M.fail .decapFail else do
    let buf ← M.get
    if buf.length < payloadSize then M.fail .decapFail else do
    copyAt 0 ((tb.drop r.used).take payloadSize)
    pure (payloadSize, flag)

/-- `PciDoeTransportEncap::encap_app` (header.rs:148-156): a plain copy, panicking if the buffer is too small. -/
def encapApp (spdm : Bytes) (_isApp : Bool) : M Status Bytes Nat := do
  copyAt 0 spdm
  pure spdm.length

/-- `PciDoeTransportEncap::decap_app` (header.rs:158-165). -/
def decapApp (ab : Bytes) : M Status Bytes (Nat × Bool) := do
  copyAt 0 ab
  pure (ab.length, false)

/-- The PCI DOE transport; sequence number count and random count from header.rs:167-172. -/
def transport : Transport := ⟨encap, decap, encapApp, decapApp, 0, 0⟩

/-! ### what each function does, in terms of bytes -/

/-- The wire form of the length field for a payload of `n` bytes (`n` a multiple of four, at most 2^20 - 8). -/
def lenField (n : Nat) : UInt32 := if n + 8 = 0x100000 then 0 else UInt32.ofNat ((n + 8) / 4)

/-- The eight header bytes for a payload of `n` bytes. -/
def header (n : Nat) (secured : Bool) : Bytes :=
  [1, 0, (if secured then 2 else 1), 0] ++ putU32 (lenField n)

@[simp] theorem header_length (n : Nat) (s : Bool) : (header n s).length = 8 := rfl

theorem aligned_ge (n : Nat) : n ≤ aligned n := by unfold aligned; omega
theorem aligned_lt (n : Nat) : aligned n < n + 4 := by unfold aligned; omega
theorem aligned_mod (n : Nat) : aligned n % 4 = 0 := by unfold aligned; omega

theorem dwords_toNat {n : Nat} (h : n + 8 ≤ 0x100000) (v : DoeVendor) (t : DoeType) :
    (DoeHeader.dwords ⟨v, t, UInt32.ofNat n⟩).toNat = (n + 8) / 4 := by
  unfold DoeHeader.dwords
  simp only [UInt32.toNat_shiftRight, UInt32.toNat_add, UInt32.toNat_ofNat']
  simp only [UInt32.reduceToNat, Nat.reducePow, Nat.reduceMod, Nat.shiftRight_eq_div_pow]
  omega

theorem header_writes {n : Nat} (h : n + 8 ≤ 0x100000) (hm : n % 4 = 0) (s : Bool) :
    Writes (DoeHeader.encode ⟨.pciSig, if s then .securedSpdm else .spdm, UInt32.ofNat n⟩) (header n s) := by
  have hd := dwords_toNat h .pciSig (if s then .securedSpdm else .spdm)
  unfold DoeHeader.encode
  have hw : Writes (Enc.seq [encU16 DoeVendor.pciSig.get, encU8 (if s then DoeType.securedSpdm else .spdm).get, encU8 0,
      (if DoeHeader.dwords ⟨.pciSig, if s then .securedSpdm else .spdm, UInt32.ofNat n⟩ > 0x40000 then M.panic
       else encU32 (if DoeHeader.dwords ⟨.pciSig, if s then .securedSpdm else .spdm, UInt32.ofNat n⟩ = 0x40000 then 0
        else DoeHeader.dwords ⟨.pciSig, if s then .securedSpdm else .spdm, UInt32.ofNat n⟩))])
      (putU16 1 ++ ([(if s then DoeType.securedSpdm else DoeType.spdm).get] ++ ([0] ++ (putU32 (lenField n) ++ [])))) := by
    apply Writes.seq_cons (Writes.u16 _)
    apply Writes.seq_cons (Writes.u8 _)
    apply Writes.seq_cons (Writes.u8 _)
    apply Writes.seq_cons _ Writes.seq_nil
    apply Writes.guardPanic
    · simp only [gt_iff_lt, UInt32.lt_iff_toNat_lt, hd]
      simp only [UInt32.reduceToNat]; omega
    · refine Writes.cast (Writes.u32 _) ?_
      congr 1
      unfold lenField
      apply UInt32.toNat_inj.mp
      by_cases hc : n + 8 = 0x100000
      · have : DoeHeader.dwords ⟨.pciSig, if s then .securedSpdm else .spdm, UInt32.ofNat n⟩ = 0x40000 := by
          apply UInt32.toNat_inj.mp; rw [hd]; simp; omega
        rw [if_pos this, if_pos hc]
      · have : DoeHeader.dwords ⟨.pciSig, if s then .securedSpdm else .spdm, UInt32.ofNat n⟩ ≠ 0x40000 := by
          intro h'; have := congrArg UInt32.toNat h'; rw [hd] at this; simp at this; omega
        rw [if_neg this, if_neg hc, hd]
        simp; omega
  refine Writes.cast hw ?_
  cases s <;> rfl

theorem encap_eq (p : Bytes) (s : Bool) (buf : Bytes) (hp : aligned p.length + 8 ≤ 0x100000)
    (hb : 8 + aligned p.length ≤ buf.length) :
    encap p s buf = .ok (8 + aligned p.length) (header (aligned p.length) s ++ p ++ buf.drop (8 + p.length)) := by
  have h1 := encodeInto_of_writes (e := .encapFail) (header_writes hp (aligned_mod _) s) buf (by simp; omega)
  have := aligned_ge p.length
  simp only [encap, M.bind_apply, h1, M.get_apply, M.ite_apply, M.fail_apply, M.pure_apply, header_length]
  rw [if_neg (by simp; omega), copyAt_ok (by simp; omega)]
  rw [List.take_left' (header_length _ _), List.drop_append,
    List.drop_eq_nil_of_le (by simp)]
  simp

theorem encap_short (p : Bytes) (s : Bool) (buf : Bytes) (hp : aligned p.length + 8 ≤ 0x100000)
    (hb : buf.length < 8 + aligned p.length) : ∃ buf', encap p s buf = .err .encapFail buf' ∧ buf'.length = buf.length := by
  have hw := header_writes hp (aligned_mod _) s
  by_cases h8 : 8 ≤ buf.length
  · have h1 := encodeInto_of_writes (e := .encapFail) hw buf (by simpa using h8)
    simp only [encap, M.bind_apply, h1, M.get_apply, M.ite_apply, M.fail_apply, M.pure_apply, header_length]
    rw [if_pos (by simp; omega)]
    exact ⟨_, rfl, by simp; omega⟩
  · obtain ⟨b', h1, hl⟩ := encodeInto_of_short (e := .encapFail) hw buf (by simp; omega)
    simp only [encap, M.bind_apply, h1]
    exact ⟨_, rfl, hl⟩

theorem encap_huge (p : Bytes) (s : Bool) (buf : Bytes) (h8 : 8 ≤ buf.length)
    (hp : 0x100000 < aligned p.length + 8) (hp' : aligned p.length < 2 ^ 32 - 8) :
    encap p s buf = .panic := by
  have hd : (DoeHeader.dwords ⟨.pciSig, if s then .securedSpdm else .spdm, UInt32.ofNat (aligned p.length)⟩) > 0x40000 := by
    unfold DoeHeader.dwords
    simp only [gt_iff_lt, UInt32.lt_iff_toNat_lt, UInt32.toNat_shiftRight, UInt32.toNat_add, UInt32.toNat_ofNat']
    simp only [UInt32.reduceToNat, Nat.reducePow, Nat.reduceMod, Nat.shiftRight_eq_div_pow]
    have := aligned_mod p.length
    omega
  have hw : ∀ a b : UInt8, ∀ v : UInt16, Enc.seq [encU16 v, encU8 a, encU8 b, (M.panic : Enc Nat)] (Writer.init buf.length) = .panic := by
    intro a b v
    have h2 : ¬ buf.length < 2 := by omega
    have h3 : ¬ buf.length - 2 < 1 := by omega
    have h4 : ¬ buf.length - 3 < 1 := by omega
    simp [Enc.seq, encU16, encU8, Enc.extend, Enc.push, Writer.left, Writer.init, h2, h3, h4, putU16]
  simp only [encap, M.bind_apply]
  have : encodeInto .encapFail
    (DoeHeader.encode ⟨.pciSig, if s then .securedSpdm else .spdm, UInt32.ofNat (aligned p.length)⟩) buf = .panic := by
    unfold encodeInto DoeHeader.encode
    rw [if_pos hd, hw]
  rw [this]

/-- Payload length denoted by a length field (header.rs:67-75). -/
def declared (l : UInt32) : Nat := if l.toNat % 0x40000 = 0 then 0x100000 - 8 else l.toNat % 0x40000 * 4 - 8

theorem declared_lenField {n : Nat} (h : n + 8 ≤ 0x100000) (hm : n % 4 = 0) : declared (lenField n) = n := by
  unfold declared lenField
  split
  · simp; omega
  · simp only [UInt32.toNat_ofNat']
    rw [Nat.mod_eq_of_lt (a := (n + 8) / 4) (by omega)]
    split <;> omega

theorem read_eq (a b t z : UInt8) (l : UInt32) (rest : Bytes) :
    DoeHeader.read (Reader.init (a :: b :: t :: z :: (putU32 l ++ rest))) =
      if l.toNat % 0x40000 = 1 then .err () ⟨rest, 8⟩
      else .ok ⟨DoeVendor.ofCode (decU16 a b), DoeType.ofCode t, UInt32.ofNat (declared l)⟩ ⟨rest, 8⟩ := by
  have hand : (l &&& 0x3ffff).toNat = l.toNat % 0x40000 := by
    rw [UInt32.toNat_and]
    exact Nat.and_two_pow_sub_one_eq_mod _ 18
  simp only [DoeHeader.read, Reader.init, M.bind_apply, rdU16_cons, rdU8_cons, rdU32_put, M.ite_apply]
  have hlt : ((if l &&& 262143 = 0 then (262144 : UInt32) else l &&& 262143) < 2) ↔ l.toNat % 0x40000 = 1 := by
    rw [UInt32.lt_iff_toNat_lt]
    split
    · rename_i h; have := congrArg UInt32.toNat h; rw [hand] at this; simp at this ⊢; omega
    · rename_i h
      rw [hand]
      have : l.toNat % 0x40000 ≠ 0 := fun h' => h (UInt32.toNat_inj.mp (by rw [hand]; simpa using h'))
      simp; omega
  by_cases h1 : l.toNat % 0x40000 = 1
  · rw [if_pos (hlt.mpr h1), if_pos h1]; rfl
  · rw [if_neg (fun h => h1 (hlt.mp h)), if_neg h1]
    simp only [M.pure_apply]
    congr 2
    apply UInt32.toNat_inj.mp
    have hd : declared l < 2 ^ 32 := by
      unfold declared; split <;> omega
    rw [UInt32.toNat_ofNat', Nat.mod_eq_of_lt hd]
    unfold declared
    by_cases hz : l.toNat % 0x40000 = 0
    · have : l &&& 262143 = 0 := UInt32.toNat_inj.mp (by rw [hand]; simpa using hz)
      rw [if_pos this, if_pos hz]; rfl
    · have : ¬ l &&& 262143 = 0 := fun h => hz (by have := congrArg UInt32.toNat h; rw [hand] at this; simpa using this)
      rw [if_neg this, if_neg hz]
      have hlt4 : l.toNat % 0x40000 < 0x40000 := Nat.mod_lt _ (by decide)
      have hsh : ((l &&& 262143) <<< 2).toNat = l.toNat % 0x40000 * 4 := by
        rw [UInt32.toNat_shiftLeft, hand]
        simp only [UInt32.reduceToNat, Nat.reduceMod, Nat.shiftLeft_eq]
        omega
      rw [UInt32.toNat_sub_of_le, hsh]
      · rfl
      · rw [UInt32.le_iff_toNat_le, hsh]; simp; omega

theorem read_short (tb : Bytes) (h : tb.length < 8) : ∃ r, DoeHeader.read (Reader.init tb) = .err () r := by
  have hg : Rd.Good DoeHeader.read := by unfold DoeHeader.read; rd_good
  match tb, h with
  | [], _ => exact ⟨_, rfl⟩
  | [a], _ => exact ⟨_, rfl⟩
  | [a, b], _ => exact ⟨_, rfl⟩
  | [a, b, c], _ => exact ⟨_, rfl⟩
  | [a, b, c, d], _ => exact ⟨_, rfl⟩
  | [a, b, c, d, e], _ => exact ⟨_, rfl⟩
  | [a, b, c, d, e, f], _ => exact ⟨_, rfl⟩
  | [a, b, c, d, e, f, g], _ => exact ⟨_, rfl⟩

theorem decap_short (tb buf : Bytes) (h : tb.length < 8) : decap tb buf = .err .decapFail buf := by
  obtain ⟨r, hr⟩ := read_short tb h
  simp [decap, hr]

theorem ofCode_vendor {v : UInt16} : DoeVendor.ofCode v = .pciSig ↔ v = 1 := by
  unfold DoeVendor.ofCode; split <;> simp_all
theorem ofCode_spdm {v : UInt8} : DoeType.ofCode v = .spdm ↔ v = 1 := by
  unfold DoeType.ofCode; split <;> simp_all
theorem ofCode_secured {v : UInt8} : DoeType.ofCode v = .securedSpdm ↔ v = 2 := by
  unfold DoeType.ofCode; split <;> simp_all

theorem decap_eq (a b t z : UInt8) (l : UInt32) (rest buf : Bytes) :
    decap (a :: b :: t :: z :: (putU32 l ++ rest)) buf =
      if l.toNat % 0x40000 ≠ 1 ∧ a = 1 ∧ b = 0 ∧ (t = 1 ∨ t = 2) ∧ declared l ≤ rest.length ∧ declared l ≤ buf.length then
        .ok (declared l, t == 2) (rest.take (declared l) ++ buf.drop (declared l))
      else .err .decapFail buf := by
  have hd : declared l < 2 ^ 32 := by unfold declared; split <;> omega
  have hfin : ∀ v t' f, decap.finish (a :: b :: t :: z :: (putU32 l ++ rest)) ⟨rest, 8⟩ ⟨v, t', UInt32.ofNat (declared l)⟩ f buf =
      if declared l ≤ rest.length ∧ declared l ≤ buf.length then
        .ok (declared l, f) (rest.take (declared l) ++ buf.drop (declared l)) else .err .decapFail buf := by
    intro v t' f
    simp only [decap.finish, UInt32.toNat_ofNat', Nat.mod_eq_of_lt hd, M.ite_apply, M.bind_apply, M.get_apply, M.fail_apply,
      M.pure_apply]
    by_cases h1 : declared l ≤ rest.length
    · by_cases h2 : declared l ≤ buf.length
      · rw [if_neg (by simp; omega), if_neg (by omega), if_pos ⟨h1, h2⟩]
        have : (a :: b :: t :: z :: (putU32 l ++ rest)).drop 8 = rest := rfl
        rw [this, copyAt_ok (by simp; omega)]
        simp [Nat.min_eq_left h1]
      · rw [if_neg (by simp; omega), if_pos (by omega), if_neg (by simp [h2])]
    · rw [if_pos (by simp; omega), if_neg (by simp [h1])]
  have hv : DoeVendor.ofCode (decU16 a b) = .pciSig ↔ a = 1 ∧ b = 0 := by
    rw [ofCode_vendor]
    constructor
    · intro h
      have := congrArg UInt16.toNat h
      rw [decU16_toNat] at this
      have ha := a.toNat_lt
      constructor <;> apply UInt8.toNat_inj.mp <;> simp at this ⊢ <;> omega
    · rintro ⟨rfl, rfl⟩; rfl
  unfold decap
  rw [read_eq]
  by_cases h1 : l.toNat % 0x40000 = 1
  · simp [h1]
  · rw [if_neg h1]
    dsimp only
    by_cases hvv : a = 1 ∧ b = 0
    · rw [hv.mpr hvv]
      dsimp only
      by_cases ht1 : t = 1
      · subst ht1
        rw [show DoeType.ofCode 1 = .spdm from rfl]
        dsimp only
        rw [hfin]; simp [h1, hvv]
      · by_cases ht2 : t = 2
        · subst ht2
          rw [show DoeType.ofCode 2 = .securedSpdm from rfl]
          dsimp only
          rw [hfin]; simp [h1, hvv]
        · have h1' := mt ofCode_spdm.mp ht1
          have h2' := mt ofCode_secured.mp ht2
          rw [if_neg (by simp [ht1, ht2])]
          cases hm : DoeType.ofCode t <;> simp_all
    · have hv' := mt hv.mp hvv
      rw [if_neg (fun h => hvv ⟨h.2.1, h.2.2.1⟩)]
      cases hm : DoeVendor.ofCode (decU16 a b) <;> simp_all

end PciDoe
end Verif
