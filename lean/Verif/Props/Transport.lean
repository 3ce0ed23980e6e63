/-
C12 (MCTP framing) and C13 (PCI DOE framing).
-/
import Verif.Transport.Mctp
import Verif.Transport.PciDoe

namespace Verif.Props
open Verif

/-- C12: wrapping succeeds exactly when the frame (one type byte + message) fits; then the frame is the MCTP message type
(6 secured, 5 plain) followed by the message, the bytes after the frame are untouched, and the returned size is the frame
size. When it does not fit an error is reported (never a panic). -/
theorem C12_encap (p : Bytes) (secured : Bool) (buf : Bytes) :
    (1 + p.length ≤ buf.length →
      Mctp.encap p secured buf = .ok (1 + p.length) ((if secured then 6 else 5) :: p ++ buf.drop (1 + p.length))) ∧
    (buf.length < 1 + p.length → ∃ buf', Mctp.encap p secured buf = .err .encapFail buf') := by
  rw [Mctp.encap_eq]
  constructor
  · intro h; rw [if_pos h]
  · intro h; rw [if_neg (by omega)]
    cases buf with
    | nil => exact ⟨_, rfl⟩
    | cons => exact ⟨_, rfl⟩

/-- C12: what a receiver accepts: exactly non-empty frames whose type byte is 5 or 6 and whose message fits the caller's
buffer; the message returned is the frame without the type byte, the flag says whether the type byte was 6.  Everything
else is refused with the buffer untouched. -/
theorem C12_decap (frame buf : Bytes) :
    (∃ t m, frame = t :: m ∧ (t = 5 ∨ t = 6) ∧ m.length ≤ buf.length ∧
        Mctp.decap frame buf = .ok (m.length, t == 6) (m ++ buf.drop m.length)) ∨
    ((∀ t m, frame = t :: m → (t = 5 ∨ t = 6) → buf.length < m.length) ∧
        Mctp.decap frame buf = .err .decapFail buf) := by
  cases frame with
  | nil => right; exact ⟨by simp, Mctp.decap_nil buf⟩
  | cons t m =>
    rw [Mctp.decap_cons]
    by_cases h : (t = 5 ∨ t = 6) ∧ m.length ≤ buf.length
    · left; exact ⟨t, m, rfl, h.1, h.2, by rw [if_pos h]⟩
    · right
      refine ⟨?_, by rw [if_neg h]⟩
      rintro t' m' heq ht
      obtain ⟨rfl, rfl⟩ := List.cons.inj heq
      exact Nat.lt_of_not_le fun hl => h ⟨ht, hl⟩

/-- C12: round trip. Whatever the sender wraps, the receiver unwraps to the same message and flag. -/
theorem C12_round_trip (p : Bytes) (secured : Bool) (buf out buf' : Bytes) (n : Nat)
    (h : Mctp.encap p secured buf = .ok n buf') (hout : p.length ≤ out.length) :
    Mctp.decap (buf'.take n) out = .ok (p.length, secured) (p ++ out.drop p.length) := by
  by_cases hl : 1 + p.length ≤ buf.length
  · rw [(C12_encap p secured buf).1 hl] at h
    simp only [Out.ok.injEq] at h
    obtain ⟨rfl, rfl⟩ := h
    have : List.take (1 + p.length) ((if secured then 6 else 5) :: p ++ buf.drop (1 + p.length)) =
        (if secured then 6 else 5) :: p := by
      rw [List.take_left']; simp [Nat.add_comm]
    rw [this, Mctp.decap_cons]
    cases secured <;> simp [hout]
  · obtain ⟨b, hb⟩ := (C12_encap p secured buf).2 (by omega)
    rw [hb] at h; exact absurd h (by simp)

/-- C12, application framing: same three facts for `encap_app`/`decap_app` (type 1 for application data, 5 for SPDM). -/
theorem C12_app_round_trip (p : Bytes) (isApp : Bool) (buf out buf' : Bytes) (n : Nat)
    (h : Mctp.encapApp p isApp buf = .ok n buf') (hout : p.length ≤ out.length) :
    n = 1 + p.length ∧ buf' = (if isApp then 1 else 5) :: p ++ buf.drop (1 + p.length) ∧
    Mctp.decapApp (buf'.take n) out = .ok (p.length, isApp) (p ++ out.drop p.length) := by
  rw [Mctp.encapApp_eq] at h
  by_cases hl : 1 + p.length ≤ buf.length
  · rw [if_pos hl] at h
    simp only [Out.ok.injEq] at h
    obtain ⟨rfl, rfl⟩ := h
    refine ⟨rfl, rfl, ?_⟩
    have : List.take (1 + p.length) ((if isApp then 1 else 5) :: p ++ buf.drop (1 + p.length)) =
        (if isApp then 1 else 5) :: p := by
      rw [List.take_left']; simp [Nat.add_comm]
    rw [this, Mctp.decapApp_cons]
    cases isApp <;> simp [hout]
  · rw [if_neg hl] at h
    cases buf <;> exact absurd h (by simp)

/-- C12: acceptance of application framing. -/
theorem C12_decap_app (frame buf : Bytes) :
    (∃ t m, frame = t :: m ∧ (t = 5 ∨ t = 1) ∧ m.length ≤ buf.length ∧
        Mctp.decapApp frame buf = .ok (m.length, t == 1) (m ++ buf.drop m.length)) ∨
    ((∀ t m, frame = t :: m → (t = 5 ∨ t = 1) → buf.length < m.length) ∧
        Mctp.decapApp frame buf = .err .decapAppFail buf) := by
  cases frame with
  | nil => right; exact ⟨by simp, Mctp.decapApp_nil buf⟩
  | cons t m =>
    rw [Mctp.decapApp_cons]
    by_cases h : (t = 5 ∨ t = 1) ∧ m.length ≤ buf.length
    · left; exact ⟨t, m, rfl, h.1, h.2, by rw [if_pos h]⟩
    · right
      refine ⟨?_, by rw [if_neg h]⟩
      rintro t' m' heq ht
      obtain ⟨rfl, rfl⟩ := List.cons.inj heq
      exact Nat.lt_of_not_le fun hl => h ⟨ht, hl⟩

example : Mctp.encap [0x10, 0x84, 0, 0] false (List.replicate 8 9) = .ok 5 [5, 0x10, 0x84, 0, 0, 9, 9, 9] := by rfl
example : Mctp.decap [6, 1, 2] [0, 0, 0] = .ok (2, true) [1, 2, 0] := by rfl
example : Mctp.encapApp [7] true [0, 0, 0] = .ok 2 [1, 7, 0] := by rfl

/-! ### C13 -/

/-- The smallest multiple of four that is at least `n`. -/
def PaddedLen (n a : Nat) : Prop := n ≤ a ∧ a < n + 4 ∧ a % 4 = 0

/-- The frame that carries message `m` padded to `body`: PCI-SIG vendor id 1, object type, reserved byte, number of dwords
of the whole frame in 18 bits (2^18 written as zero), then the body. -/
def DoeFrame (secured : Bool) (body : Bytes) (frame : Bytes) : Prop :=
  ∃ l : UInt32, frame = [1, 0, (if secured then 2 else 1), 0] ++ putU32 l ++ body ∧
    (l.toNat = 0 ∧ body.length + 8 = 4 * 2 ^ 18 ∨ body.length + 8 = 4 * l.toNat ∧ 0 < l.toNat ∧ l.toNat < 2 ^ 18)

theorem paddedLen_iff {n a : Nat} : PaddedLen n a ↔ a = PciDoe.aligned n := by
  unfold PaddedLen PciDoe.aligned; omega

/-- C13: for every message whose padded length is at most 2^20 - 8, wrapping succeeds exactly when the padded frame fits
the buffer; the frame is a `DoeFrame` whose body is the message followed by the (at most three) bytes that were in the
buffer before. -/
theorem C13_encap (p : Bytes) (secured : Bool) (buf : Bytes) (a : Nat) (ha : PaddedLen p.length a)
    (hmax : a + 8 ≤ 4 * 2 ^ 18) :
    (8 + a ≤ buf.length → ∃ buf', PciDoe.encap p secured buf = .ok (8 + a) buf' ∧ buf'.length = buf.length ∧
        buf'.drop (8 + a) = buf.drop (8 + a) ∧
        DoeFrame secured (p ++ (buf.drop (8 + p.length)).take (a - p.length)) (buf'.take (8 + a))) ∧
    (buf.length < 8 + a → ∃ buf', PciDoe.encap p secured buf = .err .encapFail buf') := by
  obtain rfl := paddedLen_iff.mp ha
  obtain ⟨ha1, ha2, ha3⟩ := ha
  constructor
  · intro h
    refine ⟨_, PciDoe.encap_eq p secured buf (by omega) h, ?_, ?_, ?_⟩
    · simp; omega
    · rw [List.drop_append]
      have e1 : List.drop (8 + PciDoe.aligned p.length) (PciDoe.header (PciDoe.aligned p.length) secured ++ p) = [] :=
        List.drop_eq_nil_of_le (by simp; omega)
      rw [e1, List.drop_drop]
      simp only [List.length_append, PciDoe.header_length, List.nil_append]
      congr 1; omega
    · refine ⟨PciDoe.lenField (PciDoe.aligned p.length), ?_, ?_⟩
      · rw [List.append_assoc, List.take_append]
        rw [List.take_of_length_le (by simp), PciDoe.header_length, show 8 + PciDoe.aligned p.length - 8 = PciDoe.aligned p.length by omega,
          List.take_append, List.take_of_length_le (by omega)]
        rfl
      · have hb : (p ++ (buf.drop (8 + p.length)).take (PciDoe.aligned p.length - p.length)).length = PciDoe.aligned p.length := by
          simp; omega
        rw [hb]
        unfold PciDoe.lenField
        split
        · left; exact ⟨rfl, by omega⟩
        · right
          simp only [UInt32.toNat_ofNat']
          rw [Nat.mod_eq_of_lt (by omega)]
          omega
  · intro h
    obtain ⟨b, hb, -⟩ := PciDoe.encap_short p secured buf (by omega) h
    exact ⟨b, hb⟩

/-- C13: what a receiver accepts. `m` bytes of payload are delivered only from a frame that starts with vendor 1, object
type 1 or 2 and a length field denoting exactly `m` payload bytes, all of which are present and fit the caller's buffer;
everything else is refused, leaving the caller's buffer untouched. Never a panic. -/
theorem C13_decap (frame buf : Bytes) :
    (∃ (l : UInt32) (z : UInt8) (secured : Bool) (body rest : Bytes),
        frame = [1, 0, (if secured then 2 else 1), z] ++ putU32 l ++ body ++ rest ∧
        (l.toNat % 2 ^ 18 = 0 ∧ body.length + 8 = 4 * 2 ^ 18 ∨
          2 ≤ l.toNat % 2 ^ 18 ∧ body.length + 8 = 4 * (l.toNat % 2 ^ 18)) ∧
        body.length ≤ buf.length ∧
        PciDoe.decap frame buf = .ok (body.length, secured) (body ++ buf.drop body.length)) ∨
    PciDoe.decap frame buf = .err .decapFail buf := by
  by_cases h8 : frame.length < 8
  · right; exact PciDoe.decap_short frame buf h8
  · rcases frame with _ | ⟨a, _ | ⟨b, _ | ⟨t, _ | ⟨z, _ | ⟨c, _ | ⟨d, _ | ⟨e, _ | ⟨f, rest⟩⟩⟩⟩⟩⟩⟩⟩
    iterate 8 exact absurd (by simp) h8
    · 
      have hput : c :: d :: e :: f :: rest = putU32 (decU32 c d e f) ++ rest := by rw [putU32_dec]; rfl
      rw [hput, PciDoe.decap_eq]
      generalize decU32 c d e f = l
      by_cases hc : l.toNat % 0x40000 ≠ 1 ∧ a = 1 ∧ b = 0 ∧ (t = 1 ∨ t = 2) ∧ PciDoe.declared l ≤ rest.length ∧ PciDoe.declared l ≤ buf.length
      · left
        rw [if_pos hc]
        obtain ⟨h1, rfl, rfl, ht, hr, hb⟩ := hc
        have hlen : (rest.take (PciDoe.declared l)).length = PciDoe.declared l := by simp; omega
        refine ⟨l, z, t == 2, rest.take (PciDoe.declared l), rest.drop (PciDoe.declared l), ?_, ?_, by omega, ?_⟩
        · rcases ht with rfl | rfl <;> simp
        · rw [hlen]; unfold PciDoe.declared; split <;> omega
        · rw [hlen]
      · right; rw [if_neg hc]

/-- C13: round trip. The receiver gets the message followed by at most three bytes of padding, and the same flag. With the
zero-filled buffers the callers use (common/mod.rs `send_message`), the padding is zero. -/
theorem C13_round_trip (p : Bytes) (secured : Bool) (buf out buf' : Bytes) (n : Nat)
    (hmax : p.length + 8 ≤ 4 * 2 ^ 18)
    (h : PciDoe.encap p secured buf = .ok n buf') (hout : n ≤ out.length + 8) :
    ∃ pad : Bytes, pad.length < 4 ∧ (p ++ pad).length % 4 = 0 ∧
      (∀ b ∈ pad, b ∈ buf) ∧
      PciDoe.decap (buf'.take n) out = .ok ((p ++ pad).length, secured) (p ++ pad ++ out.drop (p ++ pad).length) := by
  have hal : PciDoe.aligned p.length + 8 ≤ 0x100000 := by unfold PciDoe.aligned; omega
  have hp : PaddedLen p.length (PciDoe.aligned p.length) := paddedLen_iff.mpr rfl
  by_cases hl : 8 + PciDoe.aligned p.length ≤ buf.length
  · rw [PciDoe.encap_eq p secured buf hal hl] at h
    simp only [Out.ok.injEq] at h
    obtain ⟨rfl, rfl⟩ := h
    obtain ⟨h1, h2, h3⟩ := hp
    have hlen : (p ++ (buf.drop (8 + p.length)).take (PciDoe.aligned p.length - p.length)).length = PciDoe.aligned p.length := by
      simp; omega
    refine ⟨(buf.drop (8 + p.length)).take (PciDoe.aligned p.length - p.length), by simp; omega, by rw [hlen]; exact h3,
      fun b hb => List.mem_of_mem_drop (List.mem_of_mem_take hb), ?_⟩
    have ht : List.take (8 + PciDoe.aligned p.length) (PciDoe.header (PciDoe.aligned p.length) secured ++ p ++ List.drop (8 + p.length) buf)
        = 1 :: 0 :: (if secured then 2 else 1) :: 0 :: (putU32 (PciDoe.lenField (PciDoe.aligned p.length)) ++
            (p ++ (buf.drop (8 + p.length)).take (PciDoe.aligned p.length - p.length))) := by
      rw [List.append_assoc, List.take_append]
      rw [List.take_of_length_le (by simp), PciDoe.header_length, show 8 + PciDoe.aligned p.length - 8 = PciDoe.aligned p.length by omega,
        List.take_append, List.take_of_length_le (by omega)]
      rfl
    have hdec := PciDoe.declared_lenField hal h3
    have hne : (PciDoe.lenField (PciDoe.aligned p.length)).toNat % 0x40000 ≠ 1 := by
      unfold PciDoe.lenField
      split
      · simp
      · simp only [UInt32.toNat_ofNat']; omega
    rw [ht, PciDoe.decap_eq, hdec, if_pos ?_]
    · rw [List.take_of_length_le (by omega)]
      rw [hlen]
      cases secured <;> rfl
    · refine ⟨hne, rfl, rfl, ?_, by omega, by omega⟩
      cases secured <;> simp
  · obtain ⟨b, hb, -⟩ := PciDoe.encap_short p secured buf hal (by omega)
    rw [hb] at h; exact absurd h (by simp)

/-- C13: application framing over PCI DOE is a plain copy. -/
theorem C13_app_round_trip (p : Bytes) (isApp : Bool) (buf out : Bytes) (hb : p.length ≤ buf.length)
    (ho : p.length ≤ out.length) :
    PciDoe.encapApp p isApp buf = .ok p.length (p ++ buf.drop p.length) ∧
    PciDoe.decapApp p out = .ok (p.length, false) (p ++ out.drop p.length) := by
  constructor
  · simp [PciDoe.encapApp, copyAt, hb]
  · simp [PciDoe.decapApp, copyAt, ho]

/-- C13, finding F21: where the MCTP transport reports an error the PCI DOE application framing panics. -/
theorem C13_app_too_small_violated (p : Bytes) (isApp : Bool) (buf : Bytes) (hb : buf.length < p.length) :
    PciDoe.encapApp p isApp buf = .panic ∧ PciDoe.decapApp p buf = .panic ∧
      ∃ b, Mctp.encapApp p isApp buf = .err .encapAppFail b := by
  have : ¬ p.length ≤ buf.length := by omega
  refine ⟨by simp [PciDoe.encapApp, copyAt, this], by simp [PciDoe.decapApp, copyAt, this], ?_⟩
  rw [Mctp.encapApp_eq, if_neg (by omega)]
  cases buf with
  | nil => exact ⟨_, rfl⟩
  | cons => exact ⟨_, rfl⟩

/-- C13, finding F21: a message whose padded frame exceeds 2^18 dwords panics instead of being refused. -/
theorem C13_oversize_violated (p : Bytes) (secured : Bool) (buf : Bytes) (h8 : 8 ≤ buf.length)
    (hp : 4 * 2 ^ 18 < p.length + 8) (hp' : p.length < 2 ^ 32 - 16) : PciDoe.encap p secured buf = .panic := by
  apply PciDoe.encap_huge p secured buf h8 <;> unfold PciDoe.aligned <;> omega

example : PciDoe.encap [0x10, 0x84, 0, 0, 7] true (List.replicate 17 0) =
    .ok 16 [1, 0, 2, 0, 4, 0, 0, 0, 0x10, 0x84, 0, 0, 7, 0, 0, 0, 0] := by rfl
example : PciDoe.decap [1, 0, 2, 0, 3, 0, 0, 0, 0x10, 0x84, 0, 0] (List.replicate 5 9) =
    .ok (4, true) [0x10, 0x84, 0, 0, 9] := by rfl
example : PaddedLen 5 8 := by unfold PaddedLen; omega

end Verif.Props
