/-
C10, C11: algorithm selection and algorithm sizes.
-/
import Verif.Proto.Algo
import Verif.Props.Codec

namespace Verif.Props
open Verif

/-- A set of algorithms `s` (bit set) contains the algorithm `v` (all bits of `v` are in `s`). -/
def Supports {α : Type} [AndOp α] (s v : α) : Prop := s &&& v = v

/-- English of C10: `r` is the outcome of choosing from priority list `table` between two parties' sets.  Either `r` is an
entry of the list that both support and no earlier entry is supported by both, or nothing in the list is supported by
both and nothing is chosen. -/
def Chooses {α : Type} [AndOp α] [OfNat α 0] (table : List α) (own peer r : α) : Prop :=
  (∃ before after, table = before ++ r :: after ∧ Supports own r ∧ Supports peer r ∧
      ∀ v ∈ before, ¬ (Supports own v ∧ Supports peer v)) ∨
  (r = 0 ∧ ∀ v ∈ table, ¬ (Supports own v ∧ Supports peer v))

/-- `v` has exactly one bit set. -/
def OneBit8 (v : UInt8) : Prop := ∃ i, i < 8 ∧ v.toNat = 2 ^ i
def OneBit16 (v : UInt16) : Prop := ∃ i, i < 16 ∧ v.toNat = 2 ^ i
def OneBit32 (v : UInt32) : Prop := ∃ i, i < 32 ∧ v.toNat = 2 ^ i

private theorem and_two_pow_cases (x i : Nat) : x &&& 2 ^ i = 0 ∨ x &&& 2 ^ i = 2 ^ i := by
  cases h : x.testBit i
  · left; apply Nat.eq_of_testBit_eq; intro j
    by_cases hj : i = j
    · subst hj; simp [h]
    · simp [hj]
  · right; apply Nat.eq_of_testBit_eq; intro j
    by_cases hj : i = j
    · subst hj; simp [h]
    · simp [hj]

private theorem bit8 {v : UInt8} (h : OneBit8 v) (x : UInt8) : x &&& v = 0 ∨ x &&& v = v := by
  obtain ⟨i, _, hi⟩ := h
  rcases and_two_pow_cases x.toNat i with h | h
  · left; apply UInt8.toNat.inj; simp [hi, h]
  · right; apply UInt8.toNat.inj; simp [hi, h]

private theorem bit16 {v : UInt16} (h : OneBit16 v) (x : UInt16) : x &&& v = 0 ∨ x &&& v = v := by
  obtain ⟨i, _, hi⟩ := h
  rcases and_two_pow_cases x.toNat i with h | h
  · left; apply UInt16.toNat.inj; simp [hi, h]
  · right; apply UInt16.toNat.inj; simp [hi, h]

private theorem bit32 {v : UInt32} (h : OneBit32 v) (x : UInt32) : x &&& v = 0 ∨ x &&& v = v := by
  obtain ⟨i, _, hi⟩ := h
  rcases and_two_pow_cases x.toNat i with h | h
  · left; apply UInt32.toNat.inj; simp [hi, h]
  · right; apply UInt32.toNat.inj; simp [hi, h]

private theorem prio_chooses {α : Type} [AndOp α] [OfNat α 0] [DecidableEq α]
    (assoc : ∀ a b c : α, a &&& b &&& c = a &&& (b &&& c)) (comm : ∀ a b : α, a &&& b = b &&& a)
    (zero : ∀ a : α, a &&& 0 = 0)
    (table : List α) (hbit : ∀ v ∈ table, v ≠ 0 ∧ ∀ x : α, x &&& v = 0 ∨ x &&& v = v) (own peer : α) :
    Chooses table own peer (prio table own peer) := by
  have key : ∀ v ∈ table, (own &&& peer) &&& v ≠ 0 ↔ (Supports own v ∧ Supports peer v) := by
    intro v hv
    obtain ⟨hv0, hb⟩ := hbit v hv
    constructor
    · intro h
      constructor
      · rcases hb own with h1 | h1
        · exact absurd (by rw [comm own peer, assoc, h1, zero]) h
        · exact h1
      · rcases hb peer with h1 | h1
        · exact absurd (by rw [assoc, h1, zero]) h
        · exact h1
    · rintro ⟨h1, h2⟩
      rw [assoc, h2, h1]; exact hv0
  unfold prio
  cases hf : table.find? (fun v => decide ((own &&& peer) &&& v ≠ 0)) with
  | none =>
    right
    refine ⟨rfl, fun v hv => ?_⟩
    rw [← key v hv]
    have := List.find?_eq_none.mp hf v hv
    simpa using this
  | some r =>
    left
    obtain ⟨hp, as, bs, htab, has⟩ := List.find?_eq_some_iff_append.mp hf
    have hr : r ∈ table := by rw [htab]; simp
    have := (key r hr).mp (by simpa using hp)
    refine ⟨as, bs, htab, this.1, this.2, fun v hv => ?_⟩
    have hvt : v ∈ table := by rw [htab]; simp [hv]
    rw [← key v hvt]
    simpa using has v hv

/-- C10 for the measurement specification: the chosen one is the first of the priority list (given by wire bit) that both sides support. -/
theorem C10_MeasSpec (own peer : UInt8) : Chooses ([0x1] : List UInt8) own peer (MeasSpec.prioritize own peer) := by
  refine prio_chooses UInt8.and_assoc UInt8.and_comm (fun _ => UInt8.and_zero) _ ?_ own peer
  intro v hv
  simp only [List.mem_cons, List.not_mem_nil, or_false] at hv
  have hb : OneBit8 v ∧ v ≠ 0 := by
    rcases hv with rfl
    · exact ⟨⟨0, by decide, by decide⟩, by decide⟩
    
  exact ⟨hb.2, fun x => bit8 hb.1 x⟩

/-- C10, consequences a user reads off: the selection is empty or a single algorithm in both sets, and it is empty exactly
when no listed algorithm is common. -/
theorem C10_MeasSpec_common (own peer : UInt8) :
    Supports own (MeasSpec.prioritize own peer) ∧ Supports peer (MeasSpec.prioritize own peer) ∧
    ((MeasSpec.prioritize own peer = 0) ↔ ∀ v ∈ ([0x1] : List UInt8), ¬ (Supports own v ∧ Supports peer v)) := by
  rcases C10_MeasSpec own peer with ⟨b, a, ht, ho, hp, _⟩ | ⟨h0, hn⟩
  · refine ⟨ho, hp, ?_⟩
    have hm : MeasSpec.prioritize own peer ∈ ([0x1] : List UInt8) := by rw [ht]; simp
    constructor
    · intro h; rw [h] at hm; exact absurd hm (by decide)
    · intro h; exact absurd ⟨ho, hp⟩ (h _ hm)
  · refine ⟨by rw [h0]; simp [Supports], by rw [h0]; simp [Supports], fun _ => hn, fun _ => h0⟩

/-- C10 for the signature algorithm: the chosen one is the first of the priority list (given by wire bit) that both sides support. -/
theorem C10_BaseAsym (own peer : UInt32) : Chooses ([0x80, 0x10, 0x40, 0x8, 0x2, 0x20, 0x4, 0x1] : List UInt32) own peer (BaseAsym.prioritize own peer) := by
  refine prio_chooses UInt32.and_assoc UInt32.and_comm (fun _ => UInt32.and_zero) _ ?_ own peer
  intro v hv
  simp only [List.mem_cons, List.not_mem_nil, or_false] at hv
  have hb : OneBit32 v ∧ v ≠ 0 := by
    rcases hv with rfl | rfl | rfl | rfl | rfl | rfl | rfl | rfl
    · exact ⟨⟨7, by decide, by decide⟩, by decide⟩
    · exact ⟨⟨4, by decide, by decide⟩, by decide⟩
    · exact ⟨⟨6, by decide, by decide⟩, by decide⟩
    · exact ⟨⟨3, by decide, by decide⟩, by decide⟩
    · exact ⟨⟨1, by decide, by decide⟩, by decide⟩
    · exact ⟨⟨5, by decide, by decide⟩, by decide⟩
    · exact ⟨⟨2, by decide, by decide⟩, by decide⟩
    · exact ⟨⟨0, by decide, by decide⟩, by decide⟩
    
  exact ⟨hb.2, fun x => bit32 hb.1 x⟩

/-- C10, consequences a user reads off: the selection is empty or a single algorithm in both sets, and it is empty exactly
when no listed algorithm is common. -/
theorem C10_BaseAsym_common (own peer : UInt32) :
    Supports own (BaseAsym.prioritize own peer) ∧ Supports peer (BaseAsym.prioritize own peer) ∧
    ((BaseAsym.prioritize own peer = 0) ↔ ∀ v ∈ ([0x80, 0x10, 0x40, 0x8, 0x2, 0x20, 0x4, 0x1] : List UInt32), ¬ (Supports own v ∧ Supports peer v)) := by
  rcases C10_BaseAsym own peer with ⟨b, a, ht, ho, hp, _⟩ | ⟨h0, hn⟩
  · refine ⟨ho, hp, ?_⟩
    have hm : BaseAsym.prioritize own peer ∈ ([0x80, 0x10, 0x40, 0x8, 0x2, 0x20, 0x4, 0x1] : List UInt32) := by rw [ht]; simp
    constructor
    · intro h; rw [h] at hm; exact absurd hm (by decide)
    · intro h; exact absurd ⟨ho, hp⟩ (h _ hm)
  · refine ⟨by rw [h0]; simp [Supports], by rw [h0]; simp [Supports], fun _ => hn, fun _ => h0⟩

/-- C10 for the hash algorithm: the chosen one is the first of the priority list (given by wire bit) that both sides support. -/
theorem C10_BaseHash (own peer : UInt32) : Chooses ([0x4, 0x2, 0x1] : List UInt32) own peer (BaseHash.prioritize own peer) := by
  refine prio_chooses UInt32.and_assoc UInt32.and_comm (fun _ => UInt32.and_zero) _ ?_ own peer
  intro v hv
  simp only [List.mem_cons, List.not_mem_nil, or_false] at hv
  have hb : OneBit32 v ∧ v ≠ 0 := by
    rcases hv with rfl | rfl | rfl
    · exact ⟨⟨2, by decide, by decide⟩, by decide⟩
    · exact ⟨⟨1, by decide, by decide⟩, by decide⟩
    · exact ⟨⟨0, by decide, by decide⟩, by decide⟩
    
  exact ⟨hb.2, fun x => bit32 hb.1 x⟩

/-- C10, consequences a user reads off: the selection is empty or a single algorithm in both sets, and it is empty exactly
when no listed algorithm is common. -/
theorem C10_BaseHash_common (own peer : UInt32) :
    Supports own (BaseHash.prioritize own peer) ∧ Supports peer (BaseHash.prioritize own peer) ∧
    ((BaseHash.prioritize own peer = 0) ↔ ∀ v ∈ ([0x4, 0x2, 0x1] : List UInt32), ¬ (Supports own v ∧ Supports peer v)) := by
  rcases C10_BaseHash own peer with ⟨b, a, ht, ho, hp, _⟩ | ⟨h0, hn⟩
  · refine ⟨ho, hp, ?_⟩
    have hm : BaseHash.prioritize own peer ∈ ([0x4, 0x2, 0x1] : List UInt32) := by rw [ht]; simp
    constructor
    · intro h; rw [h] at hm; exact absurd hm (by decide)
    · intro h; exact absurd ⟨ho, hp⟩ (h _ hm)
  · refine ⟨by rw [h0]; simp [Supports], by rw [h0]; simp [Supports], fun _ => hn, fun _ => h0⟩

/-- C10 for the Diffie-Hellman group: the chosen one is the first of the priority list (given by wire bit) that both sides support. -/
theorem C10_Dhe (own peer : UInt16) : Chooses ([0x10, 0x8] : List UInt16) own peer (Dhe.prioritize own peer) := by
  refine prio_chooses UInt16.and_assoc UInt16.and_comm (fun _ => UInt16.and_zero) _ ?_ own peer
  intro v hv
  simp only [List.mem_cons, List.not_mem_nil, or_false] at hv
  have hb : OneBit16 v ∧ v ≠ 0 := by
    rcases hv with rfl | rfl
    · exact ⟨⟨4, by decide, by decide⟩, by decide⟩
    · exact ⟨⟨3, by decide, by decide⟩, by decide⟩
    
  exact ⟨hb.2, fun x => bit16 hb.1 x⟩

/-- C10, consequences a user reads off: the selection is empty or a single algorithm in both sets, and it is empty exactly
when no listed algorithm is common. -/
theorem C10_Dhe_common (own peer : UInt16) :
    Supports own (Dhe.prioritize own peer) ∧ Supports peer (Dhe.prioritize own peer) ∧
    ((Dhe.prioritize own peer = 0) ↔ ∀ v ∈ ([0x10, 0x8] : List UInt16), ¬ (Supports own v ∧ Supports peer v)) := by
  rcases C10_Dhe own peer with ⟨b, a, ht, ho, hp, _⟩ | ⟨h0, hn⟩
  · refine ⟨ho, hp, ?_⟩
    have hm : Dhe.prioritize own peer ∈ ([0x10, 0x8] : List UInt16) := by rw [ht]; simp
    constructor
    · intro h; rw [h] at hm; exact absurd hm (by decide)
    · intro h; exact absurd ⟨ho, hp⟩ (h _ hm)
  · refine ⟨by rw [h0]; simp [Supports], by rw [h0]; simp [Supports], fun _ => hn, fun _ => h0⟩

/-- C10 for the AEAD: the chosen one is the first of the priority list (given by wire bit) that both sides support. -/
theorem C10_Aead (own peer : UInt16) : Chooses ([0x2, 0x1, 0x4] : List UInt16) own peer (Aead.prioritize own peer) := by
  refine prio_chooses UInt16.and_assoc UInt16.and_comm (fun _ => UInt16.and_zero) _ ?_ own peer
  intro v hv
  simp only [List.mem_cons, List.not_mem_nil, or_false] at hv
  have hb : OneBit16 v ∧ v ≠ 0 := by
    rcases hv with rfl | rfl | rfl
    · exact ⟨⟨1, by decide, by decide⟩, by decide⟩
    · exact ⟨⟨0, by decide, by decide⟩, by decide⟩
    · exact ⟨⟨2, by decide, by decide⟩, by decide⟩
    
  exact ⟨hb.2, fun x => bit16 hb.1 x⟩

/-- C10, consequences a user reads off: the selection is empty or a single algorithm in both sets, and it is empty exactly
when no listed algorithm is common. -/
theorem C10_Aead_common (own peer : UInt16) :
    Supports own (Aead.prioritize own peer) ∧ Supports peer (Aead.prioritize own peer) ∧
    ((Aead.prioritize own peer = 0) ↔ ∀ v ∈ ([0x2, 0x1, 0x4] : List UInt16), ¬ (Supports own v ∧ Supports peer v)) := by
  rcases C10_Aead own peer with ⟨b, a, ht, ho, hp, _⟩ | ⟨h0, hn⟩
  · refine ⟨ho, hp, ?_⟩
    have hm : Aead.prioritize own peer ∈ ([0x2, 0x1, 0x4] : List UInt16) := by rw [ht]; simp
    constructor
    · intro h; rw [h] at hm; exact absurd hm (by decide)
    · intro h; exact absurd ⟨ho, hp⟩ (h _ hm)
  · refine ⟨by rw [h0]; simp [Supports], by rw [h0]; simp [Supports], fun _ => hn, fun _ => h0⟩

/-- C10 for the requester signature algorithm: the chosen one is the first of the priority list (given by wire bit) that both sides support. -/
theorem C10_ReqAsym (own peer : UInt16) : Chooses ([0x80, 0x10, 0x40, 0x8, 0x2, 0x20, 0x4, 0x1] : List UInt16) own peer (ReqAsym.prioritize own peer) := by
  refine prio_chooses UInt16.and_assoc UInt16.and_comm (fun _ => UInt16.and_zero) _ ?_ own peer
  intro v hv
  simp only [List.mem_cons, List.not_mem_nil, or_false] at hv
  have hb : OneBit16 v ∧ v ≠ 0 := by
    rcases hv with rfl | rfl | rfl | rfl | rfl | rfl | rfl | rfl
    · exact ⟨⟨7, by decide, by decide⟩, by decide⟩
    · exact ⟨⟨4, by decide, by decide⟩, by decide⟩
    · exact ⟨⟨6, by decide, by decide⟩, by decide⟩
    · exact ⟨⟨3, by decide, by decide⟩, by decide⟩
    · exact ⟨⟨1, by decide, by decide⟩, by decide⟩
    · exact ⟨⟨5, by decide, by decide⟩, by decide⟩
    · exact ⟨⟨2, by decide, by decide⟩, by decide⟩
    · exact ⟨⟨0, by decide, by decide⟩, by decide⟩
    
  exact ⟨hb.2, fun x => bit16 hb.1 x⟩

/-- C10, consequences a user reads off: the selection is empty or a single algorithm in both sets, and it is empty exactly
when no listed algorithm is common. -/
theorem C10_ReqAsym_common (own peer : UInt16) :
    Supports own (ReqAsym.prioritize own peer) ∧ Supports peer (ReqAsym.prioritize own peer) ∧
    ((ReqAsym.prioritize own peer = 0) ↔ ∀ v ∈ ([0x80, 0x10, 0x40, 0x8, 0x2, 0x20, 0x4, 0x1] : List UInt16), ¬ (Supports own v ∧ Supports peer v)) := by
  rcases C10_ReqAsym own peer with ⟨b, a, ht, ho, hp, _⟩ | ⟨h0, hn⟩
  · refine ⟨ho, hp, ?_⟩
    have hm : ReqAsym.prioritize own peer ∈ ([0x80, 0x10, 0x40, 0x8, 0x2, 0x20, 0x4, 0x1] : List UInt16) := by rw [ht]; simp
    constructor
    · intro h; rw [h] at hm; exact absurd hm (by decide)
    · intro h; exact absurd ⟨ho, hp⟩ (h _ hm)
  · refine ⟨by rw [h0]; simp [Supports], by rw [h0]; simp [Supports], fun _ => hn, fun _ => h0⟩

/-- C10 for the key schedule: the chosen one is the first of the priority list (given by wire bit) that both sides support. -/
theorem C10_KeySchedule (own peer : UInt16) : Chooses ([0x1] : List UInt16) own peer (KeySchedule.prioritize own peer) := by
  refine prio_chooses UInt16.and_assoc UInt16.and_comm (fun _ => UInt16.and_zero) _ ?_ own peer
  intro v hv
  simp only [List.mem_cons, List.not_mem_nil, or_false] at hv
  have hb : OneBit16 v ∧ v ≠ 0 := by
    rcases hv with rfl
    · exact ⟨⟨0, by decide, by decide⟩, by decide⟩
    
  exact ⟨hb.2, fun x => bit16 hb.1 x⟩

/-- C10, consequences a user reads off: the selection is empty or a single algorithm in both sets, and it is empty exactly
when no listed algorithm is common. -/
theorem C10_KeySchedule_common (own peer : UInt16) :
    Supports own (KeySchedule.prioritize own peer) ∧ Supports peer (KeySchedule.prioritize own peer) ∧
    ((KeySchedule.prioritize own peer = 0) ↔ ∀ v ∈ ([0x1] : List UInt16), ¬ (Supports own v ∧ Supports peer v)) := by
  rcases C10_KeySchedule own peer with ⟨b, a, ht, ho, hp, _⟩ | ⟨h0, hn⟩
  · refine ⟨ho, hp, ?_⟩
    have hm : KeySchedule.prioritize own peer ∈ ([0x1] : List UInt16) := by rw [ht]; simp
    constructor
    · intro h; rw [h] at hm; exact absurd hm (by decide)
    · intro h; exact absurd ⟨ho, hp⟩ (h _ hm)
  · refine ⟨by rw [h0]; simp [Supports], by rw [h0]; simp [Supports], fun _ => hn, fun _ => h0⟩

/-- Non-vacuity: two overlapping sets with several common members, and two disjoint ones. -/
example : BaseHash.prioritize 3 7 = 2 ∧ BaseHash.prioritize 1 6 = 0 ∧ BaseAsym.prioritize 0xFF 0x6F = 0x40 := by decide

/-- C11: the size of SpdmMeasurementHashAlgo is defined exactly for the listed single algorithms, with these values. -/
theorem C11_MeasHash (x : UInt32) (s : Nat) : MeasHash.size? x = some s ↔ (x, s) ∈ ([(0x1, 0), (0x2, 32), (0x4, 48), (0x8, 64), (0x10, 32), (0x20, 48), (0x40, 64), (0x80, 32)] : List (UInt32 × Nat)) := by
  unfold MeasHash.size?
  simp only [MeasHash.rawBit, MeasHash.sha256, MeasHash.sha384, MeasHash.sha512, MeasHash.sha3_256, MeasHash.sha3_384, MeasHash.sha3_512, MeasHash.sm3, List.mem_cons, List.not_mem_nil, or_false, Prod.mk.injEq]
  constructor
  · intro h
    grind (splits := 30)
  · intro h
    rcases h with ⟨rfl, rfl⟩ | ⟨rfl, rfl⟩ | ⟨rfl, rfl⟩ | ⟨rfl, rfl⟩ | ⟨rfl, rfl⟩ | ⟨rfl, rfl⟩ | ⟨rfl, rfl⟩ | ⟨rfl, rfl⟩ <;> decide

/-- C11: an empty or multi-algorithm value has no size (the Rust code aborts). -/
theorem C11_MeasHash_single (x : UInt32) : (MeasHash.size? x).isSome ↔ ∃ i, 0 ≤ i ∧ i ≤ 7 ∧ x.toNat = 2 ^ i := by
  rw [Option.isSome_iff_exists]
  constructor
  · rintro ⟨s, h⟩
    rw [C11_MeasHash] at h
    simp only [List.mem_cons, List.not_mem_nil, or_false, Prod.mk.injEq] at h
    rcases h with ⟨rfl, _⟩ | ⟨rfl, _⟩ | ⟨rfl, _⟩ | ⟨rfl, _⟩ | ⟨rfl, _⟩ | ⟨rfl, _⟩ | ⟨rfl, _⟩ | ⟨rfl, _⟩
    · exact ⟨0, by decide⟩
    · exact ⟨1, by decide⟩
    · exact ⟨2, by decide⟩
    · exact ⟨3, by decide⟩
    · exact ⟨4, by decide⟩
    · exact ⟨5, by decide⟩
    · exact ⟨6, by decide⟩
    · exact ⟨7, by decide⟩
   
  · rintro ⟨i, h1, h2, h3⟩
    have hx : x = UInt32.ofNat (2 ^ i) := by rw [← h3]; simp
    subst hx
    have : i = 0 ∨ i = 1 ∨ i = 2 ∨ i = 3 ∨ i = 4 ∨ i = 5 ∨ i = 6 ∨ i = 7 := by omega
    rcases this with rfl | rfl | rfl | rfl | rfl | rfl | rfl | rfl <;> exact ⟨_, rfl⟩

/-- C11: every size fits the fixed storage (64 bytes). -/
theorem C11_MeasHash_bounded (x : UInt32) (s : Nat) (h : MeasHash.size? x = some s) : s ≤ 64 := by
  rw [C11_MeasHash] at h
  simp only [List.mem_cons, List.not_mem_nil, or_false, Prod.mk.injEq] at h
  omega

set_option maxRecDepth 20000 in
/-- C11: a decoded SpdmMeasurementHashAlgo that passes the "exactly one valid" check has a size. -/
theorem C11_MeasHash_validOne (x : UInt32) (hx : MeasHash.WF x) (h : MeasHash.validOne x = true) : (MeasHash.size? x).isSome := by
  revert h
  exact MeasHash.wf_cases (P := fun x => MeasHash.validOne x = true → (MeasHash.size? x).isSome) (by decide) x hx

/-- C11: the size of SpdmBaseAsymAlgo is defined exactly for the listed single algorithms, with these values. -/
theorem C11_BaseAsym (x : UInt32) (s : Nat) : BaseAsym.size? x = some s ↔ (x, s) ∈ ([(0x1, 256), (0x2, 256), (0x4, 384), (0x8, 384), (0x20, 512), (0x40, 512), (0x10, 64), (0x80, 96)] : List (UInt32 × Nat)) := by
  unfold BaseAsym.size?
  simp only [BaseAsym.rsassa2048, BaseAsym.rsapss2048, BaseAsym.rsassa3072, BaseAsym.rsapss3072, BaseAsym.rsassa4096, BaseAsym.rsapss4096, BaseAsym.ecdsaP256, BaseAsym.ecdsaP384, List.mem_cons, List.not_mem_nil, or_false, Prod.mk.injEq]
  constructor
  · intro h
    grind (splits := 30)
  · intro h
    rcases h with ⟨rfl, rfl⟩ | ⟨rfl, rfl⟩ | ⟨rfl, rfl⟩ | ⟨rfl, rfl⟩ | ⟨rfl, rfl⟩ | ⟨rfl, rfl⟩ | ⟨rfl, rfl⟩ | ⟨rfl, rfl⟩ <;> decide

/-- C11: an empty or multi-algorithm value has no size (the Rust code aborts). -/
theorem C11_BaseAsym_single (x : UInt32) : (BaseAsym.size? x).isSome ↔ ∃ i, 0 ≤ i ∧ i ≤ 7 ∧ x.toNat = 2 ^ i := by
  rw [Option.isSome_iff_exists]
  constructor
  · rintro ⟨s, h⟩
    rw [C11_BaseAsym] at h
    simp only [List.mem_cons, List.not_mem_nil, or_false, Prod.mk.injEq] at h
    rcases h with ⟨rfl, _⟩ | ⟨rfl, _⟩ | ⟨rfl, _⟩ | ⟨rfl, _⟩ | ⟨rfl, _⟩ | ⟨rfl, _⟩ | ⟨rfl, _⟩ | ⟨rfl, _⟩
    · exact ⟨0, by decide⟩
    · exact ⟨1, by decide⟩
    · exact ⟨2, by decide⟩
    · exact ⟨3, by decide⟩
    · exact ⟨5, by decide⟩
    · exact ⟨6, by decide⟩
    · exact ⟨4, by decide⟩
    · exact ⟨7, by decide⟩
   
  · rintro ⟨i, h1, h2, h3⟩
    have hx : x = UInt32.ofNat (2 ^ i) := by rw [← h3]; simp
    subst hx
    have : i = 0 ∨ i = 1 ∨ i = 2 ∨ i = 3 ∨ i = 4 ∨ i = 5 ∨ i = 6 ∨ i = 7 := by omega
    rcases this with rfl | rfl | rfl | rfl | rfl | rfl | rfl | rfl <;> exact ⟨_, rfl⟩

/-- C11: every size fits the fixed storage (512 bytes). -/
theorem C11_BaseAsym_bounded (x : UInt32) (s : Nat) (h : BaseAsym.size? x = some s) : s ≤ 512 := by
  rw [C11_BaseAsym] at h
  simp only [List.mem_cons, List.not_mem_nil, or_false, Prod.mk.injEq] at h
  omega

set_option maxRecDepth 20000 in
/-- C11: a decoded SpdmBaseAsymAlgo that passes the "exactly one valid" check has a size. -/
theorem C11_BaseAsym_validOne (x : UInt32) (hx : BaseAsym.WF x) (h : BaseAsym.validOne x = true) : (BaseAsym.size? x).isSome := by
  revert h
  exact BaseAsym.wf_cases (P := fun x => BaseAsym.validOne x = true → (BaseAsym.size? x).isSome) (by decide) x hx

/-- C11: a nonempty negotiation outcome has a size. -/
theorem C11_BaseAsym_negotiated (own peer : UInt32) (h : BaseAsym.prioritize own peer ≠ 0) :
    (BaseAsym.size? (BaseAsym.prioritize own peer)).isSome := by
  rcases C10_BaseAsym own peer with ⟨b, a, ht, _⟩ | ⟨h0, _⟩
  · have hm : BaseAsym.prioritize own peer ∈ ([0x80, 0x10, 0x40, 0x8, 0x2, 0x20, 0x4, 0x1] : List UInt32) := by rw [ht]; simp
    generalize BaseAsym.prioritize own peer = r at hm
    simp only [List.mem_cons, List.not_mem_nil, or_false] at hm
    rcases hm with rfl | rfl | rfl | rfl | rfl | rfl | rfl | rfl <;> decide
  · exact absurd h0 h

/-- C11: the size of SpdmBaseHashAlgo is defined exactly for the listed single algorithms, with these values. -/
theorem C11_BaseHash (x : UInt32) (s : Nat) : BaseHash.size? x = some s ↔ (x, s) ∈ ([(0x1, 32), (0x2, 48), (0x4, 64)] : List (UInt32 × Nat)) := by
  unfold BaseHash.size?
  simp only [BaseHash.sha256, BaseHash.sha384, BaseHash.sha512, List.mem_cons, List.not_mem_nil, or_false, Prod.mk.injEq]
  constructor
  · intro h
    grind (splits := 30)
  · intro h
    rcases h with ⟨rfl, rfl⟩ | ⟨rfl, rfl⟩ | ⟨rfl, rfl⟩ <;> decide

/-- C11: an empty or multi-algorithm value has no size (the Rust code aborts). -/
theorem C11_BaseHash_single (x : UInt32) : (BaseHash.size? x).isSome ↔ ∃ i, 0 ≤ i ∧ i ≤ 2 ∧ x.toNat = 2 ^ i := by
  rw [Option.isSome_iff_exists]
  constructor
  · rintro ⟨s, h⟩
    rw [C11_BaseHash] at h
    simp only [List.mem_cons, List.not_mem_nil, or_false, Prod.mk.injEq] at h
    rcases h with ⟨rfl, _⟩ | ⟨rfl, _⟩ | ⟨rfl, _⟩
    · exact ⟨0, by decide⟩
    · exact ⟨1, by decide⟩
    · exact ⟨2, by decide⟩
   
  · rintro ⟨i, h1, h2, h3⟩
    have hx : x = UInt32.ofNat (2 ^ i) := by rw [← h3]; simp
    subst hx
    have : i = 0 ∨ i = 1 ∨ i = 2 := by omega
    rcases this with rfl | rfl | rfl <;> exact ⟨_, rfl⟩

/-- C11: every size fits the fixed storage (64 bytes). -/
theorem C11_BaseHash_bounded (x : UInt32) (s : Nat) (h : BaseHash.size? x = some s) : s ≤ 64 := by
  rw [C11_BaseHash] at h
  simp only [List.mem_cons, List.not_mem_nil, or_false, Prod.mk.injEq] at h
  omega

set_option maxRecDepth 20000 in
/-- C11: a decoded SpdmBaseHashAlgo that passes the "exactly one valid" check has a size. -/
theorem C11_BaseHash_validOne (x : UInt32) (hx : BaseHash.WF x) (h : BaseHash.validOne x = true) : (BaseHash.size? x).isSome := by
  revert h
  exact BaseHash.wf_cases (P := fun x => BaseHash.validOne x = true → (BaseHash.size? x).isSome) (by decide) x hx

/-- C11: a nonempty negotiation outcome has a size. -/
theorem C11_BaseHash_negotiated (own peer : UInt32) (h : BaseHash.prioritize own peer ≠ 0) :
    (BaseHash.size? (BaseHash.prioritize own peer)).isSome := by
  rcases C10_BaseHash own peer with ⟨b, a, ht, _⟩ | ⟨h0, _⟩
  · have hm : BaseHash.prioritize own peer ∈ ([0x4, 0x2, 0x1] : List UInt32) := by rw [ht]; simp
    generalize BaseHash.prioritize own peer = r at hm
    simp only [List.mem_cons, List.not_mem_nil, or_false] at hm
    rcases hm with rfl | rfl | rfl <;> decide
  · exact absurd h0 h

/-- C11: the size of SpdmDheAlgo is defined exactly for the listed single algorithms, with these values. -/
theorem C11_Dhe (x : UInt16) (s : Nat) : Dhe.size? x = some s ↔ (x, s) ∈ ([(0x8, 64), (0x10, 96)] : List (UInt16 × Nat)) := by
  unfold Dhe.size?
  simp only [Dhe.p256, Dhe.p384, List.mem_cons, List.not_mem_nil, or_false, Prod.mk.injEq]
  constructor
  · intro h
    grind (splits := 30)
  · intro h
    rcases h with ⟨rfl, rfl⟩ | ⟨rfl, rfl⟩ <;> decide

/-- C11: an empty or multi-algorithm value has no size (the Rust code aborts). -/
theorem C11_Dhe_single (x : UInt16) : (Dhe.size? x).isSome ↔ ∃ i, 3 ≤ i ∧ i ≤ 4 ∧ x.toNat = 2 ^ i := by
  rw [Option.isSome_iff_exists]
  constructor
  · rintro ⟨s, h⟩
    rw [C11_Dhe] at h
    simp only [List.mem_cons, List.not_mem_nil, or_false, Prod.mk.injEq] at h
    rcases h with ⟨rfl, _⟩ | ⟨rfl, _⟩
    · exact ⟨3, by decide⟩
    · exact ⟨4, by decide⟩
   
  · rintro ⟨i, h1, h2, h3⟩
    have hx : x = UInt16.ofNat (2 ^ i) := by rw [← h3]; simp
    subst hx
    have : i = 3 ∨ i = 4 := by omega
    rcases this with rfl | rfl <;> exact ⟨_, rfl⟩

/-- C11: every size fits the fixed storage (96 bytes). -/
theorem C11_Dhe_bounded (x : UInt16) (s : Nat) (h : Dhe.size? x = some s) : s ≤ 96 := by
  rw [C11_Dhe] at h
  simp only [List.mem_cons, List.not_mem_nil, or_false, Prod.mk.injEq] at h
  omega

set_option maxRecDepth 20000 in
/-- C11: a decoded SpdmDheAlgo that passes the "exactly one valid" check has a size. -/
theorem C11_Dhe_validOne (x : UInt16) (hx : Dhe.WF x) (h : Dhe.validOne x = true) : (Dhe.size? x).isSome := by
  revert h
  exact Dhe.wf_cases (P := fun x => Dhe.validOne x = true → (Dhe.size? x).isSome) (by decide) x hx

/-- C11: a nonempty negotiation outcome has a size. -/
theorem C11_Dhe_negotiated (own peer : UInt16) (h : Dhe.prioritize own peer ≠ 0) :
    (Dhe.size? (Dhe.prioritize own peer)).isSome := by
  rcases C10_Dhe own peer with ⟨b, a, ht, _⟩ | ⟨h0, _⟩
  · have hm : Dhe.prioritize own peer ∈ ([0x10, 0x8] : List UInt16) := by rw [ht]; simp
    generalize Dhe.prioritize own peer = r at hm
    simp only [List.mem_cons, List.not_mem_nil, or_false] at hm
    rcases hm with rfl | rfl <;> decide
  · exact absurd h0 h

/-- C11: the size of SpdmAeadAlgo is defined exactly for the listed single algorithms, with these values. -/
theorem C11_Aead_keySize (x : UInt16) (s : Nat) : Aead.keySize? x = some s ↔ (x, s) ∈ ([(0x1, 16), (0x2, 32), (0x4, 32)] : List (UInt16 × Nat)) := by
  unfold Aead.keySize?
  simp only [Aead.aes128, Aead.aes256, Aead.chacha, List.mem_cons, List.not_mem_nil, or_false, Prod.mk.injEq]
  constructor
  · intro h
    grind (splits := 30)
  · intro h
    rcases h with ⟨rfl, rfl⟩ | ⟨rfl, rfl⟩ | ⟨rfl, rfl⟩ <;> decide

/-- C11: an empty or multi-algorithm value has no size (the Rust code aborts). -/
theorem C11_Aead_keySize_single (x : UInt16) : (Aead.keySize? x).isSome ↔ ∃ i, 0 ≤ i ∧ i ≤ 2 ∧ x.toNat = 2 ^ i := by
  rw [Option.isSome_iff_exists]
  constructor
  · rintro ⟨s, h⟩
    rw [C11_Aead_keySize] at h
    simp only [List.mem_cons, List.not_mem_nil, or_false, Prod.mk.injEq] at h
    rcases h with ⟨rfl, _⟩ | ⟨rfl, _⟩ | ⟨rfl, _⟩
    · exact ⟨0, by decide⟩
    · exact ⟨1, by decide⟩
    · exact ⟨2, by decide⟩
   
  · rintro ⟨i, h1, h2, h3⟩
    have hx : x = UInt16.ofNat (2 ^ i) := by rw [← h3]; simp
    subst hx
    have : i = 0 ∨ i = 1 ∨ i = 2 := by omega
    rcases this with rfl | rfl | rfl <;> exact ⟨_, rfl⟩

/-- C11: every size fits the fixed storage (32 bytes). -/
theorem C11_Aead_keySize_bounded (x : UInt16) (s : Nat) (h : Aead.keySize? x = some s) : s ≤ 32 := by
  rw [C11_Aead_keySize] at h
  simp only [List.mem_cons, List.not_mem_nil, or_false, Prod.mk.injEq] at h
  omega

/-- C11: the size of SpdmAeadAlgo is defined exactly for the listed single algorithms, with these values. -/
theorem C11_Aead_ivSize (x : UInt16) (s : Nat) : Aead.ivSize? x = some s ↔ (x, s) ∈ ([(0x1, 12), (0x2, 12), (0x4, 12)] : List (UInt16 × Nat)) := by
  unfold Aead.ivSize?
  simp only [Aead.aes128, Aead.aes256, Aead.chacha, List.mem_cons, List.not_mem_nil, or_false, Prod.mk.injEq]
  constructor
  · intro h
    grind (splits := 30)
  · intro h
    rcases h with ⟨rfl, rfl⟩ | ⟨rfl, rfl⟩ | ⟨rfl, rfl⟩ <;> decide

/-- C11: an empty or multi-algorithm value has no size (the Rust code aborts). -/
theorem C11_Aead_ivSize_single (x : UInt16) : (Aead.ivSize? x).isSome ↔ ∃ i, 0 ≤ i ∧ i ≤ 2 ∧ x.toNat = 2 ^ i := by
  rw [Option.isSome_iff_exists]
  constructor
  · rintro ⟨s, h⟩
    rw [C11_Aead_ivSize] at h
    simp only [List.mem_cons, List.not_mem_nil, or_false, Prod.mk.injEq] at h
    rcases h with ⟨rfl, _⟩ | ⟨rfl, _⟩ | ⟨rfl, _⟩
    · exact ⟨0, by decide⟩
    · exact ⟨1, by decide⟩
    · exact ⟨2, by decide⟩
   
  · rintro ⟨i, h1, h2, h3⟩
    have hx : x = UInt16.ofNat (2 ^ i) := by rw [← h3]; simp
    subst hx
    have : i = 0 ∨ i = 1 ∨ i = 2 := by omega
    rcases this with rfl | rfl | rfl <;> exact ⟨_, rfl⟩

/-- C11: every size fits the fixed storage (12 bytes). -/
theorem C11_Aead_ivSize_bounded (x : UInt16) (s : Nat) (h : Aead.ivSize? x = some s) : s ≤ 12 := by
  rw [C11_Aead_ivSize] at h
  simp only [List.mem_cons, List.not_mem_nil, or_false, Prod.mk.injEq] at h
  omega

/-- C11: the size of SpdmAeadAlgo is defined exactly for the listed single algorithms, with these values. -/
theorem C11_Aead_tagSize (x : UInt16) (s : Nat) : Aead.tagSize? x = some s ↔ (x, s) ∈ ([(0x1, 16), (0x2, 16), (0x4, 16)] : List (UInt16 × Nat)) := by
  unfold Aead.tagSize?
  simp only [Aead.aes128, Aead.aes256, Aead.chacha, List.mem_cons, List.not_mem_nil, or_false, Prod.mk.injEq]
  constructor
  · intro h
    grind (splits := 30)
  · intro h
    rcases h with ⟨rfl, rfl⟩ | ⟨rfl, rfl⟩ | ⟨rfl, rfl⟩ <;> decide

/-- C11: an empty or multi-algorithm value has no size (the Rust code aborts). -/
theorem C11_Aead_tagSize_single (x : UInt16) : (Aead.tagSize? x).isSome ↔ ∃ i, 0 ≤ i ∧ i ≤ 2 ∧ x.toNat = 2 ^ i := by
  rw [Option.isSome_iff_exists]
  constructor
  · rintro ⟨s, h⟩
    rw [C11_Aead_tagSize] at h
    simp only [List.mem_cons, List.not_mem_nil, or_false, Prod.mk.injEq] at h
    rcases h with ⟨rfl, _⟩ | ⟨rfl, _⟩ | ⟨rfl, _⟩
    · exact ⟨0, by decide⟩
    · exact ⟨1, by decide⟩
    · exact ⟨2, by decide⟩
   
  · rintro ⟨i, h1, h2, h3⟩
    have hx : x = UInt16.ofNat (2 ^ i) := by rw [← h3]; simp
    subst hx
    have : i = 0 ∨ i = 1 ∨ i = 2 := by omega
    rcases this with rfl | rfl | rfl <;> exact ⟨_, rfl⟩

/-- C11: every size fits the fixed storage (16 bytes). -/
theorem C11_Aead_tagSize_bounded (x : UInt16) (s : Nat) (h : Aead.tagSize? x = some s) : s ≤ 16 := by
  rw [C11_Aead_tagSize] at h
  simp only [List.mem_cons, List.not_mem_nil, or_false, Prod.mk.injEq] at h
  omega

set_option maxRecDepth 20000 in
/-- C11: a decoded SpdmAeadAlgo that passes the "exactly one valid" check has a size. -/
theorem C11_Aead_validOne (x : UInt16) (hx : Aead.WF x) (h : Aead.validOne x = true) : (Aead.keySize? x).isSome := by
  revert h
  exact Aead.wf_cases (P := fun x => Aead.validOne x = true → (Aead.keySize? x).isSome) (by decide) x hx

/-- C11: a nonempty negotiation outcome has a size. -/
theorem C11_Aead_negotiated (own peer : UInt16) (h : Aead.prioritize own peer ≠ 0) :
    (Aead.keySize? (Aead.prioritize own peer)).isSome := by
  rcases C10_Aead own peer with ⟨b, a, ht, _⟩ | ⟨h0, _⟩
  · have hm : Aead.prioritize own peer ∈ ([0x2, 0x1, 0x4] : List UInt16) := by rw [ht]; simp
    generalize Aead.prioritize own peer = r at hm
    simp only [List.mem_cons, List.not_mem_nil, or_false] at hm
    rcases hm with rfl | rfl | rfl <;> decide
  · exact absurd h0 h

/-- C11: the size of SpdmReqAsymAlgo is defined exactly for the listed single algorithms, with these values. -/
theorem C11_ReqAsym (x : UInt16) (s : Nat) : ReqAsym.size? x = some s ↔ (x, s) ∈ ([(0x1, 256), (0x2, 256), (0x4, 384), (0x8, 384), (0x20, 512), (0x40, 512), (0x10, 64), (0x80, 96)] : List (UInt16 × Nat)) := by
  unfold ReqAsym.size?
  simp only [ReqAsym.rsassa2048, ReqAsym.rsapss2048, ReqAsym.rsassa3072, ReqAsym.rsapss3072, ReqAsym.rsassa4096, ReqAsym.rsapss4096, ReqAsym.ecdsaP256, ReqAsym.ecdsaP384, List.mem_cons, List.not_mem_nil, or_false, Prod.mk.injEq]
  constructor
  · intro h
    grind (splits := 30)
  · intro h
    rcases h with ⟨rfl, rfl⟩ | ⟨rfl, rfl⟩ | ⟨rfl, rfl⟩ | ⟨rfl, rfl⟩ | ⟨rfl, rfl⟩ | ⟨rfl, rfl⟩ | ⟨rfl, rfl⟩ | ⟨rfl, rfl⟩ <;> decide

/-- C11: an empty or multi-algorithm value has no size (the Rust code aborts). -/
theorem C11_ReqAsym_single (x : UInt16) : (ReqAsym.size? x).isSome ↔ ∃ i, 0 ≤ i ∧ i ≤ 7 ∧ x.toNat = 2 ^ i := by
  rw [Option.isSome_iff_exists]
  constructor
  · rintro ⟨s, h⟩
    rw [C11_ReqAsym] at h
    simp only [List.mem_cons, List.not_mem_nil, or_false, Prod.mk.injEq] at h
    rcases h with ⟨rfl, _⟩ | ⟨rfl, _⟩ | ⟨rfl, _⟩ | ⟨rfl, _⟩ | ⟨rfl, _⟩ | ⟨rfl, _⟩ | ⟨rfl, _⟩ | ⟨rfl, _⟩
    · exact ⟨0, by decide⟩
    · exact ⟨1, by decide⟩
    · exact ⟨2, by decide⟩
    · exact ⟨3, by decide⟩
    · exact ⟨5, by decide⟩
    · exact ⟨6, by decide⟩
    · exact ⟨4, by decide⟩
    · exact ⟨7, by decide⟩
   
  · rintro ⟨i, h1, h2, h3⟩
    have hx : x = UInt16.ofNat (2 ^ i) := by rw [← h3]; simp
    subst hx
    have : i = 0 ∨ i = 1 ∨ i = 2 ∨ i = 3 ∨ i = 4 ∨ i = 5 ∨ i = 6 ∨ i = 7 := by omega
    rcases this with rfl | rfl | rfl | rfl | rfl | rfl | rfl | rfl <;> exact ⟨_, rfl⟩

/-- C11: every size fits the fixed storage (512 bytes). -/
theorem C11_ReqAsym_bounded (x : UInt16) (s : Nat) (h : ReqAsym.size? x = some s) : s ≤ 512 := by
  rw [C11_ReqAsym] at h
  simp only [List.mem_cons, List.not_mem_nil, or_false, Prod.mk.injEq] at h
  omega

set_option maxRecDepth 20000 in
/-- C11: a decoded SpdmReqAsymAlgo that passes the "exactly one valid" check has a size. -/
theorem C11_ReqAsym_validOne (x : UInt16) (hx : ReqAsym.WF x) (h : ReqAsym.validOne x = true) : (ReqAsym.size? x).isSome := by
  revert h
  exact ReqAsym.wf_cases (P := fun x => ReqAsym.validOne x = true → (ReqAsym.size? x).isSome) (by decide) x hx

/-- C11: a nonempty negotiation outcome has a size. -/
theorem C11_ReqAsym_negotiated (own peer : UInt16) (h : ReqAsym.prioritize own peer ≠ 0) :
    (ReqAsym.size? (ReqAsym.prioritize own peer)).isSome := by
  rcases C10_ReqAsym own peer with ⟨b, a, ht, _⟩ | ⟨h0, _⟩
  · have hm : ReqAsym.prioritize own peer ∈ ([0x80, 0x10, 0x40, 0x8, 0x2, 0x20, 0x4, 0x1] : List UInt16) := by rw [ht]; simp
    generalize ReqAsym.prioritize own peer = r at hm
    simp only [List.mem_cons, List.not_mem_nil, or_false] at hm
    rcases hm with rfl | rfl | rfl | rfl | rfl | rfl | rfl | rfl <;> decide
  · exact absurd h0 h

/-- Non-vacuity of C11: a multi-algorithm value aborts, a single one does not. -/
example : BaseHash.size? 3 = none ∧ BaseHash.size? 0 = none ∧ BaseHash.size? 2 = some 48 ∧ BaseHash.validOne 2 = true := by
  decide

/-- The measurement-hash mask leaves out SHA3-384 and SHA3-512 (algo.rs:116-123 lists SHA3-256 three times): those two
have a size, but a peer's selection of them is read as "nothing selected". -/
theorem C11_violated_sha3_measurement_hash_is_dropped (t : Bytes) (u : Nat) :
    MeasHash.read ⟨putU32 0x20 ++ t, u⟩ = .ok 0 ⟨t, u + 4⟩ ∧ MeasHash.size? 0x20 = some 48 ∧ MeasHash.size? 0 = none := by
  refine ⟨?_, by decide, by decide⟩
  rw [MeasHash.read_put]; rfl

end Verif.Props
