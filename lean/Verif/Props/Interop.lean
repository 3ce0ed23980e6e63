/-
C68: which configurations connect.
-/
import Verif.Requester.Wire
import Verif.Props.Agreement
import Verif.Props.Caps
import Verif.Props.Transcript

namespace Verif.Props
open Verif Req Rsp

/-- the versions an end is configured for. -/
def versions (cfg : Config) : List SpdmVersion := [cfg.version0, cfg.version1, cfg.version2]

/-- Both ends have algorithm `a`. -/
def Both {α : Type} [AndOp α] (x y a : α) : Prop := Supports x a ∧ Supports y a

/-- A requester configured as `q` and a responder configured as `r` can speak SPDM version `v`.

Capability bits (DSP0274): MEAS 3/4, ENCRYPT 6, MAC 7, MUT_AUTH 8, KEY_EX 9, PSK 10/11. -/
structure Compatible (v : SpdmVersion) (q r : Config) : Prop where
  /-- `v` is the highest version both are configured for -/
  ours : v ∈ versions q
  theirs : v ∈ versions r
  highest : ∀ w ∈ versions q, w ∈ versions r → w.get ≤ v.get
  /-- the capabilities of each are consistent -/
  reqFlags : 0x11 ≤ v.get → ReqConsistent v.get.toNat (bitOf q.reqCaps)
  rspFlags : RspConsistent v.get.toNat (bitOf r.rspCaps)
  /-- from 1.2: the 52 bytes of ALGORITHMS fit the requester's data transfer size, the 48 of NEGOTIATE_ALGORITHMS the responder's -/
  reqSizes : 0x12 ≤ v.get → 52 ≤ q.dts.toNat ∧ q.dts.toNat ≤ q.mms.toNat
  rspSizes : 0x12 ≤ v.get → 48 ≤ r.dts.toNat ∧ r.dts.toNat ≤ r.mms.toNat
  /-- a common hash and a common signature algorithm, whatever the capabilities -/
  hash : ∃ a ∈ ([0x4, 0x2, 0x1] : List UInt32), Both q.baseHash r.baseHash a
  asym : ∃ a ∈ ([0x80, 0x10, 0x40, 0x8, 0x2, 0x20, 0x4, 0x1] : List UInt32), Both q.baseAsym r.baseAsym a
  /-- measurements: a common specification, and one measurement hash configured at the responder -/
  measSpec : bitOf r.rspCaps 3 ∨ bitOf r.rspCaps 4 → Both q.measSpec r.measSpec 1
  measHash : r.measHash ∈ ([0, 0x1, 0x2, 0x4, 0x8, 0x10, 0x80] : List UInt32) ∧ (bitOf r.rspCaps 3 ∨ bitOf r.rspCaps 4 → r.measHash ≠ 0)
  /-- from 1.2: the opaque data format -/
  format : 0x12 ≤ v.get → q.opaqueSupport = 0 ∨ q.opaqueSupport = 2
  opaqueData : 0x12 ≤ v.get → bitOf r.rspCaps 9 ∨ bitOf r.rspCaps 10 ∨ bitOf r.rspCaps 11 → Both q.opaqueSupport r.opaqueSupport 2
  /-- from 1.1: a common algorithm for what both sides want to do -/
  dhe : 0x11 ≤ v.get → bitOf q.reqCaps 9 ∧ bitOf r.rspCaps 9 → ∃ a ∈ ([0x10, 0x8] : List UInt16), Both q.dhe r.dhe a
  aead : 0x11 ≤ v.get → (bitOf q.reqCaps 6 ∧ bitOf r.rspCaps 6) ∨ (bitOf q.reqCaps 7 ∧ bitOf r.rspCaps 7) →
    ∃ a ∈ ([0x2, 0x1, 0x4] : List UInt16), Both q.aead r.aead a
  reqAsym : 0x11 ≤ v.get → bitOf q.reqCaps 8 ∧ bitOf r.rspCaps 8 →
    ∃ a ∈ ([0x80, 0x10, 0x40, 0x8, 0x2, 0x20, 0x4, 0x1] : List UInt16), Both q.reqAsym r.reqAsym a
  schedule : 0x11 ≤ v.get → (bitOf q.reqCaps 9 ∧ bitOf r.rspCaps 9) ∨ (bitOf q.reqCaps 10 ∧ (bitOf r.rspCaps 10 ∨ bitOf r.rspCaps 11)) →
    Both q.keySchedule r.keySchedule 1

/-- a choice is of something, exactly when there is something in common. -/
theorem chooses_some {α : Type} [AndOp α] [OfNat α 0] {l : List α} {a b r : α} (hl : (0 : α) ∉ l) (h : Chooses l a b r) :
    r ≠ 0 ↔ ∃ x ∈ l, Both a b x := by
  rcases h with ⟨x, y, h, h1, h2, _⟩ | ⟨h, hn⟩
  · constructor
    · intro _
      exact ⟨r, by rw [h]; simp, h1, h2⟩
    · rintro _ rfl
      exact hl (by rw [h]; simp)
  · constructor
    · intro h'; exact absurd h h'
    · rintro ⟨x, hx, hb⟩
      exact absurd hb (hn x hx)

/-- the algorithms of `Compatible`, as the requester's decoder sees the selection. -/
theorem selection_ok {q r : Config} {c : Ctx} {n n' : Neg} (hr : DefinedBits r)
    (hn : c.neg = announced c.neg.version q r)
    (hs : Selected r (negAlgsSeen c.cc (algsRequest q)) n n') (hfmt : 0x12 ≤ c.neg.version.get → q.opaqueSupport = 0 ∨ q.opaqueSupport = 2) :
    (AlgsWF c.cc (algsSeen c.cc (algsOf n')) ∧ n'.baseHash ≠ 0 ∧ n'.baseAsym ≠ 0) ↔
      (∃ a ∈ ([0x4, 0x2, 0x1] : List UInt32), Both q.baseHash r.baseHash a) ∧
      (∃ a ∈ ([0x80, 0x10, 0x40, 0x8, 0x2, 0x20, 0x4, 0x1] : List UInt32), Both q.baseAsym r.baseAsym a) ∧
      (bitOf r.rspCaps 3 ∨ bitOf r.rspCaps 4 → Both q.measSpec r.measSpec 1) ∧
      (r.measHash ∈ ([0, 0x1, 0x2, 0x4, 0x8, 0x10, 0x80] : List UInt32) ∧ (bitOf r.rspCaps 3 ∨ bitOf r.rspCaps 4 → r.measHash ≠ 0)) ∧
      (0x12 ≤ c.neg.version.get → bitOf r.rspCaps 9 ∨ bitOf r.rspCaps 10 ∨ bitOf r.rspCaps 11 → Both q.opaqueSupport r.opaqueSupport 2) ∧
      (0x11 ≤ c.neg.version.get → bitOf q.reqCaps 9 ∧ bitOf r.rspCaps 9 → ∃ a ∈ ([0x10, 0x8] : List UInt16), Both q.dhe r.dhe a) ∧
      (0x11 ≤ c.neg.version.get → (bitOf q.reqCaps 6 ∧ bitOf r.rspCaps 6) ∨ (bitOf q.reqCaps 7 ∧ bitOf r.rspCaps 7) →
        ∃ a ∈ ([0x2, 0x1, 0x4] : List UInt16), Both q.aead r.aead a) ∧
      (0x11 ≤ c.neg.version.get → bitOf q.reqCaps 8 ∧ bitOf r.rspCaps 8 →
        ∃ a ∈ ([0x80, 0x10, 0x40, 0x8, 0x2, 0x20, 0x4, 0x1] : List UInt16), Both q.reqAsym r.reqAsym a) ∧
      (0x11 ≤ c.neg.version.get → (bitOf q.reqCaps 9 ∧ bitOf r.rspCaps 9) ∨ (bitOf q.reqCaps 10 ∧ (bitOf r.rspCaps 10 ∨ bitOf r.rspCaps 11)) →
        Both q.keySchedule r.keySchedule 1) := by
  have h12 : c.cc.ge12 = true ↔ 0x12 ≤ c.neg.version.get := by simp [Cc.ge12, Cc.ver, Ctx.cc]
  have h11 : c.cc.ge11 = true ↔ 0x11 ≤ c.neg.version.get := by simp [Cc.ge11, Cc.ver, Ctx.cc]
  obtain ⟨w1, w2, w3, w4, w5⟩ := selected_wf hs hr.measHash
  -- the capabilities the decoder looks at
  have hrc : c.cc.neg.rspCaps = r.rspCaps := by show c.neg.rspCaps = _; rw [hn]; rfl
  have hqc : c.cc.neg.reqCaps = q.reqCaps := by show c.neg.reqCaps = _; rw [hn]; rfl
  obtain ⟨_, _, r3, r4, _, r6, r7, r8, r9, _, r10, _, r11, _⟩ := cap_bits r.rspCaps
  obtain ⟨_, _, _, _, _, q6, q7, q8, q9, q10, _⟩ := cap_bits q.reqCaps
  have m1 : c.cc.measCap = true ↔ bitOf r.rspCaps 3 ∨ bitOf r.rspCaps 4 := by
    unfold Cc.measCap; rw [hrc, Bool.or_eq_true, r3, r4]
  have m2 : c.cc.needOpaque = true ↔ 0x12 ≤ c.neg.version.get ∧ (bitOf r.rspCaps 9 ∨ bitOf r.rspCaps 10 ∨ bitOf r.rspCaps 11) := by
    unfold Cc.needOpaque; rw [hrc, Bool.and_eq_true, h12, Bool.or_eq_true, Bool.or_eq_true, r9, r10, r11, or_assoc]
  have m3 : c.cc.keyExBoth = true ↔ bitOf q.reqCaps 9 ∧ bitOf r.rspCaps 9 := by
    unfold Cc.keyExBoth; rw [hrc, hqc, Bool.and_eq_true, r9, q9, and_comm]
  have m4 : c.cc.needAead = true ↔ (bitOf q.reqCaps 6 ∧ bitOf r.rspCaps 6) ∨ (bitOf q.reqCaps 7 ∧ bitOf r.rspCaps 7) := by
    unfold Cc.needAead; rw [hrc, hqc, Bool.or_eq_true, Bool.and_eq_true, Bool.and_eq_true, r6, q6, r7, q7, and_comm, and_comm (a := bitOf r.rspCaps 7)]
  have m5 : c.cc.mutAuthBoth = true ↔ bitOf q.reqCaps 8 ∧ bitOf r.rspCaps 8 := by
    unfold Cc.mutAuthBoth; rw [hrc, hqc, Bool.and_eq_true, r8, q8, and_comm]
  have m6 : c.cc.pskBoth = true ↔ bitOf q.reqCaps 10 ∧ (bitOf r.rspCaps 10 ∨ bitOf r.rspCaps 11) := by
    unfold Cc.pskBoth; rw [hrc, hqc, Bool.and_eq_true, Bool.or_eq_true, r10, r11, q10, and_comm]
  -- what was offered
  have o : ∀ k (x : UInt16), offered k (negAlgsSeen c.cc (algsRequest q)) x = if c.cc.ge11 = true then offered k (algsRequest q) x else x := by
    intro k x
    unfold offered negAlgsSeen
    by_cases g : c.cc.ge11 = true <;> simp [g]
  have s1 : Chooses ([0x4, 0x2, 0x1] : List UInt32) q.baseHash r.baseHash n'.baseHash := hs.hash
  have s2 : Chooses ([0x80, 0x10, 0x40, 0x8, 0x2, 0x20, 0x4, 0x1] : List UInt32) q.baseAsym r.baseAsym n'.baseAsym := hs.asym
  have s3 : Chooses ([0x1] : List UInt8) q.measSpec r.measSpec n'.measSpec := hs.measSpec
  have c1 := chooses_some (by decide) s1
  have c2 := chooses_some (by decide) s2
  have c3 := chooses_some (by decide) s3
  have i1 := chooses_mem s1
  have i2 := chooses_mem s2
  have i3 := chooses_mem s3
  have s4 := hs.dhe
  have s5 := hs.aead
  have s6 := hs.reqAsym
  have s7 := hs.schedule
  have i4 := chooses_mem s4
  have i5 := chooses_mem s5
  have i6 := chooses_mem s6
  have i7 := chooses_mem s7
  have v1 : BaseHash.noMoreThanOne n'.baseHash = true ∧ (n'.baseHash ≠ 0 → BaseHash.validOne n'.baseHash = true) := by
    revert i1; generalize n'.baseHash = x; intro i1
    have : x ∈ ([0x4, 0x2, 0x1, 0] : List UInt32) := by simpa [or_assoc] using i1
    clear i1
    revert x; decide
  have v2 : BaseAsym.noMoreThanOne n'.baseAsym = true ∧ (n'.baseAsym ≠ 0 → BaseAsym.validOne n'.baseAsym = true) := by
    revert i2; generalize n'.baseAsym = x; intro i2
    have : x ∈ ([0x80, 0x10, 0x40, 0x8, 0x2, 0x20, 0x4, 0x1, 0] : List UInt32) := by simpa [or_assoc] using i2
    clear i2
    revert x; decide
  have v3 : MeasSpec.noMoreThanOne n'.measSpec = true ∧ (MeasSpec.validOne n'.measSpec = true ↔ n'.measSpec ≠ 0) := by
    revert i3; generalize n'.measSpec = x; intro i3
    have : x ∈ ([0x1, 0] : List UInt8) := by simpa [or_assoc] using i3
    clear i3
    revert x; decide
  have v4 : Dhe.noMoreThanOne n'.dhe = true ∧ (Dhe.validOne n'.dhe = true ↔ n'.dhe ≠ 0) := by
    revert i4; generalize n'.dhe = x; intro i4
    have : x ∈ ([0x10, 0x8, 0] : List UInt16) := by simpa [or_assoc] using i4
    clear i4
    revert x; decide
  have v5 : Aead.noMoreThanOne n'.aead = true ∧ (Aead.validOne n'.aead = true ↔ n'.aead ≠ 0) := by
    revert i5; generalize n'.aead = x; intro i5
    have : x ∈ ([0x2, 0x1, 0x4, 0] : List UInt16) := by simpa [or_assoc] using i5
    clear i5
    revert x; decide
  have v6 : ReqAsym.noMoreThanOne n'.reqAsym = true ∧ (ReqAsym.validOne n'.reqAsym = true ↔ n'.reqAsym ≠ 0) := by
    revert i6; generalize n'.reqAsym = x; intro i6
    have : x ∈ ([0x80, 0x10, 0x40, 0x8, 0x2, 0x20, 0x4, 0x1, 0] : List UInt16) := by simpa [or_assoc] using i6
    clear i6
    revert x; decide
  have v7 : KeySchedule.noMoreThanOne n'.keySchedule = true ∧ (KeySchedule.validOne n'.keySchedule = true ↔ n'.keySchedule ≠ 0) := by
    revert i7; generalize n'.keySchedule = x; intro i7
    have : x ∈ ([0x1, 0] : List UInt16) := by simpa [or_assoc] using i7
    clear i7
    revert x; decide
  have v8 : MeasHash.noMoreThanOne n'.measHash = true ↔ r.measHash ∈ ([0, 0x1, 0x2, 0x4, 0x8, 0x10, 0x80] : List UInt32) := by
    rw [hs.measHash]
    exact MeasHash.wf_cases (P := fun x => MeasHash.noMoreThanOne x = true ↔ x ∈ ([0, 0x1, 0x2, 0x4, 0x8, 0x10, 0x80] : List UInt32)) (by decide +kernel) r.measHash hr.measHash
  have v9 : r.measHash ∈ ([0, 0x1, 0x2, 0x4, 0x8, 0x10, 0x80] : List UInt32) → (MeasHash.validOne n'.measHash = true ↔ r.measHash ≠ 0) := by
    rw [hs.measHash]
    generalize r.measHash = x
    revert x; decide
  -- the opaque format
  have hop : (algsSeen c.cc (algsOf n')).other = if c.cc.ge12 = true then r.opaqueSupport &&& q.opaqueSupport else 0 := by
    unfold algsSeen
    by_cases g : c.cc.ge12 = true
    · simp only [g, if_true]
      show n'.opaqueSupport = _
      rw [hs.opaqueData]
      unfold negAlgsSeen
      simp only [g, if_true]
      rfl
    · simp [g]
  have hop2 : 0x12 ≤ c.neg.version.get → (r.opaqueSupport &&& q.opaqueSupport = 0 ∧ ¬ Both q.opaqueSupport r.opaqueSupport 2) ∨
      (r.opaqueSupport &&& q.opaqueSupport = 2 ∧ Both q.opaqueSupport r.opaqueSupport 2) := by
    intro g
    have h2 : ∀ x : UInt8, x &&& 2 = 0 ∨ x &&& 2 = 2 := by
      intro x
      have := UInt8.and_comm x 2
      have hb : ∀ y : Fin 256, (UInt8.ofNat y.val) &&& 2 = 0 ∨ (UInt8.ofNat y.val) &&& 2 = 2 := by decide +kernel
      have := hb ⟨x.toNat, x.toNat_lt⟩
      simpa using this
    unfold Both Supports
    rcases hfmt g with hf | hf
    · rw [hf]
      left
      refine ⟨by simp, ?_⟩
      rintro ⟨h, _⟩
      exact absurd h (by decide)
    · rw [hf]
      rcases h2 r.opaqueSupport with h | h
      · left
        refine ⟨h, ?_⟩
        rintro ⟨_, h'⟩
        rw [h] at h'
        exact absurd h' (by decide)
      · right
        exact ⟨h, by decide, h⟩
  have hother : ((algsSeen c.cc (algsOf n')).other = 0 ∨ (c.cc.ge12 = true ∧ (algsSeen c.cc (algsOf n')).other = 2)) ∧
      opaqueNoMoreThanOne (algsSeen c.cc (algsOf n')).other = true ∧
      ((c.cc.needOpaque = true → opaqueValidOne (algsSeen c.cc (algsOf n')).other = true) ↔
        (0x12 ≤ c.neg.version.get → bitOf r.rspCaps 9 ∨ bitOf r.rspCaps 10 ∨ bitOf r.rspCaps 11 → Both q.opaqueSupport r.opaqueSupport 2)) := by
    rw [m2, hop]
    by_cases g : 0x12 ≤ c.neg.version.get
    · rw [if_pos (h12.2 g)]
      rcases hop2 g with ⟨h, hb⟩ | ⟨h, hb⟩
      · rw [h]
        refine ⟨.inl rfl, by decide, ?_⟩
        simp only [g, true_and, true_implies, hb]
        rw [show opaqueValidOne 0 = false by decide]
        simp
      · rw [h]
        refine ⟨.inr ⟨h12.2 g, rfl⟩, by decide, ?_⟩
        simp only [g, true_and, true_implies, hb]
        rw [show opaqueValidOne 2 = true by decide]
        simp
    · rw [if_neg (mt h12.1 g)]
      refine ⟨.inl rfl, by decide, ?_⟩
      simp [g]
  -- the algorithm structures
  have hlist : AlgListWF c.cc (algsSeen c.cc (algsOf n')).algs := by
    unfold algsSeen
    by_cases g : c.cc.ge11 = true
    · simp only [g, if_true]
      refine ⟨by simp [algsOf], w5, ?_, fun h => by rw [g] at h; cases h⟩
      simp only [algsOf, List.map_cons, List.map_nil]
      decide
    · simp only [g]
      exact ⟨by simp, by simp, by simp, fun _ => rfl⟩
  have hstr : (∀ a ∈ (algsSeen c.cc (algsOf n')).algs, algSelOk c.cc a.alg = true) ↔
      (0x11 ≤ c.neg.version.get → (c.cc.keyExBoth = true → n'.dhe ≠ 0) ∧ (c.cc.needAead = true → n'.aead ≠ 0) ∧ (c.cc.mutAuthBoth = true → n'.reqAsym ≠ 0) ∧
        (c.cc.keyExBoth = true ∨ c.cc.pskBoth = true → n'.keySchedule ≠ 0)) := by
    unfold algsSeen
    by_cases g : 0x11 ≤ c.neg.version.get
    · simp only [h11.2 g, if_true, g, true_implies, algsOf, List.mem_cons, List.not_mem_nil, or_false, forall_eq_or_imp, forall_eq, algSelOk, v4.1, v5.1, v6.1, v7.1,
        Bool.true_and, Bool.not_eq_true', Bool.and_eq_false_iff, Bool.not_eq_false']
      rw [← v4.2, ← v5.2, ← v6.2, ← v7.2]
      cases c.cc.keyExBoth <;> cases c.cc.needAead <;> cases c.cc.mutAuthBoth <;> cases c.cc.pskBoth <;> simp
    · simp [mt h11.1 g, g]
  have d1 : 0x11 ≤ c.neg.version.get → (n'.dhe ≠ 0 ↔ ∃ a ∈ ([0x10, 0x8] : List UInt16), Both q.dhe r.dhe a) := by
    intro g
    rw [o, if_pos (h11.2 g)] at s4
    exact chooses_some (by decide) s4
  have d2 : 0x11 ≤ c.neg.version.get → (n'.aead ≠ 0 ↔ ∃ a ∈ ([0x2, 0x1, 0x4] : List UInt16), Both q.aead r.aead a) := by
    intro g
    rw [o, if_pos (h11.2 g)] at s5
    exact chooses_some (by decide) s5
  have d3 : 0x11 ≤ c.neg.version.get → (n'.reqAsym ≠ 0 ↔ ∃ a ∈ ([0x80, 0x10, 0x40, 0x8, 0x2, 0x20, 0x4, 0x1] : List UInt16), Both q.reqAsym r.reqAsym a) := by
    intro g
    rw [o, if_pos (h11.2 g)] at s6
    exact chooses_some (by decide) s6
  have d4 : 0x11 ≤ c.neg.version.get → (n'.keySchedule ≠ 0 ↔ Both q.keySchedule r.keySchedule 1) := by
    intro g
    rw [o, if_pos (h11.2 g)] at s7
    have h1 : offered scheduleOf (algsRequest q) n.keySchedule = q.keySchedule := rfl
    rw [h1] at s7
    have := chooses_some (by decide) s7
    simpa using this
  have c3' : n'.measSpec ≠ 0 ↔ Both q.measSpec r.measSpec 1 := by simpa using c3
  have f1 : (algsSeen c.cc (algsOf n')).measSpec = n'.measSpec := rfl
  have f2 : (algsSeen c.cc (algsOf n')).measHash = n'.measHash := rfl
  have f3 : (algsSeen c.cc (algsOf n')).asym = n'.baseAsym := rfl
  have f4 : (algsSeen c.cc (algsOf n')).hash = n'.baseHash := rfl
  unfold AlgsWF AlgsSelOk
  rw [f1, f2, f3, f4, hstr, ← c1, ← c2]
  constructor
  · rintro ⟨⟨_, _, _, _, _, _, ⟨_, k1⟩, ⟨_, k2⟩, ⟨k3, k4⟩, _, _, k5⟩, k6, k7⟩
    have hm := v8.1 k3
    refine ⟨k6, k7, fun h => c3'.1 (v3.2.1 (k1 (m1.2 h))), ⟨hm, fun h => (v9 hm).1 (k4 (m1.2 h))⟩, hother.2.2.1 k2, ?_, ?_, ?_, ?_⟩
    · intro g h; exact (d1 g).1 ((k5 g).1 (m3.2 h))
    · intro g h; exact (d2 g).1 ((k5 g).2.1 (m4.2 h))
    · intro g h; exact (d3 g).1 ((k5 g).2.2.1 (m5.2 h))
    · intro g h
      refine (d4 g).1 ((k5 g).2.2.2 ?_)
      rcases h with h | h
      · exact .inl (m3.2 h)
      · exact .inr (m6.2 h)
  · rintro ⟨k6, k7, k1, ⟨hm, k4⟩, k2, k8, k9, k10, k11⟩
    refine ⟨⟨w1, w2, w3, w4, hother.1, hlist, ⟨v3.1, fun h => v3.2.2 (c3'.2 (k1 (m1.1 h)))⟩, ⟨hother.2.1, hother.2.2.2 k2⟩,
      ⟨v8.2 hm, fun h => (v9 hm).2 (k4 (m1.1 h))⟩, ⟨v2.1, fun _ => v2.2 k7⟩, ⟨v1.1, fun _ => v1.2 k6⟩, fun g => ⟨?_, ?_, ?_, ?_⟩⟩, k6, k7⟩
    · intro h; exact (d1 g).2 (k8 g (m3.1 h))
    · intro h; exact (d2 g).2 (k9 g (m4.1 h))
    · intro h; exact (d3 g).2 (k10 g (m5.1 h))
    · intro h
      refine (d4 g).2 (k11 g ?_)
      rcases h with h | h
      · exact .inl (m3.1 h)
      · exact .inr (m6.1 h)

/-- the version codes of this library. -/
def KnownVersions (cfg : Config) : Prop := ∀ v ∈ versions cfg, v = .v10 ∨ v = .v11 ∨ v = .v12

theorem known_get {v w : SpdmVersion} (hv : v = .v10 ∨ v = .v11 ∨ v = .v12) (hw : w = .v10 ∨ w = .v11 ∨ w = .v12) (h : v.get = w.get) : v = w := by
  rcases hv with rfl | rfl | rfl <;> rcases hw with rfl | rfl | rfl <;> first | rfl | exact absurd h (by decide)

/-- GET_VERSION succeeded: the version selected is the highest the two ends have in common. -/
theorem version_settles {e : REnv} {f : Env} {r0 : Ctx} (hl : Linked e f r0) {c c' rc : Ctx} {u : Unit} (h : getVersion e c = .ok u c')
    (hrun : Toy.runAll f r0 c.sent = some rc) (hq : KnownVersions c.config) (hr : KnownVersions rc.config) :
    (c'.neg.version ∈ versions c.config ∧ c'.neg.version ∈ versions rc.config ∧ ∀ w ∈ versions c.config, w ∈ versions rc.config → w.get ≤ c'.neg.version.get) ∧
      c'.rt.messageA.length ≤ 16 := by
  obtain ⟨pkt, bytes, t, v, m, r', h1, h2, h3, h4, rfl⟩ := getVersion_ok h
  obtain ⟨rc0, rc', pad, pad', b, c1, pktr, g1, g2, g3, g4, g5⟩ := hl.answer (x := versionRsp) h1 h2 (fun _ => rfl) (fun t => codes_versionRsp _ t)
    (by decide) (by decide)
  rw [hrun] at g1
  cases g1
  have hx := versionRsp_ok 0 0 pad rc
  rcases g4 with g4 | ⟨rep, g4, _⟩
  · rw [show ([0, 0] ++ pad : Bytes) = 0 :: 0 :: pad from rfl, hx] at g4
    obtain ⟨rfl, rfl⟩ : versionBytes rc.config = b ∧ fresh rc [0x10, 0x84, 0, 0] = c1 := by
      injection g4 with q1 q2
      exact ⟨q1, q2⟩
    rw [h2] at g3
    simp only [versionBytes, List.cons_append, List.nil_append, List.cons.injEq] at g3
    obtain ⟨_, _, rfl⟩ := g3
    have hoff : versionsOffered (0 :: 0 :: 0 :: 3 :: 0 :: rc.config.version0.get :: 0 :: rc.config.version1.get :: 0 :: rc.config.version2.get :: pad') =
        [rc.config.version0.get, rc.config.version1.get, rc.config.version2.get] := rfl
    have hk : ∀ v : SpdmVersion, (v = .v10 ∨ v = .v11 ∨ v = .v12) → 0x10 ≤ v.get := by
      rintro v (rfl | rfl | rfl) <;> decide
    have hge : ∀ b ∈ versionsOffered (0 :: 0 :: 0 :: 3 :: 0 :: rc.config.version0.get :: 0 :: rc.config.version1.get :: 0 :: rc.config.version2.get :: pad'), 0x10 ≤ b := by
      rw [hoff]
      intro b hb
      simp only [List.mem_cons, List.not_mem_nil, or_false] at hb
      rcases hb with rfl | rfl | rfl
      · exact hk _ (hr _ (by simp [versions]))
      · exact hk _ (hr _ (by simp [versions]))
      · exact hk _ (hr _ (by simp [versions]))
    have hmem : ∀ b, b ∈ [rc.config.version0.get, rc.config.version1.get, rc.config.version2.get] ↔ ∃ w ∈ versions rc.config, w.get = b := by
      intro b
      simp [versions, eq_comm]
    have hsel : (selectVersion c.config m ∈ versions c.config ∧ selectVersion c.config m ∈ versions rc.config ∧
        ∀ w ∈ versions c.config, w ∈ versions rc.config → w.get ≤ (selectVersion c.config m).get) := by
      rw [select_find h3 hge] at h4 ⊢
      cases hf : (sortVersions ((versionsOffered (0 :: 0 :: 0 :: 3 :: 0 :: rc.config.version0.get :: 0 :: rc.config.version1.get :: 0 ::
          rc.config.version2.get :: pad')).map SpdmVersion.ofCode)).find? (supportsVersion c.config) with
      | none => rw [hf] at h4; cases h4
      | some w =>
        rw [hf] at h4
        dsimp only [Option.getD] at h4 ⊢
        obtain ⟨b, hb, rfl⟩ := List.mem_map.1 (sort_mem.1 (List.mem_of_find?_eq_some hf))
        rw [hoff, hmem] at hb
        obtain ⟨w, hw, rfl⟩ := hb
        have hs := List.find?_some hf
        have hin : SpdmVersion.ofCode w.get ∈ versions c.config := by
          unfold supportsVersion at hs
          simpa [versions, or_assoc] using hs
        have heq : SpdmVersion.ofCode w.get = w := known_get (hq _ hin) (hr _ hw) (SpdmVersion.get_ofCode _)
        refine ⟨hin, by rw [heq]; exact hw, fun w' h1 h2 => ?_⟩
        have hb' : w'.get ∈ versionsOffered (0 :: 0 :: 0 :: 3 :: 0 :: rc.config.version0.get :: 0 :: rc.config.version1.get :: 0 :: rc.config.version2.get :: pad') := by
          rw [hoff, hmem]; exact ⟨w', h2, rfl⟩
        have hkn : KnowsVersion c.config w'.get := ⟨w', rfl, hq _ h1, by simpa [versions] using h1⟩
        have := find_first (sort_sorted _) hf (fun _ => UInt8.le_refl _) (SpdmVersion.ofCode w'.get) (sort_mem.2 (List.mem_map_of_mem hb')) (of_knows hkn).1
        simpa using this
    obtain ⟨m', r'', hr'', hu⟩ := version_reads (t := 0 :: 0 :: 0 :: 3 :: 0 :: rc.config.version0.get :: 0 :: rc.config.version1.get :: 0 :: rc.config.version2.get :: pad')
      (by simp) (by simp) (by simp)
    rw [hr''] at h3
    cases h3
    refine ⟨hsel, ?_⟩
    simp only [List.length_append, List.length_take, List.length_cons, List.length_nil]
    omega
  · rw [show ([0, 0] ++ pad : Bytes) = 0 :: 0 :: pad from rfl, hx] at g4
    cases g4

/-- the algorithm request is well formed, exactly when the opaque data format of the configuration is. -/
theorem ask_ok {q : Config} {c : Ctx} (hq : DefinedBits q) :
    NegAlgsWF c.cc (negAlgsSeen c.cc (algsRequest q)) ↔ (0x12 ≤ c.neg.version.get → q.opaqueSupport = 0 ∨ q.opaqueSupport = 2) := by
  have h12 : c.cc.ge12 = true ↔ 0x12 ≤ c.neg.version.get := by simp [Cc.ge12, Cc.ver, Ctx.cc]
  have hl : AlgListWF c.cc (negAlgsSeen c.cc (algsRequest q)).algs := by
    unfold negAlgsSeen
    by_cases g : c.cc.ge11 = true
    · simp only [g, if_true]
      refine ⟨by simp [algsRequest], request_wf hq, ?_, fun h => by rw [g] at h; cases h⟩
      simp only [algsRequest, List.map_cons, List.map_nil]
      decide
    · simp only [g]
      exact ⟨by simp, by simp, by simp, fun _ => rfl⟩
  unfold NegAlgsWF
  constructor
  · rintro ⟨_, _, _, ho, _⟩ g
    unfold negAlgsSeen at ho
    simp only [h12.2 g, if_true, true_and] at ho
    exact ho
  · intro h
    refine ⟨hq.measSpec, hq.baseAsym, hq.baseHash, ?_, hl⟩
    unfold negAlgsSeen
    by_cases g : 0x12 ≤ c.neg.version.get
    · simp only [h12.2 g, if_true, true_and]
      exact h g
    · simp only [mt h12.1 g]
      exact .inl rfl

theorem uses_caps (c : Cc) : UsesAtMost 18 (rdCaps c) := by
  unfold rdCaps
  refine .bind 1 (by decide) uses_u8 fun _ => .bind 1 (by decide) uses_u8 fun _ => .bind 1 (by decide) uses_u8 fun _ => .bind 1 (by decide) uses_u8 fun _ =>
    .bind 2 (by decide) uses_u16 fun _ => .bind 4 (by decide) ?_ fun _ => .ite (fun _ => .none _) fun _ => .ite (fun _ => ?_) fun _ => .pure _ _
  · exact .bind 4 (by decide) uses_u32 fun _ => .pure _ _
  · exact .bind 4 (by decide) uses_u32 fun _ => .bind 4 (by decide) uses_u32 fun _ => .ite (fun _ => .none _) fun _ => .pure _ _

theorem capabilities_grow {e : REnv} {c c' : Ctx} {u : Unit} (h : getCapabilities e c = .ok u c') : c'.rt.messageA.length ≤ c.rt.messageA.length + 40 := by
  obtain ⟨req, pkt, bytes, t, m, r', h1, rfl, h2, hv, h3, rfl⟩ := getCapabilities_ok h
  have := uses_caps _ _ _ _ h3
  have hw : (getCapsWire c.cc (capsRequest c.config)).length ≤ 18 := by
    unfold getCapsWire; split <;> split <;> simp [putU16, putU32]
  simp only [List.length_append, List.length_take, List.length_cons]
  dsimp only at this
  omega

theorem takeAlgs_fields (m : Algs) (n : Neg) (hh : m.hash ≠ 0) (ha : m.asym ≠ 0) :
    (takeAlgs m n).1.version = n.version ∧ (takeAlgs m n).1.baseHash = m.hash ∧ (takeAlgs m n).1.baseAsym = m.asym := by
  unfold takeAlgs
  dsimp only
  rw [if_neg hh, if_neg ha]
  dsimp only
  rw [offerAlg_fold]
  exact ⟨rfl, rfl, rfl⟩

theorem algsBytes_length {n : Neg} (h : 0x12 ≤ n.version.get) : (algsBytes n).length = 52 := by
  have : 0x11 ≤ n.version.get := UInt8.le_trans (by decide) h
  unfold algsBytes
  simp [this, putU16, putU32]

theorem negAlgsWire_length {c : Cc} {cfg : Config} (h : 0x12 ≤ c.neg.version.get) : (negAlgsWire c (algsRequest cfg)).length = 46 := by
  have h11 : c.ge11 = true := by
    simp only [Cc.ge11, Cc.ver, decide_eq_true_eq, ge_iff_le]
    exact UInt8.le_trans (by decide) h
  unfold negAlgsWire
  simp [h11, putU16, putU32, algsRequest, AlgStruct.wire]

/-- `initConnection` of a requester that has not negotiated before, against a responder that has not crashed. -/
theorem connects_iff {e : REnv} {f : Env} {r0 : Ctx} (hl : Delivers e f r0) (hf : HashLaw f) (hh : ∀ h ∈ ([1, 2, 4] : List UInt32), ∀ b, (f.crypto.hash h b).isSome = true)
    {c rc : Ctx} (hrun : Toy.runAll f r0 c.sent = some rc) (hp : ∀ l rc, Toy.runAll f r0 l = some rc → Provisioned f rc) (hn : c.neg = {})
    (hq : DefinedBits c.config) (hr : DefinedBits r0.config) (hqv : KnownVersions c.config) (hrv : KnownVersions r0.config) (v : SpdmVersion) :
    (∃ c', initConnection e c = .ok () c' ∧ c'.neg.version = v) ↔ Compatible v c.config r0.config := by
  have hrc : rc.config = r0.config := config_kept hf hrun
  have hver : ∀ v : SpdmVersion, (v = .v10 ∨ v = .v11 ∨ v = .v12) → SpdmVersion.ofCode v.get = v ∧ 0x10 ≤ v.get := by
    rintro v (rfl | rfl | rfl) <;> decide
  constructor
  · rintro ⟨c', h, rfl⟩
    obtain ⟨_, c1, h1, z1⟩ := M.bind_ok.1 h
    obtain ⟨_, c2, h2, h3⟩ := M.bind_ok.1 z1
    have hfit := negotiate_fits h3
    obtain ⟨rc1, a1, a2, a3, a4, ⟨v, a5⟩, a6⟩ := linked_version hl.toLinked h1
    obtain ⟨⟨s1, s2, s3⟩, s4⟩ := version_settles hl.toLinked h1 hrun hqv (by rw [hrc]; exact hrv)
    rw [hrc] at s2 s3
    have hrc1 : rc1.config = r0.config := config_kept hf a1
    have hgrow := capabilities_grow h2
    obtain ⟨rc2, b1, b2, b3, b4, b5, b6, b7⟩ := linked_capabilities hl.toLinked h2 a1 a2 a3 a4 ⟨v, by rw [a5, hn]⟩ (by rw [a6]; exact hq.reqCaps)
      (by rw [hrc1]; exact hr.rspCaps) (by omega)
    obtain ⟨k1, k2, k3, k4⟩ := capabilities_accepted hl.toLinked h2 a1 (by rw [a6]; exact hq.reqCaps) b7
    have hfd := algorithms_fitted h3
    have hv2 : c2.neg.version = c1.neg.version := by rw [b7]; rfl
    have hb7 : c2.neg = announced c2.neg.version c2.config rc2.config := by rw [hv2, b6, b5]; exact b7
    obtain ⟨rc3, d1, d2, d3, d4, d5, d6, d7, d8, d9, d10⟩ := linked_algorithms hl.toLinked h3 b1 b2 b3 b4 hb7 (by rw [b6, a6]; exact hq)
      (by rw [b5, hrc1]; exact hr) hfit
    obtain ⟨_, _, _, _, m, _, _, _, _, hv3, hm, hm1, hm2, hc'⟩ := negotiateAlgorithms_ok h3
    obtain ⟨t1, t2, t3⟩ := takeAlgs_fields m c2.neg hm1 hm2
    have hsame : rc3.neg.baseHash ≠ 0 ∧ rc3.neg.baseAsym ≠ 0 ∧ c'.neg.version = c2.neg.version ∧ rc3.neg.version = c2.neg.version := by
      have q1 : c'.neg.version = c2.neg.version := by rw [hc']; exact t1
      have q2 : c'.neg.baseHash = m.hash := by rw [hc']; exact t2
      have q3 : c'.neg.baseAsym = m.asym := by rw [hc']; exact t3
      have w1 : rc3.neg.baseHash = c'.neg.baseHash := by rw [d2]; split <;> rfl
      have w2 : rc3.neg.baseAsym = c'.neg.baseAsym := by rw [d2]; split <;> rfl
      have w3 : rc3.neg.version = c'.neg.version := by rw [d2]; split <;> rfl
      exact ⟨by rw [w1, q2]; exact hm1, by rw [w2, q3]; exact hm2, q1, w3.trans q1⟩
    obtain ⟨e1, e2, e3, e4⟩ := hsame
    have hcfg2 : c2.config = c.config := by rw [b6, a6]
    have hrc2 : rc2.config = r0.config := by rw [b5, hrc1]
    rw [hcfg2] at hb7 d7 d9 hfd
    rw [hrc2] at hb7 d7
    have hfmt := (ask_ok hq).1 d9
    have hsel := (selection_ok hr hb7 d7 hfmt).1 ⟨d8, e1, e2⟩
    rw [e3, hv2]
    rw [hv2] at hsel hfmt
    obtain ⟨o1, o2, o3, o4, o5, o6, o7, o8, o9⟩ := hsel
    have h12 : c1.cc.ge12 = true ↔ 0x12 ≤ c1.neg.version.get := by simp [Cc.ge12, Cc.ver, Ctx.cc]
    have h11 : c1.cc.ge11 = true ↔ 0x11 ≤ c1.neg.version.get := by simp [Cc.ge11, Cc.ver, Ctx.cc]
    rw [a6] at k1 k2
    rw [hrc1] at k3 k4
    refine ⟨s1, s2, s3, fun g => (reqRefused_iff _ _).1 (k1 (h11.2 g)), (rspRefused_iff _ _).1 k3, fun g => ?_, fun g => ?_, o1, o2, o3, o4, hfmt, o5, o6, o7, o8, o9⟩
    · have := k2 (h12.2 g)
      refine ⟨?_, this.2⟩
      rw [hb7, hv2, algsBytes_length (by rw [e4, hv2]; exact g)] at d10
      unfold announced at d10
      simp only [g, if_true] at d10
      rcases d10 with d10 | d10
      · rw [d10] at this
        exact absurd this.1 (by decide)
      · exact d10
    · have := k4 (h12.2 g)
      refine ⟨?_, this.2⟩
      rw [negAlgsWire_length (c := c2.cc) (by show 0x12 ≤ c2.neg.version.get; rw [hv2]; exact g), hb7, hv2] at hfd
      unfold announced at hfd
      simp only [g, if_true] at hfd
      rcases hfd with d10 | d10
      · rw [d10] at this
        exact absurd this.1 (by decide)
      · exact d10
  · intro h
    obtain ⟨c1, h1⟩ := version_goes hl hrun (by rw [hn]) hqv (by rw [hrc]; exact hrv) ⟨v, h.ours, by rw [hrc]; exact h.theirs⟩
    obtain ⟨rc1, a1, a2, a3, a4, ⟨v1, a5⟩, a6⟩ := linked_version hl.toLinked h1
    obtain ⟨⟨s1, s2, s3⟩, s4⟩ := version_settles hl.toLinked h1 hrun hqv (by rw [hrc]; exact hrv)
    rw [hrc] at s2 s3
    have hrc1 : rc1.config = r0.config := config_kept hf a1
    have hv : c1.neg.version = v := by
      refine known_get (hqv _ s1) (hqv _ h.ours) (UInt8.le_antisymm (h.highest _ s1 s2) (s3 _ h.ours h.theirs))
    obtain ⟨u1, u2⟩ := hver _ (hqv _ s1)
    have h12 : c1.cc.ge12 = true ↔ 0x12 ≤ v.get := by rw [← hv]; simp [Cc.ge12, Cc.ver, Ctx.cc]
    have h11 : c1.cc.ge11 = true ↔ 0x11 ≤ v.get := by rw [← hv]; simp [Cc.ge11, Cc.ver, Ctx.cc]
    have hver1 : c1.cc.ver = v.get := by rw [← hv]; rfl
    obtain ⟨c2, h2⟩ := capabilities_goes hl a1 a2 a3 a4 s4 (by rw [a5, hn]) u1 u2
      (by
        unfold GetCapsWF capsAsked capsRequest
        dsimp only
        rw [a6, hq.reqCaps, hver1]
        constructor
        · by_cases g : c1.cc.ge11 = true
          · simp only [g, if_true]
            exact ⟨hq.reqCaps, (reqRefused_iff _ _).2 (h.reqFlags (h11.1 g))⟩
          · simp [g]
        · by_cases g : c1.cc.ge12 = true
          · simp only [g, if_true]
            have := h.reqSizes (h12.1 g)
            omega
          · simp [g])
      (by
        unfold CapsWF capsSeen
        dsimp only
        rw [hrc1, hr.rspCaps, hver1]
        refine ⟨hr.rspCaps, (rspRefused_iff _ _).2 h.rspFlags, ?_⟩
        by_cases g : c1.cc.ge12 = true
        · simp only [g, if_true]
          have := h.rspSizes (h12.1 g)
          omega
        · simp [g])
      (by rw [a6]; exact hq.reqCaps) (by rw [hrc1]; exact hr.rspCaps) (fun g => by have := h.reqSizes (h12.1 g); rw [a6]; omega)
    have hgrow := capabilities_grow h2
    obtain ⟨rc2, b1, b2, b3, b4, b5, b6, b7⟩ := linked_capabilities hl.toLinked h2 a1 a2 a3 a4 ⟨v1, by rw [a5, hn]⟩ (by rw [a6]; exact hq.reqCaps)
      (by rw [hrc1]; exact hr.rspCaps) (by omega)
    have hv2 : c2.neg.version = v := by rw [b7]; exact hv
    have hcfg2 : c2.config = c.config := by rw [b6, a6]
    have hrc2 : rc2.config = r0.config := by rw [b5, hrc1]
    have hb7 : c2.neg = announced c2.neg.version c.config r0.config := by rw [hv2, ← hv, ← a6, ← hrc1]; exact b7
    have hfmt : 0x12 ≤ c2.neg.version.get → c.config.opaqueSupport = 0 ∨ c.config.opaqueSupport = 2 := by rw [hv2]; exact h.format
    have hok : ∀ n', Selected rc2.config (negAlgsSeen c2.cc (algsRequest c2.config)) rc2.neg n' →
        AlgsWF c2.cc (algsSeen c2.cc (algsOf n')) ∧ n'.baseHash ≠ 0 ∧ n'.baseAsym ≠ 0 := by
      intro n' hs
      rw [hcfg2, hrc2] at hs
      refine (selection_ok hr hb7 hs hfmt).2 ?_
      rw [hv2]
      exact ⟨h.hash, h.asym, h.measSpec, h.measHash, h.opaqueData, h.dhe, h.aead, h.reqAsym, h.schedule⟩
    obtain ⟨c3, h3⟩ := algorithms_goes hl b1 b2 b3 b4 (by omega) (by rw [hv2, ← hv]; exact u1) (by rw [hcfg2]; exact (ask_ok hq).2 hfmt) (hp _ _ b1)
      (fun n' hs b => by
        have hz := (hok n' hs).2.1
        have hm := chooses_mem hs.hash
        refine hh _ ?_ b
        rcases hm with hm | hm
        · simp only [List.mem_cons, List.not_mem_nil, or_false] at hm ⊢
          rcases hm with hm | hm | hm
          · exact .inr (.inr hm)
          · exact .inr (.inl hm)
          · exact .inl hm
        · exact absurd hm hz)
      hok
      (by
        rw [hb7, hv2]
        unfold announced
        by_cases g : 0x12 ≤ v.get
        · simp only [g, if_true]
          exact .inr (h.reqSizes g).1
        · simp [g])
      (by
        rw [hb7, hv2]
        unfold announced
        by_cases g : 0x12 ≤ v.get
        · simp only [g, if_true]
          exact .inr (h.rspSizes g).1
        · simp [g])
    refine ⟨c3, ?_, ?_⟩
    · unfold initConnection
      rw [M.bind_apply, h1]
      dsimp only
      rw [M.bind_apply, h2]
      exact h3
    · obtain ⟨_, _, _, _, m, _, _, _, _, _, _, hm1, hm2, hc'⟩ := negotiateAlgorithms_ok h3
      rw [hc', ← hv2]
      exact (takeAlgs_fields m c2.neg hm1 hm2).1

/-- What the two endpoints must provide: a responder started with the chains `data`, each with a first certificate of its own, whose library knows
SHA-256, SHA-384 and SHA-512 (1, 2, 4). -/
structure Equipped (f : Env) (data : Fin 8 → Option Bytes) : Prop where
  chains : ∀ i d, data i = some d → ∃ first last, f.certFromChain d 0 = some (first, last) ∧ first ≤ last ∧ last ≤ 4096
  hashes : ∀ h ∈ ([1, 2, 4] : List UInt32), ∀ b, (f.crypto.hash h b).isSome = true
  sizes : HashLaw f

/-- A requester that has not negotiated before, connected to a responder without losses: `init_connection` succeeds and selects version `v`, exactly
when the two configurations are compatible in version `v` — whatever either side did before. -/
theorem C68_iff {e : REnv} {f : Env} {cfg : Config} {data : Fin 8 → Option Bytes} {root : Option Bytes} {n : Nat} (hf : Equipped f data)
    (hl : Delivers e f (Ctx.new cfg { chainData := data, peerRoot := root } n)) (c rc : Ctx)
    (hrun : Toy.runAll f (Ctx.new cfg { chainData := data, peerRoot := root } n) c.sent = some rc) (hn : c.neg = {})
    (hq : DefinedBits c.config) (hr : DefinedBits cfg) (hqv : KnownVersions c.config) (hrv : KnownVersions cfg) (v : SpdmVersion) :
    (∃ c', initConnection e c = .ok () c' ∧ c'.neg.version = v) ↔ Compatible v c.config cfg := by
  refine connects_iff hl hf.sizes hf.hashes hrun (fun l rc hl' => ?_) hn hq hr hqv hrv v
  have hr' := runAll_run (c0 := Ctx.new cfg { chainData := data, peerRoot := root } n) l .nil hl'
  have := (C54_history_partial cfg data root n _ rc hr' (fun p hp => by
    simp only [List.nil_append, List.mem_map] at hp
    obtain ⟨_, _, rfl⟩ := hp
    exact hf.sizes)).1
  intro i d hd
  rw [this] at hd
  exact hf.chains i d hd

/-- Without a version in which they are compatible, `init_connection` does not succeed; there is no falling back to a lower version. -/
theorem C68_else_fails {e : REnv} {f : Env} {cfg : Config} {data : Fin 8 → Option Bytes} {root : Option Bytes} {n : Nat} (hf : Equipped f data)
    (hl : Delivers e f (Ctx.new cfg { chainData := data, peerRoot := root } n)) (c rc : Ctx)
    (hrun : Toy.runAll f (Ctx.new cfg { chainData := data, peerRoot := root } n) c.sent = some rc) (hn : c.neg = {})
    (hq : DefinedBits c.config) (hr : DefinedBits cfg) (hqv : KnownVersions c.config) (hrv : KnownVersions cfg) (v : SpdmVersion)
    (hv : v ∈ versions c.config ∧ v ∈ versions cfg ∧ ∀ w ∈ versions c.config, w ∈ versions cfg → w.get ≤ v.get) (hc : ¬ Compatible v c.config cfg) (u : Unit) (c' : Ctx) :
    initConnection e c ≠ .ok u c' := by
  intro h
  have hx := (C68_iff hf hl c rc hrun hn hq hr hqv hrv c'.neg.version).1 ⟨c', h, rfl⟩
  have : c'.neg.version = v :=
    known_get (hqv _ hx.ours) (hqv _ hv.1) (UInt8.le_antisymm (hv.2.2 _ hx.ours hx.theirs) (hx.highest _ hv.1 hv.2.1))
  rw [this] at hx
  exact hc hx

/-- Two endpoints on MCTP, or on PCI DOE, whose devices accept every packet, are connected without losses. -/
theorem C68_mctp (e f : Env) (r0 : Ctx) (he : ∀ n p, e.send n p = none) (hf : ∀ n p, f.send n p = none) :
    Delivers { e with tr := Mctp.transport, recv := peer { f with tr := Mctp.transport } r0 } { f with tr := Mctp.transport } r0 :=
  delivers_peer (e := { e with tr := Mctp.transport }) rfl carries_mctp wires_mctp he hf

theorem C68_pcidoe (e f : Env) (r0 : Ctx) (he : ∀ n p, e.send n p = none) (hf : ∀ n p, f.send n p = none) :
    Delivers { e with tr := PciDoe.transport, recv := peer { f with tr := PciDoe.transport } r0 } { f with tr := PciDoe.transport } r0 :=
  delivers_peer (e := { e with tr := PciDoe.transport }) rfl carries_doe wires_doe he hf

/-- Finding: both decoders accept a DataTransferSize of 42 bytes, the minimum of DSP0274, yet a requester announcing less than 52 never connects in
version 1.2: ALGORITHMS is 52 bytes long and chunking is not implemented.  Nor does it connect to a responder announcing less than 48. -/
theorem C68_small_violated (q r : Config) (h : q.dts.toNat < 52 ∨ r.dts.toNat < 48) : ¬ Compatible .v12 q r := by
  intro hc
  have h1 := hc.reqSizes (by decide)
  have h2 := hc.rspSizes (by decide)
  omega

/-! The concrete endpoints meet the hypotheses, and are compatible in version 1.2; with a DataTransferSize of 51 they are not. -/

theorem toy_equipped (t : Transport) : Equipped (onWire t) (fun i => if i = 0 then some [1, 2, 3, 4, 5, 6, 7, 8] else none) where
  chains i d h := by
    by_cases g : i = 0
    · rw [if_pos g] at h
      cases h
      exact ⟨0, 4, rfl, by decide, by decide⟩
    · rw [if_neg g] at h; cases h
  hashes := by
    intro h hm b
    simp only [List.mem_cons, List.not_mem_nil, or_false] at hm
    rcases hm with rfl | rfl | rfl <;> rfl
  sizes := onWire_hashLaw t

theorem toy_versions : KnownVersions Toy.req0.config ∧ KnownVersions Toy.rsp0.config := by
  unfold KnownVersions; decide

/-- the version selected by a requester configured as `q`, over transport `t`. -/
def toySelects (t : Transport) (q : Config) : Option SpdmVersion :=
  match initConnection { onWire t with recv := peer (onWire t) Toy.rsp0 } { Toy.req0 with config := q } with
  | .ok () c' => some c'.neg.version
  | _ => none

theorem toySelects_some {t : Transport} {q : Config} {v : SpdmVersion} (h : toySelects t q = some v) :
    ∃ c', initConnection { onWire t with recv := peer (onWire t) Toy.rsp0 } { Toy.req0 with config := q } = .ok () c' ∧ c'.neg.version = v := by
  unfold toySelects at h
  split at h
  · rename_i c' hc
    exact ⟨c', hc, Option.some.inj h⟩
  · cases h

/-- the hypotheses of `C68_iff`, for the concrete endpoints over MCTP: they connect in version 1.2, so they are compatible. -/
example : Compatible .v12 Toy.reqCfg { Toy.cfg with rspCaps := 0x6AF6 } :=
  (C68_iff (toy_equipped Mctp.transport) (delivers_peer rfl carries_mctp wires_mctp (fun _ _ => rfl) (fun _ _ => rfl)) Toy.req0 Toy.rsp0 rfl rfl
    toy_bits.1 toy_bits.2 toy_versions.1 toy_versions.2 .v12).1 (toySelects_some (q := Toy.reqCfg) (by decide +kernel))

/-- the same over PCI DOE, and, compatible as they are, `init_connection` succeeds. -/
example (h : Compatible .v12 Toy.reqCfg { Toy.cfg with rspCaps := 0x6AF6 }) :
    ∃ c', initConnection { onWire PciDoe.transport with recv := peer (onWire PciDoe.transport) Toy.rsp0 } Toy.req0 = .ok () c' ∧ c'.neg.version = .v12 :=
  (C68_iff (toy_equipped PciDoe.transport) (delivers_peer rfl carries_doe wires_doe (fun _ _ => rfl) (fun _ _ => rfl)) Toy.req0 Toy.rsp0 rfl rfl
    toy_bits.1 toy_bits.2 toy_versions.1 toy_versions.2 .v12).2 h

/-- with 51 bytes the requester does not connect, although it also has version 1.1. -/
example : toySelects Mctp.transport { Toy.reqCfg with dts := 52 } = some .v12 ∧ toySelects Mctp.transport { Toy.reqCfg with dts := 51 } = none ∧
    Toy.reqCfg.version0 = .v10 ∧ Toy.reqCfg.version1 = .v11 := by
  refine ⟨by decide +kernel, by decide +kernel, rfl, rfl⟩

/-- a requester that only has version 1.1, a version in which no sizes are exchanged, connects. -/
example : toySelects Mctp.transport { Toy.reqCfg with dts := 51, version0 := .v11, version1 := .v11, version2 := .v11 } = some .v11 := by decide +kernel

end Verif.Props
