/-
Helper lemmas: the wire images used by the model's proofs are the layouts of `Verif/Spec/Layout.lean`.
-/
import Verif.Spec.Layout

namespace Verif.Spec
open Verif Field

theorem render_cons (f : Field) (fs : List Field) : render (f :: fs) = f.render ++ render fs := by simp [render]
theorem render_nil : render [] = [] := rfl
theorem render_append (a b : List Field) : render (a ++ b) = render a ++ render b := by simp [render]
theorem render_flatMap {α : Type} (l : List α) (f : α → List Field) : render (l.flatMap f) = l.flatMap fun a => render (f a) := by
  induction l <;> simp_all [render_append, render_nil]
theorem render_map_raw (l : List Bytes) : render (l.map raw) = l.flatten := by
  induction l <;> simp_all [render_cons, render_nil, Field.render]
theorem render_raw (d : Bytes) : (raw d).render = d := by simp [Field.render]
theorem le1 (v : UInt8) : (le 1 v.toNat).render = [v] := by
  have : v.toNat % 256 = v.toNat := by have := v.toNat_lt; omega
  simp [Field.render, leBytes, this]
theorem le2 (v : UInt16) : (le 2 v.toNat).render = putU16 v := by
  simp only [Field.render, leBytes, putU16, List.cons.injEq, and_true]
  refine ⟨?_, ?_⟩ <;> rw [← UInt8.toNat_inj] <;> simp [Nat.shiftRight_eq_div_pow]
theorem le4 (v : UInt32) : (le 4 v.toNat).render = putU32 v := by
  simp only [Field.render, leBytes, putU32, List.cons.injEq, and_true]
  refine ⟨?_, ?_, ?_, ?_⟩ <;> rw [← UInt8.toNat_inj] <;> simp [Nat.shiftRight_eq_div_pow, Nat.div_div_eq_div_mul]
theorem le3 (v : UInt32) : (le 3 v.toNat).render = putU24 v := by
  simp only [Field.render, leBytes, putU24, List.cons.injEq, and_true]
  refine ⟨?_, ?_, ?_⟩ <;> rw [← UInt8.toNat_inj] <;> simp [Nat.shiftRight_eq_div_pow, Nat.div_div_eq_div_mul]
theorem le1' (n : Nat) : (le 1 n).render = [n.toUInt8] := by
  simp only [Field.render, leBytes, List.cons.injEq, and_true]
  rw [← UInt8.toNat_inj]; simp
theorem le2' (n : Nat) (h : n < 65536) : (le 2 n).render = putU16 n.toUInt16 := by
  rw [← le2]; congr 2; simp; omega
theorem le3' (n : Nat) (h : n < 2 ^ 32) : (le 3 n).render = putU24 n.toUInt32 := by
  rw [← le3]; congr 2; simp; omega
theorem le1z : (le 1 0).render = [0] := rfl
theorem le2z : (le 2 0).render = [0, 0] := rfl
theorem le12z : (le 12 0).render = List.replicate 12 0 := rfl
theorem ge11_iff (c : Cc) : atLeast11 c ↔ c.ge11 = true := by
  simp [atLeast11, Cc.ge11, Cc.ver, UInt8.le_iff_toNat_le]
theorem ge12_iff (c : Cc) : atLeast12 c ↔ c.ge12 = true := by
  simp [atLeast12, Cc.ge12, Cc.ver, UInt8.le_iff_toNat_le]

theorem and_two_pow_beq (x i : Nat) : (x &&& 2 ^ i == 2 ^ i) = x.testBit i := by
  rw [Bool.eq_iff_iff, beq_iff_eq]
  constructor
  · intro h
    have : (x &&& 2 ^ i).testBit i = (2 ^ i).testBit i := by rw [h]
    simpa [Nat.testBit_and, Nat.testBit_two_pow_self] using this
  · intro h
    apply Nat.eq_of_testBit_eq
    intro j
    rw [Nat.testBit_and, Nat.testBit_two_pow]
    by_cases hj : i = j
    · subst hj; simp [h]
    · simp [hj]
/-- A single-bit capability test is a test of that bit. -/
theorem has_bit (f b : UInt32) (i : Nat) (hb : b.toNat = 2 ^ i) : Cap.has f b = f.toNat.testBit i := by
  rw [← and_two_pow_beq, ← hb]
  unfold Cap.has
  rw [Bool.eq_iff_iff, beq_iff_eq, beq_iff_eq, ← UInt32.toNat_inj]
  simp
theorem inClear_iff (c : Cc) : inTheClear c ↔ c.inClear = true := by
  simp [inTheClear, Cc.inClear, has_bit _ Cap.inClear 15 rfl]
theorem bit0 (a : UInt8) : a.toNat.testBit 0 = (a &&& 1 != 0) := by
  have key : ∀ j : Fin 256, (UInt8.ofNat j).toNat.testBit 0 = (UInt8.ofNat j &&& 1 != 0) := by set_option maxRecDepth 20000 in decide
  simpa using key ⟨a.toNat, a.toNat_lt⟩
theorem optWire_eq {b : Bool} {P : Bytes → Prop} {d : Bytes} (h : OptOk b P d) : optWire b d = d := by
  cases b <;> simp_all [OptOk, optWire]

theorem algStruct_render (a : AlgStruct) : render (algStruct a) = a.wire := by
  simp [algStruct, render_cons, render_nil, le1, le2, AlgStruct.wire]
  rfl

theorem u16_alg (k : UInt16) (n : Nat) (h : n ≤ 4) (hk : k.toNat ≤ 60000) : (le 2 (k.toNat + 4 * n)).render = putU16 (k + 4 * n.toUInt16) := by
  rw [← le2]
  congr 2
  simp [UInt16.toNat_add, UInt16.toNat_mul]
  omega

theorem layout_wire {c : Cc} {p : Payload} (h : p.WF c) : render (layout c p) = p.wire c := by
  cases p <;> simp only [layout, Payload.wire, bare, render_cons, render_append, render_nil, render_raw, le1, le2, le4, le1z, le2z, List.append_nil,
    render_flatMap, render_map_raw, List.cons_append, List.nil_append, le12z]
  case version m =>
    have : (fun a : VersionEntry => [a.update, a.version.get]) = VersionEntry.wire := rfl
    simp [VersionRsp.wire, le1', this]
  case getCaps m =>
    simp only [ge11_iff, ge12_iff, getCapsWire]
    by_cases g1 : c.ge11 = true <;> by_cases g2 : c.ge12 = true <;> simp [g1, g2, render_cons, render_nil, le1, le4, le1z, le2z, putU16]
  case caps m =>
    simp only [ge12_iff, capsWire]
    by_cases g2 : c.ge12 = true <;> simp [g2, render_cons, render_nil, le1, le4, le1z, le2z, putU16]
  case negAlgs m =>
    obtain ⟨_, _, _, ho, hl⟩ := h
    have e0 : m.other = if c.ge12 = true then m.other else 0 := by
      rcases ho with ho | ho <;> simp_all
    have e1 : (le 2 (32 + 4 * m.algs.length)).render = putU16 (if c.ge11 = true then 32 + 4 * m.algs.length.toUInt16 else 32) := by
      by_cases g1 : c.ge11 = true
      · simpa [g1] using u16_alg 32 m.algs.length hl.1 (by decide)
      · have : m.algs = [] := hl.2.2.2 (by simpa using g1)
        simp [g1, this]; decide
    have e2 : (if c.ge11 = true then m.algs.length.toUInt8 else 0) = m.algs.length.toUInt8 := by
      by_cases g1 : c.ge11 = true
      · simp [g1]
      · have : m.algs = [] := hl.2.2.2 (by simpa using g1)
        simp [this]
    have e3 : (if c.ge11 = true then m.algs.flatMap AlgStruct.wire else []) = m.algs.flatMap AlgStruct.wire := by
      by_cases g1 : c.ge11 = true
      · simp [g1]
      · have : m.algs = [] := hl.2.2.2 (by simpa using g1)
        simp [this]
    simp only [negAlgsWire, ← e0, ← e1, e2, e3, algStruct_render, le1']
    simp
  case algs m =>
    obtain ⟨_, _, _, _, ho, hl, _⟩ := h
    have e0 : m.other = if c.ge12 = true then m.other else 0 := by
      rcases ho with ho | ho <;> simp_all
    have e1 : (le 2 (36 + 4 * m.algs.length)).render = putU16 (if c.ge11 = true then 36 + 4 * m.algs.length.toUInt16 else 36) := by
      by_cases g1 : c.ge11 = true
      · simpa [g1] using u16_alg 36 m.algs.length hl.1 (by decide)
      · have : m.algs = [] := hl.2.2.2 (by simpa using g1)
        simp [g1, this]; decide
    have e2 : (if c.ge11 = true then m.algs.length.toUInt8 else 0) = m.algs.length.toUInt8 := by
      by_cases g1 : c.ge11 = true
      · simp [g1]
      · have : m.algs = [] := hl.2.2.2 (by simpa using g1)
        simp [this]
    have e3 : (if c.ge11 = true then m.algs.flatMap AlgStruct.wire else []) = m.algs.flatMap AlgStruct.wire := by
      by_cases g1 : c.ge11 = true
      · simp [g1]
      · have : m.algs = [] := hl.2.2.2 (by simpa using g1)
        simp [this]
    simp only [algsWire, ← e0, ← e1, e2, e3, algStruct_render, le1']
    simp
  case digests m => simp [Digests.wire]
  case getCert m => simp [GetCert.wire]
  case cert m => simp [CertRsp.wire, ← h.1, le2]
  case challenge m => simp [Challenge.wire]
  case challengeAuth m =>
    obtain ⟨_, _, _, _, hs, ho, _⟩ := h
    rw [le1', le2' _ (by omega)]
    have : (m.attr.toNat + m.slot.toNat).toUInt8 = m.slot + m.attr := by
      rw [← UInt8.toNat_inj]; simp [UInt8.toNat_add, Nat.add_comm]
    simp [ChallengeAuth.wire, optWire_eq hs, this, opaqueWire]
  case getMeas m =>
    simp only [GetMeas.wire, bit0, ge11_iff]
    by_cases g : m.attr &&& 1 = 0 <;> by_cases g1 : c.ge11 = true <;> simp [g, g1, render_cons, render_nil, le1, render_raw]
  case meas m =>
    have hp := Meas.param2_spec h
    obtain ⟨hn, hs, hc, _, _, hr, _, ho, hsg⟩ := h
    have hr' : m.record.data.length ≤ 4000 := by
      obtain ⟨hr, _⟩ := hr; simpa using hr
    have key : ∀ j : Fin 256, (UInt8.ofNat j).toNat < 64 →
        (UInt8.ofNat j &&& 0x30).toNat + (UInt8.ofNat j &&& 0xF).toNat = (UInt8.ofNat j).toNat := by
      set_option maxRecDepth 20000 in decide
    have hlt : (m.param2 c).toNat < 64 := by
      have hcl : m.changed.toNat < 64 := by
        rw [← hc, UInt8.toNat_and]
        exact Nat.lt_of_le_of_lt Nat.and_le_right (by decide)
      have hsl : m.slot.toNat < 64 := by simp [UInt8.lt_iff_toNat_lt] at hs; omega
      unfold Meas.param2
      split
      · rw [UInt8.toNat_or]; exact Nat.or_lt_two_pow (n := 6) hsl hcl
      · split
        · exact hsl
        · decide
    have hk := key ⟨(m.param2 c).toNat, (m.param2 c).toNat_lt⟩
    simp only [UInt8.ofNat_toNat] at hk
    have hk := hk hlt
    rw [hp.1, hp.2] at hk
    rw [hk, le1, le2' _ (by omega), le3' _ (by omega)]
    simp [Meas.wire, MeasRecord.wire, opaqueWire, optWire_eq hsg, hn]
  case keyEx m =>
    obtain ⟨_, hp, _, _, ho⟩ := h
    have : (if c.ge12 = true then m.policy else 0) = m.policy := by
      by_cases g : c.ge12 = true
      · simp [g]
      · simp [hp (by simpa using g)]
    rw [le2' _ (by omega)]
    simp [KeyEx.wire, this, opaqueWire]
  case keyExRsp m =>
    obtain ⟨_, _, _, hs, ho, _, hv⟩ := h
    rw [le2' _ (by omega)]
    simp [KeyExRsp.wire, opaqueWire, optWire_eq hs, optWire_eq hv]
  case finish m => simp [Finish.wire, optWire_eq h.2.1]
  case finishRsp v => simp [finishRspWire, optWire_eq h]
  case pskEx m =>
    obtain ⟨_, h1, h2, h3⟩ := h
    rw [le2' _ (by omega), le2' _ (by omega), le2' _ (by omega)]
    simp [PskEx.wire]
  case pskExRsp m =>
    obtain ⟨hs, h1, h2, h3, _⟩ := h
    rw [le2' _ (by omega), le2' _ (by omega)]
    simp [PskExRsp.wire, optWire_eq hs, putU16]
  case pskFinish v => simp [pskFinishWire]
  case keyUpdate m => simp [KeyUpd.wire]
  case keyUpdateAck m => simp [KeyUpd.wire]
  case endSession a => simp [endSessionWire]
  case error m =>
    obtain ⟨code, data, ext⟩ := m
    cases ext <;> simp [ErrorRsp.wire, ErrExt.wire, render_cons, render_nil, le1, render_raw]
  case vendorReq m => simp [Vendor.wire, le1', ← h.2.2.1, le2]
  case vendorRsp m => simp [Vendor.wire, le1', ← h.2.2.1, le2]

theorem message_wire {c : Cc} {m : Msg} (h : m.payload.WF c) : message c m = m.wire c := by
  simp [message, render_append, render_cons, render_nil, le1, layout_wire h, Msg.wire, Header.wire]

theorem optional_absent {c : Cc} {p : Payload} (h : p.WF c) : ∀ q ∈ optionalFields c p, q.2 ≠ [] → q.1 := by
  have hopt : ∀ {b : Bool} {P : Bytes → Prop} {d : Bytes}, OptOk b P d → d ≠ [] → b = true := by
    intro b P d h hd
    cases b
    · exact absurd h hd
    · rfl
  intro q hq hne
  cases p <;> simp only [optionalFields, List.mem_cons, List.not_mem_nil, or_false] at hq
  case challengeAuth m => subst hq; exact hopt h.2.2.2.2.1 hne
  case meas m => subst hq; exact hopt h.2.2.2.2.2.2.2.2 hne
  case keyExRsp m =>
    rcases hq with rfl | rfl
    · exact hopt h.2.2.2.1 hne
    · have := hopt h.2.2.2.2.2.2 hne
      show ¬ inTheClear c
      rw [inClear_iff]; simpa using this
  case finish m => subst hq; show m.attr.toNat.testBit 0 = true; rw [bit0]; exact hopt h.2.1 hne
  case finishRsp v => subst hq; show inTheClear c; rw [inClear_iff]; exact hopt h hne
  case pskExRsp m => subst hq; exact hopt h.1 hne

end Verif.Spec
