/-
The format checker against the specification.
-/
import Verif.X509.Model
import Verif.Spec.X509

namespace Verif.X509
open Verif.Spec

theorem add_ok {a b c : Nat} : add true a b = .ok c ↔ c = a + b ∧ a + b < 2 ^ 64 := by
  unfold add
  by_cases h : a + b < 2 ^ 64
  · rw [if_pos h]
    constructor
    · intro hk; exact ⟨(Res.ok.inj hk).symm, h⟩
    · intro hk; rw [hk.1]
  · rw [if_neg h]
    constructor
    · intro hk; simp at hk
    · intro hk; exact absurd hk.2 h

theorem from_ok {k : Nat} {d r : Bytes} : from? k d = .ok r ↔ k ≤ d.length ∧ r = d.drop k := by
  unfold from?
  by_cases h : k ≤ d.length
  · rw [if_pos h]
    constructor
    · intro hk; exact ⟨h, (Res.ok.inj hk).symm⟩
    · intro hk; rw [hk.2]
  · rw [if_neg h]
    constructor
    · intro hk; simp at hk
    · intro hk; exact absurd hk.1 h

theorem beNat_append (a b : Bytes) : beNat (a ++ b) = beNat a * 256 ^ b.length + beNat b := by
  induction a with
  | nil => simp [beNat]
  | cons x xs ih =>
    simp only [List.cons_append, beNat, List.length_append, ih, Nat.pow_add]
    rw [Nat.add_mul, Nat.mul_assoc]; omega

theorem leNat_reverse (a : Bytes) : leNat a.reverse = beNat a := by
  have key : ∀ b : Bytes, leNat b = beNat b.reverse := by
    intro b
    induction b with
    | nil => rfl
    | cons x xs ih =>
      rw [List.reverse_cons, beNat_append]
      simp only [leNat, beNat, ih, List.length_singleton, List.length_nil]
      omega
  rw [key, List.reverse_reverse]

theorem lengthOf_pos {n : Nat} {l : Bytes} (h : LengthOf n l) : 1 ≤ l.length := by
  cases h <;> simp

theorem checkLength_ok {d : Bytes} {n k : Nat} :
    checkLength d = .ok (n, k) ↔ ∃ l rest, d = l ++ rest ∧ LengthOf n l ∧ k = l.length := by
  cases d with
  | nil =>
    simp only [checkLength]
    constructor
    · intro h; cases h
    · rintro ⟨l, rest, hd, hl, _⟩
      have := lengthOf_pos hl
      have hz := congrArg List.length hd
      rw [List.length_append, List.length_nil] at hz; omega
  | cons b bs =>
    simp only [checkLength]
    by_cases hb : b.toNat < 0x80
    · rw [if_pos hb]
      constructor
      · intro h
        have h := Prod.mk.inj (Res.ok.inj h)
        exact ⟨[b], bs, rfl, h.1 ▸ LengthOf.short b hb, by rw [← h.2]; rfl⟩
      · rintro ⟨l, rest, hd, hl, hk⟩
        cases hl with
        | short c hc =>
          simp only [List.cons_append, List.nil_append, List.cons.injEq] at hd
          rw [hd.1, hk]; rfl
        | long c cs hc _ _ =>
          simp only [List.cons_append, List.cons.injEq] at hd
          rw [hd.1] at hb; omega
    · rw [if_neg hb]
      by_cases h1 : bs.length < b.toNat - 0x80 ∨ b.toNat - 0x80 = 0
      · rw [if_pos h1]
        constructor
        · intro h; cases h
        · rintro ⟨l, rest, hd, hl, hk⟩
          cases hl with
          | short c hc =>
            simp only [List.cons_append, List.nil_append, List.cons.injEq] at hd
            rw [hd.1] at hb; omega
          | long c cs hc _ _ =>
            simp only [List.cons_append, List.cons.injEq] at hd
            rw [hd.1, hd.2, List.length_append] at h1; omega
      · rw [if_neg h1]
        by_cases h2 : b.toNat - 0x80 > 8
        · rw [if_pos h2]
          constructor
          · intro h; cases h
          · rintro ⟨l, rest, hd, hl, hk⟩
            cases hl with
            | short c hc =>
              simp only [List.cons_append, List.nil_append, List.cons.injEq] at hd
              rw [hd.1] at hb; omega
            | long c cs hc _ _ =>
              simp only [List.cons_append, List.cons.injEq] at hd
              rw [hd.1] at h2; omega
        · rw [if_neg h2, leNat_reverse]
          constructor
          · intro h
            have h := Prod.mk.inj (Res.ok.inj h)
            have hlen : (bs.take (b.toNat - 0x80)).length = b.toNat - 0x80 := by rw [List.length_take]; omega
            refine ⟨b :: bs.take (b.toNat - 0x80), bs.drop (b.toNat - 0x80), ?_, ?_, ?_⟩
            · rw [List.cons_append, List.take_append_drop]
            · rw [← h.1]; exact LengthOf.long b _ (by omega) (by omega) (by omega)
            · rw [List.length_cons, hlen, ← h.2]
          · rintro ⟨l, rest, hd, hl, hk⟩
            cases hl with
            | short c hc =>
              simp only [List.cons_append, List.nil_append, List.cons.injEq] at hd
              rw [hd.1] at hb; omega
            | long c cs hc _ _ =>
              simp only [List.cons_append, List.cons.injEq] at hd
              have hn : b.toNat - 0x80 = cs.length := by rw [hd.1]; omega
              rw [hn, hd.2, List.take_left', hk]
              · rfl
              · rfl

theorem tlv_length {t : UInt8} {b i : Bytes} (h : Tlv t b i) : 2 ≤ i.length := by
  obtain ⟨l, hl, rfl⟩ := h
  have := lengthOf_pos hl
  rw [List.length_cons, List.length_append]; omega

/-- an item at the front of the data, given by its length and what follows its header. -/
theorem split_item {d l rest : Bytes} {n : Nat} (hl : LengthOf n l) (hd : d = l ++ rest) (hn : n ≤ rest.length) (t : UInt8) :
    ∃ item body tail, t :: d = item ++ tail ∧ Tlv t body item ∧ item.length = 1 + l.length + n ∧ body = rest.take n ∧ tail = rest.drop n := by
  have hlen : (rest.take n).length = n := by rw [List.length_take]; omega
  refine ⟨t :: (l ++ rest.take n), rest.take n, rest.drop n, ?_, ⟨l, by rw [hlen]; exact hl, rfl⟩, ?_, rfl, rfl⟩
  · rw [List.cons_append, List.append_assoc, List.take_append_drop, hd]
  · rw [List.length_cons, List.length_append, hlen]; omega

theorem skipBody_ok {t : UInt8} {d : Bytes} {k : Nat} (hs : d.length < 2 ^ 63) :
    skipBody true d = .ok k ↔ ∃ item body tail, t :: d = item ++ tail ∧ Tlv t body item ∧ k = item.length := by
  unfold skipBody
  constructor
  · intro h
    obtain ⟨⟨n, j⟩, h1, h⟩ := Res.bind_ok.1 h
    obtain ⟨l, rest, hd, hl, rfl⟩ := checkLength_ok.1 h1
    dsimp only at h
    obtain ⟨a, ha, h2⟩ := Res.bind_ok.1 h
    obtain ⟨b, hb, h3⟩ := Res.bind_ok.1 h2
    obtain ⟨rfl, _⟩ := add_ok.1 ha
    obtain ⟨rfl, _⟩ := add_ok.1 hb
    obtain ⟨hle, hk⟩ := Res.guard_ok.1 h3
    have hk := Res.ok.inj hk
    have hdl : d.length = l.length + rest.length := by rw [hd, List.length_append]
    obtain ⟨item, body, tail, e1, e2, e3, _, _⟩ := split_item hl hd (by omega) t
    exact ⟨item, body, tail, e1, e2, by omega⟩
  · rintro ⟨item, body, tail, hd, ⟨l, hl, rfl⟩, rfl⟩
    rw [List.cons_append, List.cons.injEq, List.append_assoc] at hd
    have hd := hd.2
    have hdl : d.length = l.length + (body.length + tail.length) := by rw [hd, List.length_append, List.length_append]
    rw [checkLength_ok.2 ⟨l, _, hd, hl, rfl⟩, Res.ok_bind]
    dsimp only
    rw [add_ok.2 ⟨rfl, by omega⟩, Res.ok_bind, add_ok.2 ⟨rfl, by omega⟩, Res.ok_bind, if_neg (by omega)]
    rw [List.length_cons, List.length_append]; congr 1; omega

theorem skipTag_ok {d : Bytes} {k : Nat} (hs : d.length < 2 ^ 63) :
    skipTag true d = .ok k ↔ ∃ t item body tail, d = item ++ tail ∧ Tlv t body item ∧ k = item.length := by
  cases d with
  | nil =>
    constructor
    · intro h; cases h
    · rintro ⟨t, item, body, tail, hd, h, _⟩
      have hz := congrArg List.length hd
      have := tlv_length h
      rw [List.length_append, List.length_nil] at hz; omega
  | cons t r =>
    rw [List.length_cons] at hs
    simp only [skipTag]
    rw [skipBody_ok (t := t) (by omega)]
    constructor
    · rintro ⟨item, body, tail, h⟩; exact ⟨t, item, body, tail, h⟩
    · rintro ⟨t', item, body, tail, hd, ⟨l, hl, rfl⟩, hk⟩
      have : t = t' := by rw [List.cons_append, List.cons.injEq] at hd; exact hd.1
      subst this
      exact ⟨_, body, tail, hd, ⟨l, hl, rfl⟩, hk⟩

theorem skipSequence_ok {d : Bytes} {k : Nat} (hs : d.length < 2 ^ 63) :
    skipSequence true d = .ok k ↔ ∃ item body tail, d = item ++ tail ∧ Tlv 0x30 body item ∧ k = item.length := by
  cases d with
  | nil =>
    constructor
    · intro h; cases h
    · rintro ⟨item, body, tail, hd, h, _⟩
      have hz := congrArg List.length hd
      have := tlv_length h
      rw [List.length_append, List.length_nil] at hz; omega
  | cons t r =>
    rw [List.length_cons] at hs
    simp only [skipSequence]
    rw [Res.guard_ok]
    constructor
    · rintro ⟨ht, h⟩
      have ht : t = 0x30 := Decidable.of_not_not ht
      subst ht
      exact (skipBody_ok (by omega)).1 h
    · rintro ⟨item, body, tail, hd, hi, hk⟩
      have ht : t = 0x30 := by
        obtain ⟨l, hl, rfl⟩ := hi
        rw [List.cons_append, List.cons.injEq] at hd; exact hd.1
      subst ht
      exact ⟨fun hf => hf rfl, (skipBody_ok (by omega)).2 ⟨item, body, tail, hd, hi, hk⟩⟩

theorem checkOid_ok {oid : Option Bytes} {d : Bytes} : (∃ k, checkOid oid d = .ok k) ↔ StartsOid oid d := by
  match d with
  | [] =>
    constructor
    · rintro ⟨k, h⟩; cases h
    · rintro ⟨n, o, rest, hd, _⟩; cases hd
  | [_] =>
    constructor
    · rintro ⟨k, h⟩; cases h
    · rintro ⟨n, o, rest, hd, _⟩; simp at hd
  | t :: n :: rest =>
    simp only [checkOid]
    constructor
    · rintro ⟨k, h⟩
      obtain ⟨ht, h1⟩ := Res.guard_ok.1 h
      obtain ⟨hn, h2⟩ := Res.guard_ok.1 h1
      have ht : t = 6 := Decidable.of_not_not ht
      have hlt : n.toNat < 128 := by
        have h9 : ¬ n ≥ 0x80 := fun hc => hn (Or.inr hc)
        rw [ge_iff_le, UInt8.le_iff_toNat_le] at h9
        exact Nat.lt_of_not_le h9
      have hle : n.toNat ≤ rest.length := Nat.le_of_not_lt fun hc => hn (Or.inl hc)
      refine ⟨n, rest.take n.toNat, rest.drop n.toNat, by rw [List.take_append_drop, ht],
        by rw [List.length_take]; omega, hlt, ?_⟩
      intro want hw
      rw [hw] at h2
      dsimp only at h2
      rcases Res.ite_ok.1 h2 with ⟨h3, _⟩ | ⟨_, h3⟩
      · exact beq_iff_eq.1 h3
      · cases h3
    · rintro ⟨n', o, rest', hd, hn, hlt, hw⟩
      simp only [List.cons.injEq] at hd
      obtain ⟨rfl, rfl, rfl⟩ := hd
      rw [if_neg (fun hf => hf rfl)]
      have h80 : ¬ n ≥ 0x80 := by
        rw [ge_iff_le, UInt8.le_iff_toNat_le]; exact Nat.not_le_of_lt hlt
      rw [if_neg (by rw [List.length_append]; rintro (h | h); omega; exact h80 h)]
      cases hoid : oid with
      | none => exact ⟨_, rfl⟩
      | some want =>
        refine ⟨n.toNat + 2, ?_⟩
        dsimp only
        rw [if_pos]
        rw [sameOid, hn, List.take_left']
        · rw [hw want hoid]; exact beq_self_eq_true _
        · rfl

theorem checkVersion_ok {d : Bytes} {k : Nat} : checkVersion d = .ok k ↔ k = 5 ∧ ∃ rest, d = [0xA0, 3, 2, 1, 2] ++ rest := by
  match d with
  | [] | [_] | [_, _] | [_, _, _] | [_, _, _, _] =>
    constructor
    · intro h; cases h
    · rintro ⟨_, rest, hd⟩; simp at hd
  | a :: b :: c :: d :: v :: rest =>
    simp only [checkVersion]
    rw [Res.guard_ok, Res.ite_ok]
    constructor
    · rintro ⟨h, ⟨hv, hk⟩ | ⟨_, hk⟩⟩
      · simp only [not_or, Decidable.not_not, ne_eq] at h
        obtain ⟨rfl, rfl, rfl, rfl⟩ := h
        exact ⟨(Res.ok.inj hk).symm, rest, by rw [hv]; rfl⟩
      · cases hk
    · rintro ⟨rfl, rest', hd⟩
      simp only [List.cons_append, List.nil_append, List.cons.injEq] at hd
      obtain ⟨rfl, rfl, rfl, rfl, rfl, _⟩ := hd
      exact ⟨by simp, Or.inl ⟨rfl, rfl⟩⟩

/-- a step of a walk over `pre ++ d`, from the end of `pre`. -/
theorem stepAt_ok {chk : Bytes → Res Nat} {pre d : Bytes} {w' : Nat} (hs : (pre ++ d).length < 2 ^ 63)
    (hle : ∀ k, chk d = .ok k → k ≤ d.length) :
    stepAt true chk (pre ++ d) pre.length = .ok w' ↔ ∃ k, chk d = .ok k ∧ w' = pre.length + k := by
  unfold stepAt
  rw [from_ok.2 ⟨by rw [List.length_append]; omega, rfl⟩, Res.ok_bind, List.drop_left']
  · constructor
    · intro h
      obtain ⟨k, hk, h1⟩ := Res.bind_ok.1 h
      exact ⟨k, hk, (add_ok.1 h1).1⟩
    · rintro ⟨k, hk, rfl⟩
      rw [hk, Res.ok_bind]
      have := hle k hk
      rw [List.length_append] at hs
      exact add_ok.2 ⟨rfl, by omega⟩
  · rfl

/-- the header of a sequence. -/
theorem openAt_ok {pre d : Bytes} {w n : Nat} (hs : (pre ++ d).length < 2 ^ 63) :
    openAt true (pre ++ d) pre.length = .ok (w, n) ↔
      ∃ l rest, d = 0x30 :: (l ++ rest) ∧ LengthOf n l ∧ w = pre.length + (1 + l.length) := by
  unfold openAt
  rw [from_ok.2 ⟨by rw [List.length_append]; omega, rfl⟩, Res.ok_bind, List.drop_left' rfl]
  rw [List.length_append] at hs
  cases d with
  | nil =>
    constructor
    · intro h; obtain ⟨_, h0, _⟩ := Res.bind_ok.1 h; cases h0
    · rintro ⟨l, rest, hd, _⟩; cases hd
  | cons t r =>
    rw [List.length_cons] at hs
    have hd1 : (pre ++ t :: r).drop (pre.length + 1) = r := by
      rw [show pre ++ t :: r = (pre ++ [t]) ++ r by simp, List.drop_left']
      rw [List.length_append]; rfl
    have hfrom : from? (pre.length + 1) (pre ++ t :: r) = .ok r :=
      from_ok.2 ⟨by rw [List.length_append, List.length_cons]; omega, hd1.symm⟩
    constructor
    · intro h
      obtain ⟨_, h0, h1⟩ := Res.bind_ok.1 h
      obtain ⟨w1, h2, h3⟩ := Res.bind_ok.1 h1
      obtain ⟨rfl, _⟩ := add_ok.1 h2
      rw [hfrom, Res.ok_bind] at h3
      obtain ⟨⟨m, j⟩, h4, h5⟩ := Res.bind_ok.1 h3
      obtain ⟨l, rest, hr, hl, rfl⟩ := checkLength_ok.1 h4
      dsimp only at h5
      obtain ⟨w2, h6, h7⟩ := Res.bind_ok.1 h5
      obtain ⟨rfl, _⟩ := add_ok.1 h6
      have h7 := Prod.mk.inj (Res.ok.inj h7)
      have ht : t = 0x30 := by
        simp only [checkSequence] at h0
        rcases Res.ite_ok.1 h0 with ⟨h8, _⟩ | ⟨_, h8⟩
        · exact h8
        · cases h8
      exact ⟨l, rest, by rw [ht, hr], h7.2 ▸ hl, by rw [← h7.1]; omega⟩
    · rintro ⟨l, rest, hd, hl, rfl⟩
      simp only [List.cons.injEq] at hd
      obtain ⟨rfl, rfl⟩ := hd
      rw [List.length_append] at hs
      rw [show checkSequence (0x30 :: (l ++ rest)) = .ok () from rfl, Res.ok_bind, add_ok.2 ⟨rfl, by omega⟩, Res.ok_bind, hfrom,
        Res.ok_bind, checkLength_ok.2 ⟨l, rest, rfl, hl, rfl⟩, Res.ok_bind]
      dsimp only
      rw [add_ok.2 ⟨rfl, by omega⟩, Res.ok_bind, Nat.add_assoc]

/-- an algorithm identifier, when the walk can go on after it. -/
theorem algorithmAt_ok {oid : Option Bytes} {pre d : Bytes} {w' : Nat} (hs : (pre ++ d).length < 2 ^ 63) :
    (algorithmAt true oid (pre ++ d) pre.length = .ok w' ∧ w' ≤ (pre ++ d).length) ↔
      ∃ item body tail, d = item ++ tail ∧ Tlv 0x30 body item ∧ StartsOid oid (body ++ tail) ∧ w' = pre.length + item.length := by
  unfold algorithmAt
  constructor
  · rintro ⟨h, hw⟩
    obtain ⟨⟨w1, n⟩, h1, h2⟩ := Res.bind_ok.1 h
    obtain ⟨l, rest, rfl, hl, rfl⟩ := (openAt_ok hs).1 h1
    dsimp only at h2
    obtain ⟨d1, h3, h4⟩ := Res.bind_ok.1 h2
    obtain ⟨h5, rfl⟩ := from_ok.1 h3
    obtain ⟨k, h6, h7⟩ := Res.bind_ok.1 h4
    obtain ⟨rfl, _⟩ := add_ok.1 h7
    rw [List.length_append, List.length_cons, List.length_append] at hw
    obtain ⟨item, body, tail, e1, e2, e3, rfl, rfl⟩ := split_item hl rfl (show n ≤ rest.length by omega) 0x30
    refine ⟨item, _, _, e1, e2, ?_, by omega⟩
    rw [List.take_append_drop]
    have : List.drop (pre.length + (1 + l.length)) (pre ++ 0x30 :: (l ++ rest)) = rest := by
      rw [show pre ++ 0x30 :: (l ++ rest) = (pre ++ 0x30 :: l) ++ rest by simp, List.drop_left']
      rw [List.length_append, List.length_cons]; omega
    rw [this] at h6
    exact checkOid_ok.1 ⟨k, h6⟩
  · rintro ⟨item, body, tail, rfl, ⟨l, hl, rfl⟩, ho, rfl⟩
    have hlen : ((0x30 : UInt8) :: (l ++ body)).length = 1 + l.length + body.length := by
      rw [List.length_cons, List.length_append]; omega
    have hd : (0x30 : UInt8) :: (l ++ body) ++ tail = 0x30 :: (l ++ (body ++ tail)) := by simp
    rw [hlen, hd]
    rw [hd, List.length_append, List.length_cons, List.length_append, List.length_append] at hs
    constructor
    · rw [(openAt_ok (by rw [List.length_append, List.length_cons, List.length_append, List.length_append]; omega)).2
        ⟨l, body ++ tail, rfl, hl, rfl⟩, Res.ok_bind]
      dsimp only
      have : List.drop (pre.length + (1 + l.length)) (pre ++ 0x30 :: (l ++ (body ++ tail))) = body ++ tail := by
        rw [show pre ++ 0x30 :: (l ++ (body ++ tail)) = (pre ++ 0x30 :: l) ++ (body ++ tail) by simp, List.drop_left']
        rw [List.length_append, List.length_cons]; omega
      rw [from_ok.2 ⟨by rw [List.length_append, List.length_cons, List.length_append, List.length_append]; omega, this.symm⟩, Res.ok_bind]
      obtain ⟨k, hk⟩ := checkOid_ok.2 ho
      rw [hk, Res.ok_bind, add_ok]
      omega
    · rw [List.length_append, List.length_cons, List.length_append, List.length_append]; omega

theorem skipTag_le {d : Bytes} {k : Nat} (hs : d.length < 2 ^ 63) (h : skipTag true d = .ok k) : k ≤ d.length := by
  obtain ⟨t, item, body, tail, rfl, _, rfl⟩ := (skipTag_ok hs).1 h
  rw [List.length_append]; omega

theorem skipSequence_le {d : Bytes} {k : Nat} (hs : d.length < 2 ^ 63) (h : skipSequence true d = .ok k) : k ≤ d.length := by
  obtain ⟨item, body, tail, rfl, _, rfl⟩ := (skipSequence_ok hs).1 h
  rw [List.length_append]; omega

theorem stepAt_tag {pre d : Bytes} {w' : Nat} (hs : (pre ++ d).length < 2 ^ 63) :
    stepAt true (skipTag true) (pre ++ d) pre.length = .ok w' ↔
      ∃ t item body tail, d = item ++ tail ∧ Tlv t body item ∧ w' = pre.length + item.length := by
  have hd : d.length < 2 ^ 63 := by rw [List.length_append] at hs; omega
  rw [stepAt_ok hs fun k hk => skipTag_le hd hk]
  constructor
  · rintro ⟨k, hk, rfl⟩
    obtain ⟨t, item, body, tail, e1, e2, rfl⟩ := (skipTag_ok hd).1 hk
    exact ⟨t, item, body, tail, e1, e2, rfl⟩
  · rintro ⟨t, item, body, tail, e1, e2, rfl⟩
    exact ⟨_, (skipTag_ok hd).2 ⟨t, item, body, tail, e1, e2, rfl⟩, rfl⟩

theorem stepAt_sequence {pre d : Bytes} {w' : Nat} (hs : (pre ++ d).length < 2 ^ 63) :
    stepAt true (skipSequence true) (pre ++ d) pre.length = .ok w' ↔
      ∃ item body tail, d = item ++ tail ∧ Tlv 0x30 body item ∧ w' = pre.length + item.length := by
  have hd : d.length < 2 ^ 63 := by rw [List.length_append] at hs; omega
  rw [stepAt_ok hs fun k hk => skipSequence_le hd hk]
  constructor
  · rintro ⟨k, hk, rfl⟩
    obtain ⟨item, body, tail, e1, e2, rfl⟩ := (skipSequence_ok hd).1 hk
    exact ⟨item, body, tail, e1, e2, rfl⟩
  · rintro ⟨item, body, tail, e1, e2, rfl⟩
    exact ⟨_, (skipSequence_ok hd).2 ⟨item, body, tail, e1, e2, rfl⟩, rfl⟩

theorem stepAt_from {ov : Bool} {chk : Bytes → Res Nat} {data : Bytes} {w w' : Nat} (h : stepAt ov chk data w = .ok w') :
    w ≤ data.length := by
  obtain ⟨d, h1, _⟩ := Res.bind_ok.1 h
  exact (from_ok.1 h1).1

theorem tbsFields_ok {oid : Option Bytes} {pre d : Bytes} (hs : (pre ++ d).length < 2 ^ 63) :
    tbsFields true oid (pre ++ d) pre.length = .ok () ↔ Fields oid d := by
  unfold tbsFields
  constructor
  · intro h
    obtain ⟨w1, h1, g1⟩ := Res.bind_ok.1 h
    obtain ⟨w2, h2, g2⟩ := Res.bind_ok.1 g1
    obtain ⟨w3, h3, g3⟩ := Res.bind_ok.1 g2
    obtain ⟨w4, h4, g4⟩ := Res.bind_ok.1 g3
    obtain ⟨w5, h5, g5⟩ := Res.bind_ok.1 g4
    obtain ⟨w6, h6, g6⟩ := Res.bind_ok.1 g5
    obtain ⟨d7, h7, g7⟩ := Res.bind_ok.1 g6
    obtain ⟨k, h8, _⟩ := Res.bind_ok.1 g7
    obtain ⟨_, hv, rfl⟩ := (stepAt_ok hs (fun k hk => by
      obtain ⟨rfl, rest, rfl⟩ := checkVersion_ok.1 hk
      rw [List.length_append]; simp)).1 h1
    obtain ⟨rfl, d1, rfl⟩ := checkVersion_ok.1 hv
    have a1 : pre.length + 5 = (pre ++ [0xA0, 3, 2, 1, 2]).length := by rw [List.length_append]; rfl
    rw [← List.append_assoc] at hs h2 h3 h4 h5 h6 h7
    rw [a1] at h2
    generalize pre ++ [0xA0, 3, 2, 1, 2] = p1 at hs h2 h3 h4 h5 h6 h7
    obtain ⟨t, serial, sb, d2, rfl, hserial, rfl⟩ := (stepAt_tag hs).1 h2
    rw [← List.append_assoc] at hs h3 h4 h5 h6 h7
    rw [← List.length_append] at h3
    generalize p1 ++ serial = p2 at hs h3 h4 h5 h6 h7
    obtain ⟨alg, ab, d3, rfl, halg, hoid, rfl⟩ := (algorithmAt_ok hs).1 ⟨h3, stepAt_from h4⟩
    rw [← List.append_assoc] at hs h4 h5 h6 h7
    rw [← List.length_append] at h4
    generalize p2 ++ alg = p3 at hs h4 h5 h6 h7
    obtain ⟨issuer, ib, d4, rfl, hi, rfl⟩ := (stepAt_sequence hs).1 h4
    rw [← List.append_assoc] at hs h5 h6 h7
    rw [← List.length_append] at h5
    generalize p3 ++ issuer = p4 at hs h5 h6 h7
    obtain ⟨validity, vb, d5, rfl, hval, rfl⟩ := (stepAt_sequence hs).1 h5
    rw [← List.append_assoc] at hs h6 h7
    rw [← List.length_append] at h6
    generalize p4 ++ validity = p5 at hs h6 h7
    obtain ⟨subject, jb, d6, rfl, hsub, rfl⟩ := (stepAt_sequence hs).1 h6
    rw [← List.append_assoc] at hs h7
    rw [← List.length_append] at h7
    generalize p5 ++ subject = p6 at hs h7
    obtain ⟨_, rfl⟩ := from_ok.1 h7
    rw [List.drop_left' rfl] at h8
    rw [List.length_append] at hs
    obtain ⟨key, kb, tail, rfl, hk, _⟩ := (skipSequence_ok (by omega)).1 h8
    exact ⟨t, serial, sb, alg, ab, issuer, ib, validity, vb, subject, jb, key, kb, tail, rfl, hserial, halg, hoid, hi, hval, hsub, hk⟩
  · rintro ⟨t, serial, sb, alg, ab, issuer, ib, validity, vb, subject, jb, key, kb, tail, rfl, hserial, halg, hoid, hi, hval, hsub, hk⟩
    rw [(stepAt_ok hs (fun k hk => by
      obtain ⟨rfl, rest, e⟩ := checkVersion_ok.1 hk
      rw [e, List.length_append]; simp)).2 ⟨5, checkVersion_ok.2 ⟨rfl, _, rfl⟩, rfl⟩, Res.ok_bind]
    have a1 : pre.length + 5 = (pre ++ [0xA0, 3, 2, 1, 2]).length := by rw [List.length_append]; rfl
    rw [a1, ← List.append_assoc] 
    rw [← List.append_assoc] at hs
    generalize pre ++ [0xA0, 3, 2, 1, 2] = p1 at hs ⊢
    rw [(stepAt_tag hs).2 ⟨t, serial, sb, _, rfl, hserial, rfl⟩, Res.ok_bind, ← List.length_append, ← List.append_assoc]
    rw [← List.append_assoc] at hs
    generalize p1 ++ serial = p2 at hs ⊢
    rw [((algorithmAt_ok hs).2 ⟨alg, ab, _, rfl, halg, hoid, rfl⟩).1, Res.ok_bind, ← List.length_append, ← List.append_assoc]
    rw [← List.append_assoc] at hs
    generalize p2 ++ alg = p3 at hs ⊢
    rw [(stepAt_sequence hs).2 ⟨issuer, ib, _, rfl, hi, rfl⟩, Res.ok_bind, ← List.length_append, ← List.append_assoc]
    rw [← List.append_assoc] at hs
    generalize p3 ++ issuer = p4 at hs ⊢
    rw [(stepAt_sequence hs).2 ⟨validity, vb, _, rfl, hval, rfl⟩, Res.ok_bind, ← List.length_append, ← List.append_assoc]
    rw [← List.append_assoc] at hs
    generalize p4 ++ validity = p5 at hs ⊢
    rw [(stepAt_sequence hs).2 ⟨subject, jb, _, rfl, hsub, rfl⟩, Res.ok_bind, ← List.length_append, ← List.append_assoc]
    rw [← List.append_assoc] at hs
    generalize p5 ++ subject = p6 at hs ⊢
    rw [from_ok.2 ⟨by rw [List.length_append]; omega, rfl⟩, Res.ok_bind, List.drop_left' rfl]
    rw [List.length_append] at hs
    rw [(skipSequence_ok (by omega)).2 ⟨key, kb, tail, rfl, hk, rfl⟩, Res.ok_bind]

theorem checkTbs_ok {oid : Option Bytes} {d : Bytes} {k : Nat} (hs : d.length < 2 ^ 63) :
    checkTbs true oid d = .ok k ↔
      ∃ item body tail, d = item ++ tail ∧ Tlv 0x30 body item ∧ Fields oid (body ++ tail) ∧ k = item.length := by
  unfold checkTbs
  constructor
  · intro h
    obtain ⟨⟨w, n⟩, h1, h2⟩ := Res.bind_ok.1 h
    obtain ⟨l, rest, rfl, hl, rfl⟩ := (openAt_ok (pre := []) hs).1 h1
    dsimp only at h2
    obtain ⟨e, h3, h4⟩ := Res.bind_ok.1 h2
    obtain ⟨h5, h6⟩ := Res.guard_ok.1 h4
    obtain ⟨⟨⟩, h7, h8⟩ := Res.bind_ok.1 h6
    obtain ⟨rfl, _⟩ := add_ok.1 h3
    obtain ⟨rfl, _⟩ := add_ok.1 h8
    rw [List.length_cons, List.length_append] at h5
    rw [List.length_nil] at *
    obtain ⟨item, body, tail, e1, e2, e3, rfl, rfl⟩ := split_item hl rfl (show n ≤ rest.length by omega) 0x30
    refine ⟨item, _, _, e1, e2, ?_, by omega⟩
    rw [List.take_append_drop]
    have e4 : (0x30 : UInt8) :: (l ++ rest) = (0x30 :: l) ++ rest := rfl
    rw [e4, show 0 + (1 + l.length) = ((0x30 : UInt8) :: l).length by rw [List.length_cons]; omega] at h7
    exact (tbsFields_ok hs).1 h7
  · rintro ⟨item, body, tail, rfl, ⟨l, hl, rfl⟩, hf, rfl⟩
    have hd : (0x30 : UInt8) :: (l ++ body) ++ tail = 0x30 :: (l ++ (body ++ tail)) := by simp
    rw [hd] at hs ⊢
    have e4 : (0x30 : UInt8) :: (l ++ (body ++ tail)) = (0x30 :: l) ++ (body ++ tail) := rfl
    have h1 := (openAt_ok (pre := []) hs).2 ⟨l, body ++ tail, rfl, hl, rfl⟩
    rw [List.nil_append, List.length_nil] at h1
    have hz := hs
    rw [List.length_cons, List.length_append, List.length_append] at hz
    have h2 := (tbsFields_ok (pre := 0x30 :: l) hs).2 hf
    rw [← e4, show ((0x30 : UInt8) :: l).length = 0 + (1 + l.length) by rw [List.length_cons]; omega] at h2
    rw [h1, Res.ok_bind]
    dsimp only
    rw [add_ok.2 ⟨rfl, by omega⟩, Res.ok_bind, if_neg (by rw [List.length_cons, List.length_append, List.length_append]; omega),
      h2, Res.ok_bind]
    rw [List.length_cons, List.length_append]; congr 1; omega

theorem stepAt_tbs {oid : Option Bytes} {pre d : Bytes} {w' : Nat} (hs : (pre ++ d).length < 2 ^ 63) :
    stepAt true (checkTbs true oid) (pre ++ d) pre.length = .ok w' ↔
      ∃ item body tail, d = item ++ tail ∧ Tlv 0x30 body item ∧ Fields oid (body ++ tail) ∧ w' = pre.length + item.length := by
  have hd : d.length < 2 ^ 63 := by rw [List.length_append] at hs; omega
  rw [stepAt_ok hs (fun k hk => by
    obtain ⟨item, body, tail, rfl, _, _, rfl⟩ := (checkTbs_ok hd).1 hk
    rw [List.length_append]; omega)]
  constructor
  · rintro ⟨k, hk, rfl⟩
    obtain ⟨item, body, tail, e1, e2, e3, rfl⟩ := (checkTbs_ok hd).1 hk
    exact ⟨item, body, tail, e1, e2, e3, rfl⟩
  · rintro ⟨item, body, tail, e1, e2, e3, rfl⟩
    exact ⟨_, (checkTbs_ok hd).2 ⟨item, body, tail, e1, e2, e3, rfl⟩, rfl⟩

theorem stepAt_sigAlg {oid : Option Bytes} {pre d : Bytes} {w' : Nat} (hs : (pre ++ d).length < 2 ^ 63) :
    (stepAt true (checkSigAlg true oid) (pre ++ d) pre.length = .ok w' ∧ w' ≤ (pre ++ d).length) ↔
      ∃ item body tail, d = item ++ tail ∧ Tlv 0x30 body item ∧ StartsOid oid (body ++ tail) ∧ w' = pre.length + item.length := by
  have hd : d.length < 2 ^ 63 := by rw [List.length_append] at hs; omega
  unfold stepAt checkSigAlg
  rw [from_ok.2 ⟨by rw [List.length_append]; omega, rfl⟩, Res.ok_bind, List.drop_left' rfl]
  constructor
  · rintro ⟨h, hw⟩
    obtain ⟨k, h1, h2⟩ := Res.bind_ok.1 h
    obtain ⟨rfl, _⟩ := add_ok.1 h2
    rw [List.length_append] at hw
    obtain ⟨item, body, tail, e1, e2, e3, e4⟩ := (algorithmAt_ok (pre := []) hd).1 ⟨h1, by rw [List.nil_append]; omega⟩
    rw [List.length_nil] at e4
    exact ⟨item, body, tail, e1, e2, e3, by omega⟩
  · rintro ⟨item, body, tail, rfl, e2, e3, rfl⟩
    have h1 : algorithmAt true oid (item ++ tail) 0 = .ok (0 + item.length) :=
      ((algorithmAt_ok (pre := []) hd).2 ⟨item, body, tail, rfl, e2, e3, rfl⟩).1
    rw [h1, Res.ok_bind, Nat.zero_add]
    rw [List.length_append, List.length_append] at hs
    constructor
    · exact add_ok.2 ⟨rfl, by omega⟩
    · rw [List.length_append, List.length_append]; omega

theorem partsAt_ok {oid : Option Bytes} {pre d : Bytes} {w' : Nat} (hs : (pre ++ d).length < 2 ^ 63) :
    partsAt true oid (pre ++ d) pre.length = .ok w' ↔
      ∃ content tbs algorithm ab t sb signature tail, d = content ++ (algorithm ++ (signature ++ tail)) ∧ Tlv 0x30 tbs content ∧
        Tlv 0x30 ab algorithm ∧ Tlv t sb signature ∧ Fields oid (tbs ++ (algorithm ++ (signature ++ tail))) ∧
        StartsOid oid (ab ++ (signature ++ tail)) ∧ w' = pre.length + (content ++ (algorithm ++ signature)).length := by
  unfold partsAt
  constructor
  · intro h
    obtain ⟨w1, h1, g1⟩ := Res.bind_ok.1 h
    obtain ⟨w2, h2, h3⟩ := Res.bind_ok.1 g1
    obtain ⟨content, tbs, d1, rfl, e1, e2, rfl⟩ := (stepAt_tbs hs).1 h1
    have hq : (pre ++ (content ++ d1)) = (pre ++ content) ++ d1 := by rw [List.append_assoc]
    rw [hq] at hs h2 h3
    rw [← List.length_append] at h2
    obtain ⟨alg, ab, d2, rfl, e3, e4, rfl⟩ := (stepAt_sigAlg hs).1 ⟨h2, stepAt_from h3⟩
    rw [← List.append_assoc] at hs h3
    rw [← List.length_append] at h3
    obtain ⟨t, sig, sb, tail, rfl, e5, rfl⟩ := (stepAt_tag hs).1 h3
    refine ⟨content, tbs, alg, ab, t, sb, sig, tail, rfl, e1, e3, e5, e2, e4, ?_⟩
    simp only [List.length_append]; omega
  · rintro ⟨content, tbs, alg, ab, t, sb, sig, tail, rfl, e1, e3, e5, e2, e4, rfl⟩
    rw [(stepAt_tbs hs).2 ⟨content, tbs, _, rfl, e1, e2, rfl⟩, Res.ok_bind, ← List.length_append, ← List.append_assoc]
    rw [← List.append_assoc] at hs
    rw [((stepAt_sigAlg hs).2 ⟨alg, ab, _, rfl, e3, e4, rfl⟩).1, Res.ok_bind, ← List.length_append, ← List.append_assoc]
    rw [← List.append_assoc] at hs
    rw [(stepAt_tag hs).2 ⟨t, sig, sb, tail, rfl, e5, rfl⟩]
    congr 1
    simp only [List.length_append]; omega

theorem checkCert_ok {a : BaseAsym} {d : Bytes} {k : Nat} (hs : d.length < 2 ^ 63) :
    checkCert true a d = .ok k ↔
      ∃ cert rest, d = cert ++ rest ∧ k = cert.length ∧ CertForm (if rest = [] then oidOf a else none) cert rest := by
  unfold checkCert
  constructor
  · intro h
    obtain ⟨⟨w, n⟩, h1, h2⟩ := Res.bind_ok.1 h
    obtain ⟨l, r, rfl, hl, rfl⟩ := (openAt_ok (pre := []) hs).1 h1
    dsimp only at h2
    obtain ⟨e, h3, h4⟩ := Res.bind_ok.1 h2
    obtain ⟨w', h5, h6⟩ := Res.bind_ok.1 h4
    obtain ⟨e', h7, h8⟩ := Res.bind_ok.1 h6
    obtain ⟨rfl, _⟩ := add_ok.1 h3
    obtain ⟨rfl, _⟩ := add_ok.1 h7
    rw [List.length_nil] at *
    have e4 : (0x30 : UInt8) :: (l ++ r) = (0x30 :: l) ++ r := rfl
    have e5 : 0 + (1 + l.length) = ((0x30 : UInt8) :: l).length := by rw [List.length_cons]; omega
    rw [e5, e4] at h5
    rcases Res.ite_ok.1 h8 with ⟨h9, hk⟩ | ⟨_, hk⟩
    · have hk := Res.ok.inj hk
      obtain ⟨content, tbs, alg, ab, t, sb, sig, tail, rfl, e1, e2, e3, e6, e7, rfl⟩ := (partsAt_ok hs).1 h5
      rw [e5] at h9
      have hn : n = (content ++ (alg ++ sig)).length := by omega
      have hleaf : (decide (((0x30 :: l) ++ (content ++ (alg ++ (sig ++ tail)))).length = ((0x30 : UInt8) :: l).length + n)) =
          decide (tail = []) := by
        rw [hn, decide_eq_decide]
        simp only [List.length_append, List.length_cons, ← List.length_eq_zero_iff]; omega
      rw [hleaf] at e6 e7
      refine ⟨0x30 :: (l ++ (content ++ (alg ++ sig))), tail, ?_, ?_, ?_⟩
      · simp
      · rw [← hk]; simp only [List.length_cons, List.length_append]; omega
      · refine ⟨content, tbs, alg, ab, t, sb, sig, ⟨l, hn ▸ hl, rfl⟩, e1, e2, e3, ?_, ?_⟩
        · by_cases ht : tail = []
          · simpa [ht, wantOid] using e6
          · simpa [ht, wantOid] using e6
        · by_cases ht : tail = []
          · simpa [ht, wantOid] using e7
          · simpa [ht, wantOid] using e7
    · cases hk
  · rintro ⟨cert, rest, rfl, rfl, content, tbs, alg, ab, t, sb, sig, ⟨l, hl, rfl⟩, e1, e2, e3, e6, e7⟩
    have hd : (0x30 : UInt8) :: (l ++ (content ++ (alg ++ sig))) ++ rest = 0x30 :: (l ++ (content ++ (alg ++ (sig ++ rest)))) := by simp
    have e4 : (0x30 : UInt8) :: (l ++ (content ++ (alg ++ (sig ++ rest)))) = (0x30 :: l) ++ (content ++ (alg ++ (sig ++ rest))) := rfl
    have e5 : 0 + (1 + l.length) = ((0x30 : UInt8) :: l).length := by rw [List.length_cons]; omega
    rw [hd] at hs ⊢
    have h1 := (openAt_ok (pre := []) hs).2 ⟨l, _, rfl, hl, rfl⟩
    rw [List.nil_append, List.length_nil] at h1
    rw [h1, Res.ok_bind]
    dsimp only
    have hz := hs
    simp only [List.length_append, List.length_cons] at hz
    have hb : 0 + (1 + l.length) + (content ++ (alg ++ sig)).length < 2 ^ 64 := by
      simp only [List.length_append]; omega
    rw [add_ok.2 ⟨rfl, hb⟩, Res.ok_bind, e5, e4]
    have hleaf : (decide (((0x30 :: l) ++ (content ++ (alg ++ (sig ++ rest)))).length =
        ((0x30 : UInt8) :: l).length + (content ++ (alg ++ sig)).length)) = decide (rest = []) := by
      rw [decide_eq_decide]
      simp only [List.length_append, List.length_cons, ← List.length_eq_zero_iff]; omega
    rw [hleaf]
    have hw : wantOid a (decide (rest = [])) = if rest = [] then oidOf a else none := by
      by_cases ht : rest = []
      · simp [ht, wantOid]
      · simp [ht, wantOid]
    rw [hw, (partsAt_ok hs).2 ⟨content, tbs, alg, ab, t, sb, sig, rest, rfl, e1, e2, e3, e6, e7, rfl⟩, Res.ok_bind, Res.ok_bind, if_pos rfl]
    congr 1
    simp only [List.length_append, List.length_cons]; omega

/-- what the chain walk does from a certificate boundary. -/
theorem chainLoop_ok {a : BaseAsym} {chain : Bytes} {m : Nat} (hs : chain.length < 2 ^ 63) : ∀ (fuel w n : Nat), w ≤ chain.length →
    chainLoop true a chain fuel w n = some (.ok m) →
    ∃ certs, chain.drop w = certs.flatten ∧ ChainForm (oidOf a) certs ∧ m = n + certs.length := by
  intro fuel
  induction fuel with
  | zero =>
    intro w n hw h
    rw [chainLoop] at h
    by_cases hlt : w < chain.length
    · rw [if_pos hlt] at h; cases h
    · rw [if_neg hlt, if_pos (by omega)] at h
      refine ⟨[], ?_, trivial, ?_⟩
      · rw [List.drop_eq_nil_of_le (by omega)]; rfl
      · have h := Res.ok.inj (Option.some.inj h); simp [h]
  | succ fuel ih =>
    intro w n hw h
    rw [chainLoop] at h
    by_cases hlt : w < chain.length
    · rw [if_pos hlt] at h
      cases hc : (do let k ← checkCert true a (chain.drop w); add true w k : Res Nat) with
      | panic => rw [hc] at h; cases h
      | err s => rw [hc] at h; cases h
      | ok w' =>
        rw [hc] at h
        dsimp only at h
        obtain ⟨k, h1, h2⟩ := Res.bind_ok.1 hc
        obtain ⟨rfl, _⟩ := add_ok.1 h2
        obtain ⟨cert, rest, e1, rfl, e2⟩ := (checkCert_ok (by rw [List.length_drop]; omega)).1 h1
        have hlen := congrArg List.length e1
        rw [List.length_drop, List.length_append] at hlen
        obtain ⟨certs, e3, e4, rfl⟩ := ih _ _ (by omega) h
        have e5 : rest = certs.flatten := by
          rw [← e3, ← List.drop_drop, e1, List.drop_left' rfl]
        subst e5
        have he : (certs = []) ↔ (certs.flatten = []) := by
          cases certs with
          | nil => simp
          | cons c cs =>
            obtain ⟨⟨x1, x2, x3, x4, x5, x6, x7, x8, _⟩, _⟩ := e4
            have := tlv_length x8
            constructor
            · intro hf; cases hf
            · intro hf
              have := congrArg List.length hf
              rw [List.flatten_cons, List.length_append, List.length_nil] at this; omega
        refine ⟨cert :: certs, by rw [e1, List.flatten_cons], ⟨?_, e4⟩, by rw [List.length_cons]; omega⟩
        by_cases hcn : certs = []
        · rw [if_pos hcn]; rw [if_pos (he.1 hcn)] at e2; exact e2
        · rw [if_neg hcn]; rw [if_neg fun hf => hcn (he.2 hf)] at e2; exact e2
    · rw [if_neg hlt, if_pos (by omega)] at h
      refine ⟨[], ?_, trivial, ?_⟩
      · rw [List.drop_eq_nil_of_le (by omega)]; rfl
      · have h := Res.ok.inj (Option.some.inj h); simp [h]

theorem certForm_length {oid : Option Bytes} {c r : Bytes} (h : CertForm oid c r) : 2 ≤ c.length := by
  obtain ⟨x1, x2, x3, x4, x5, x6, x7, x8, _⟩ := h
  exact tlv_length x8

/-- the build that checks overflow panics or does what the other build does. -/
def Agree {α : Type} (x y : Res α) : Prop := x = .panic ∨ x = y

theorem Agree.refl {α : Type} (x : Res α) : Agree x x := Or.inr rfl

theorem Agree.bind {α β : Type} {x y : Res α} {f g : α → Res β} (h : Agree x y) (hf : ∀ v, Agree (f v) (g v)) :
    Agree (x >>= f) (y >>= g) := by
  rcases h with rfl | rfl
  · exact Or.inl rfl
  · cases x with
    | ok v => exact hf v
    | err e => exact Or.inr rfl
    | panic => exact Or.inl rfl

theorem Agree.ite {α : Type} {c : Prop} [Decidable c] {x y x' y' : Res α} (h : Agree x y) (h' : Agree x' y') :
    Agree (if c then x else x') (if c then y else y') := by
  split <;> assumption

theorem agree_add (ov : Bool) (a b : Nat) : Agree (add true a b) (add ov a b) := by
  cases ov
  · unfold add
    by_cases h : a + b < 2 ^ 64
    · rw [if_pos h, if_pos h]; exact Agree.refl _
    · rw [if_neg h]; exact Or.inl rfl
  · exact Agree.refl _

theorem agree_skipBody (ov : Bool) (d : Bytes) : Agree (skipBody true d) (skipBody ov d) := by
  unfold skipBody
  refine .bind (.refl _) fun p => ?_
  obtain ⟨n, k⟩ := p
  exact .bind (agree_add _ _ _) fun _ => .bind (agree_add _ _ _) fun _ => .refl _

theorem agree_skipTag (ov : Bool) (d : Bytes) : Agree (skipTag true d) (skipTag ov d) := by
  cases d with
  | nil => exact .refl _
  | cons t r => exact agree_skipBody ov r

theorem agree_skipSequence (ov : Bool) (d : Bytes) : Agree (skipSequence true d) (skipSequence ov d) := by
  cases d with
  | nil => exact .refl _
  | cons t r => exact .ite (.refl _) (agree_skipBody ov r)

theorem agree_stepAt (ov : Bool) {f g : Bytes → Res Nat} (h : ∀ d, Agree (f d) (g d)) (d : Bytes) (w : Nat) :
    Agree (stepAt true f d w) (stepAt ov g d w) := by
  unfold stepAt
  exact .bind (.refl _) fun _ => .bind (h _) fun _ => agree_add _ _ _

theorem agree_openAt (ov : Bool) (d : Bytes) (w : Nat) : Agree (openAt true d w) (openAt ov d w) := by
  unfold openAt
  refine .bind (.refl _) fun _ => .bind (.refl _) fun _ => .bind (agree_add _ _ _) fun _ => .bind (.refl _) fun _ => .bind (.refl _) fun p => ?_
  obtain ⟨n, k⟩ := p
  exact .bind (agree_add _ _ _) fun _ => .refl _

theorem agree_algorithmAt (ov : Bool) (oid : Option Bytes) (d : Bytes) (w : Nat) :
    Agree (algorithmAt true oid d w) (algorithmAt ov oid d w) := by
  unfold algorithmAt
  refine .bind (agree_openAt _ _ _) fun p => ?_
  obtain ⟨n, k⟩ := p
  exact .bind (.refl _) fun _ => .bind (.refl _) fun _ => agree_add _ _ _

theorem agree_tbsFields (ov : Bool) (oid : Option Bytes) (d : Bytes) (w : Nat) :
    Agree (tbsFields true oid d w) (tbsFields ov oid d w) := by
  unfold tbsFields
  exact .bind (agree_stepAt _ (fun _ => .refl _) _ _) fun _ => .bind (agree_stepAt _ (agree_skipTag _) _ _) fun _ =>
    .bind (agree_algorithmAt _ _ _ _) fun _ => .bind (agree_stepAt _ (agree_skipSequence _) _ _) fun _ =>
    .bind (agree_stepAt _ (agree_skipSequence _) _ _) fun _ => .bind (agree_stepAt _ (agree_skipSequence _) _ _) fun _ =>
    .bind (.refl _) fun _ => .bind (agree_skipSequence _ _) fun _ => .refl _

theorem agree_checkTbs (ov : Bool) (oid : Option Bytes) (d : Bytes) : Agree (checkTbs true oid d) (checkTbs ov oid d) := by
  unfold checkTbs
  refine .bind (agree_openAt _ _ _) fun p => ?_
  obtain ⟨n, k⟩ := p
  exact .bind (agree_add _ _ _) fun _ => .ite (.refl _) (.bind (agree_tbsFields _ _ _ _) fun _ => agree_add _ _ _)

theorem agree_partsAt (ov : Bool) (oid : Option Bytes) (d : Bytes) (w : Nat) : Agree (partsAt true oid d w) (partsAt ov oid d w) := by
  unfold partsAt
  exact .bind (agree_stepAt _ (agree_checkTbs _ _) _ _) fun _ => .bind (agree_stepAt _ (fun d => agree_algorithmAt _ _ d 0) _ _) fun _ =>
    agree_stepAt _ (agree_skipTag _) _ _

theorem agree_checkCert (ov : Bool) (a : BaseAsym) (d : Bytes) : Agree (checkCert true a d) (checkCert ov a d) := by
  unfold checkCert
  refine .bind (agree_openAt _ _ _) fun p => ?_
  obtain ⟨n, k⟩ := p
  exact .bind (agree_add _ _ _) fun _ => .bind (agree_partsAt _ _ _ _) fun _ => .bind (agree_add _ _ _) fun _ => .refl _

theorem agree_chainLoop (ov : Bool) (a : BaseAsym) (chain : Bytes) : ∀ (fuel w n : Nat),
    chainLoop true a chain fuel w n = some .panic ∨ chainLoop true a chain fuel w n = chainLoop ov a chain fuel w n := by
  intro fuel
  induction fuel with
  | zero => intro w n; exact Or.inr rfl
  | succ fuel ih =>
    intro w n
    simp only [chainLoop]
    by_cases hw : w < chain.length
    · rw [if_pos hw, if_pos hw]
      have h : Agree (do let k ← checkCert true a (chain.drop w); add true w k) (do let k ← checkCert ov a (chain.drop w); add ov w k) :=
        .bind (agree_checkCert _ _ _) fun _ => agree_add _ _ _
      generalize (do let k ← checkCert true a (chain.drop w); add true w k : Res Nat) = x at h ⊢
      generalize (do let k ← checkCert ov a (chain.drop w); add ov w k : Res Nat) = y at h ⊢
      rcases h with rfl | rfl
      · exact Or.inl rfl
      · cases x with
        | ok w' => exact ih w' (n + 1)
        | err e => exact Or.inr rfl
        | panic => exact Or.inl rfl
    · rw [if_neg hw, if_neg hw]; exact Or.inr rfl

theorem Agree.ok {α : Type} {x y : Res α} {v : α} (h : Agree x y) (hx : x = .ok v) : y = .ok v := by
  rcases h with h | h
  · rw [h] at hx; cases hx
  · rw [← h]; exact hx

/-- a walk over certificates in front of `tail`, of which the last is not the end of the chain if `tail` is not empty. -/
theorem chainLoop_walk {a : BaseAsym} (ov : Bool) {tail : Bytes} : ∀ (certs : List Bytes) (pre : Bytes) (n : Nat),
    (pre ++ (certs.flatten ++ tail)).length < 2 ^ 63 →
    (∀ xs c ys, certs = xs ++ c :: ys → CertForm (if ys.flatten ++ tail = [] then oidOf a else none) c (ys.flatten ++ tail)) →
    ∀ fuel, chainLoop ov a (pre ++ (certs.flatten ++ tail)) (certs.length + fuel) pre.length n =
      chainLoop ov a (pre ++ (certs.flatten ++ tail)) fuel (pre ++ certs.flatten).length (n + certs.length) := by
  intro certs
  induction certs with
  | nil => intro pre n _ _ fuel; simp
  | cons c cs ih =>
    intro pre n hs hf fuel
    have hc := hf [] c cs rfl
    have hcl := certForm_length hc
    have hq : pre ++ ((c :: cs).flatten ++ tail) = (pre ++ c) ++ (cs.flatten ++ tail) := by simp
    rw [show (c :: cs).length + fuel = (cs.length + fuel) + 1 by rw [List.length_cons]; omega, chainLoop]
    rw [if_pos (by rw [List.flatten_cons]; simp only [List.length_append]; omega)]
    have hd : (pre ++ ((c :: cs).flatten ++ tail)).drop pre.length = c ++ (cs.flatten ++ tail) := by
      rw [List.drop_left' rfl, List.flatten_cons, List.append_assoc]
    have hz := hs
    rw [hq] at hz
    simp only [List.length_append] at hz
    rw [hd, (agree_checkCert ov a _).ok ((checkCert_ok (by simp only [List.length_append]; omega)).2 ⟨c, cs.flatten ++ tail, rfl, rfl, hc⟩),
      Res.ok_bind, (agree_add ov _ _).ok (add_ok.2 ⟨rfl, by omega⟩)]
    dsimp only
    rw [hq, ← List.length_append, ih (pre ++ c) (n + 1) (by rw [← hq]; exact hs)
      (fun xs d ys he => hf (c :: xs) d ys (by rw [he]; rfl)) fuel]
    rw [show n + 1 + cs.length = n + (c :: cs).length by rw [List.length_cons]; omega, List.flatten_cons, List.append_assoc, List.append_assoc pre c cs.flatten]

theorem chainForm_at {oid : Option Bytes} : ∀ (certs : List Bytes), ChainForm oid certs → ∀ xs c ys, certs = xs ++ c :: ys →
    CertForm (if ys = [] then oid else none) c ys.flatten ∧ ChainForm oid ys := by
  intro certs
  induction certs with
  | nil => intro _ xs c ys h; simp at h
  | cons d ds ih =>
    intro hf xs c ys h
    cases xs with
    | nil =>
      simp only [List.nil_append, List.cons.injEq] at h
      obtain ⟨rfl, rfl⟩ := h
      exact hf
    | cons x xs =>
      simp only [List.cons_append, List.cons.injEq] at h
      exact ih hf.2 xs c ys h.2

theorem chainForm_nil {oid : Option Bytes} {certs : List Bytes} (h : ChainForm oid certs) : certs.flatten = [] ↔ certs = [] := by
  cases certs with
  | nil => simp
  | cons c cs =>
    have := certForm_length h.1
    constructor
    · intro hf
      have := congrArg List.length hf
      rw [List.flatten_cons, List.length_append, List.length_nil] at this; omega
    · intro hf; cases hf

end Verif.X509
