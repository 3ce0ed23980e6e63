/-
The walk over a chain (`get_cert_from_cert_chain`) and the ECDSA signature in DER.
-/
import Verif.X509.Form

namespace Verif.X509
open Verif.Spec

/-- what the walk does at position `off`. -/
inductive At (chain : Bytes) (off : Nat) : Option Bytes → Prop
  | cert (c rest : Bytes) : chain.drop off = c ++ rest → RawCert c → At chain off (some c)
  | stop : (∀ c rest, chain.drop off = c ++ rest → ¬ RawCert c) → At chain off none

theorem rawCert_length {c : Bytes} (h : RawCert c) : 4 ≤ c.length := by
  obtain ⟨hi, lo, body, rfl, _⟩ := h
  simp

theorem certLoop_step {chain : Bytes} {index : Int} {off : Nat} (hoff : off ≤ chain.length) (fuel : Nat) (this : Int) :
    (∃ c, At chain off (some c) ∧ off + c.length ≤ chain.length ∧
      certLoop chain index (fuel + 1) off this =
        if this = index ∨ (off + c.length = chain.length ∧ index = -1) then some (.ok (off, off + c.length))
        else certLoop chain index fuel (off + c.length) (this + 1)) ∨
    (At chain off none ∧ certLoop chain index (fuel + 1) off this = some (.err .invalidCert)) := by
  rw [certLoop, if_neg (by omega)]
  have hl : (chain.drop off).length = chain.length - off := List.length_drop
  match hd : chain.drop off with
  | [] | [_] | [_, _] | [_, _, _] =>
    refine Or.inr ⟨.stop ?_, rfl⟩
    intro c rest he hr
    rw [hd] at he
    have := congrArg List.length he
    have h4 := rawCert_length hr
    rw [List.length_append] at this
    simp only [List.length_cons, List.length_nil] at this
    omega
  | t :: u :: hi :: lo :: body =>
    simp only
    rw [hd] at hl
    simp only [List.length_cons] at hl
    by_cases htu : t ≠ 0x30 ∨ u ≠ 0x82
    · rw [if_pos htu]
      refine Or.inr ⟨.stop ?_, rfl⟩
      intro c rest he hr
      obtain ⟨hi', lo', body', rfl, _⟩ := hr
      rw [hd] at he
      simp only [List.cons_append, List.cons.injEq] at he
      rcases htu with h | h
      · exact h he.1
      · exact h he.2.1
    · rw [if_neg htu]
      simp only [not_or, ne_eq, Decidable.not_not] at htu
      obtain ⟨rfl, rfl⟩ := htu
      by_cases hn : hi.toNat * 256 + lo.toNat + 4 > chain.length - off
      · rw [if_pos hn]
        refine Or.inr ⟨.stop ?_, rfl⟩
        intro c rest he hr
        obtain ⟨hi', lo', body', rfl, hb⟩ := hr
        rw [hd] at he
        have hlen := congrArg List.length he
        simp only [List.cons_append, List.cons.injEq] at he
        obtain ⟨_, _, rfl, rfl, rfl⟩ := he
        simp only [List.length_cons, List.length_append] at hlen hl
        omega
      · rw [if_neg hn]
        have hbl : (body.take (hi.toNat * 256 + lo.toNat)).length = hi.toNat * 256 + lo.toNat := by
          rw [List.length_take]; omega
        have hcl : ((0x30 : UInt8) :: 0x82 :: hi :: lo :: body.take (hi.toNat * 256 + lo.toNat)).length = hi.toNat * 256 + lo.toNat + 4 := by
          simp only [List.length_cons, hbl]
        refine Or.inl ⟨0x30 :: 0x82 :: hi :: lo :: body.take (hi.toNat * 256 + lo.toNat), .cert _ (body.drop (hi.toNat * 256 + lo.toNat)) ?_
          ⟨hi, lo, _, rfl, hbl⟩, ?_, ?_⟩
        · rw [hd]; simp only [List.cons_append, List.take_append_drop]
        · omega
        · rw [hcl]
          by_cases h1 : this = index
          · rw [if_pos h1, if_pos (Or.inl h1)]
          · rw [if_neg h1]
            by_cases h2 : off + (hi.toNat * 256 + lo.toNat + 4) = chain.length ∧ index = -1
            · rw [if_pos h2, if_pos (Or.inr h2)]
            · rw [if_neg h2, if_neg (by rintro (h | h); exact h1 h; exact h2 h)]

theorem certLoop_total (chain : Bytes) (index : Int) : ∀ (fuel off : Nat) (this : Int), off ≤ chain.length → chain.length < off + fuel →
    ∃ r, certLoop chain index fuel off this = some r ∧ r ≠ .panic := by
  intro fuel
  induction fuel with
  | zero => intro off this h1 h2; omega
  | succ fuel ih =>
    intro off this h1 h2
    rcases certLoop_step h1 fuel this with ⟨c, hc, hle, he⟩ | ⟨_, he⟩
    · rw [he]
      by_cases h : this = index ∨ (off + c.length = chain.length ∧ index = -1)
      · rw [if_pos h]; exact ⟨_, rfl, by simp⟩
      · rw [if_neg h]
        cases hc with
        | cert _ rest hd hr =>
          have := rawCert_length hr
          exact ih _ _ hle (by omega)
    · exact ⟨_, he, by simp⟩

theorem drop_of_append {chain pre rest : Bytes} (h : chain = pre ++ rest) : chain.drop pre.length = rest := by
  rw [h, List.drop_left' rfl]

/-- an answer of the walk, from certificate number `this` at position `off`. -/
theorem certLoop_ok {chain : Bytes} {index : Int} {b e : Nat} : ∀ (fuel off : Nat) (this : Int), off ≤ chain.length →
    certLoop chain index fuel off this = some (.ok (b, e)) →
    ∃ (pre : List Bytes) (c post : Bytes), chain.drop off = pre.flatten ++ (c ++ post) ∧ (∀ x ∈ pre, RawCert x) ∧ RawCert c ∧ b = off + pre.flatten.length ∧
      e = b + c.length ∧ (index = this + pre.length ∨ (index = -1 ∧ post = [])) := by
  intro fuel
  induction fuel with
  | zero => intro off this _ h; cases h
  | succ fuel ih =>
    intro off this h1 h
    rcases certLoop_step h1 fuel this with ⟨c, hc, hle, he⟩ | ⟨_, he⟩
    · rw [he] at h
      cases hc with
      | cert _ rest hd hr =>
        have hlen := congrArg List.length hd
        rw [List.length_drop, List.length_append] at hlen
        by_cases h2 : this = index ∨ (off + c.length = chain.length ∧ index = -1)
        · rw [if_pos h2] at h
          have h := Prod.mk.inj (Res.ok.inj (Option.some.inj h))
          refine ⟨[], c, rest, hd, by simp, hr, by simp [h.1], by omega, ?_⟩
          rcases h2 with h2 | h2
          · exact Or.inl (by simp [h2])
          · exact Or.inr ⟨h2.2, List.length_eq_zero_iff.1 (by omega)⟩
        · rw [if_neg h2] at h
          obtain ⟨pre, d, post, e1, e2, e3, e4, e5, e6⟩ := ih _ _ hle h
          have hr' : rest = pre.flatten ++ (d ++ post) := by
            rw [← e1, ← List.drop_drop, hd, List.drop_left' rfl]
          refine ⟨c :: pre, d, post, ?_, ?_, e3, ?_, e5, ?_⟩
          · rw [hd, hr', List.flatten_cons, List.append_assoc]
          · intro x hx
            rcases List.mem_cons.1 hx with rfl | hx
            · exact hr
            · exact e2 x hx
          · rw [e4, List.flatten_cons, List.length_append]; omega
          · rcases e6 with e6 | e6
            · left; rw [e6, List.length_cons]; omega
            · exact Or.inr e6
    · rw [he] at h; cases h

theorem rawCert_inj {c d r s : Bytes} (hc : RawCert c) (hd : RawCert d) (h : c ++ r = d ++ s) : c = d ∧ r = s := by
  obtain ⟨hi, lo, body, rfl, hb⟩ := hc
  obtain ⟨hi', lo', body', rfl, hb'⟩ := hd
  simp only [List.cons_append, List.cons.injEq] at h
  obtain ⟨_, _, rfl, rfl, h⟩ := h
  have := List.append_inj h (by omega)
  exact ⟨by rw [this.1], this.2⟩

/-- the walk finds the certificate. -/
theorem certLoop_finds {chain : Bytes} {index : Int} {c post : Bytes} (hc : RawCert c) : ∀ (pre : List Bytes) (off : Nat) (this : Int),
    off ≤ chain.length → chain.drop off = pre.flatten ++ (c ++ post) → (∀ x ∈ pre, RawCert x) → this ≥ 0 →
    (index = this + pre.length ∨ (index = -1 ∧ post = [])) →
    certLoop chain index (pre.length + 1) off this = some (.ok (off + pre.flatten.length, off + pre.flatten.length + c.length)) := by
  intro pre
  induction pre with
  | nil =>
    intro off this h1 hd _ ht hi
    rw [List.flatten_nil, List.nil_append] at hd
    rcases certLoop_step (index := index) h1 0 this with ⟨d, hdd, hle, he⟩ | ⟨hs, _⟩
    · cases hdd with
      | cert _ rest hd' hr =>
        rw [hd] at hd'
        obtain ⟨rfl, rfl⟩ := rawCert_inj hc hr hd'
        have hlen := congrArg List.length hd
        rw [List.length_drop, List.length_append] at hlen
        refine he.trans ?_
        rw [if_pos]
        · rfl
        · rcases hi with hi | ⟨hi, hp⟩
          · left; simpa using hi.symm
          · right; exact ⟨by rw [hp, List.length_nil] at hlen; omega, hi⟩
    · cases hs with
      | stop hs => exact absurd hc (hs c post hd)
  | cons p ps ih =>
    intro off this h1 hd hall ht hi
    have hp : RawCert p := hall p (List.mem_cons_self ..)
    rw [List.flatten_cons, List.append_assoc] at hd
    rcases certLoop_step (index := index) h1 (ps.length + 1) this with ⟨d, hdd, hle, he⟩ | ⟨hs, _⟩
    · cases hdd with
      | cert _ rest hd' hr =>
        rw [hd] at hd'
        obtain ⟨rfl, rfl⟩ := rawCert_inj hp hr hd'
        have h4 := rawCert_length hc
        have hlen := congrArg List.length hd
        rw [List.length_drop] at hlen
        simp only [List.length_append] at hlen
        refine he.trans ?_
        rw [if_neg]
        · rw [ih (off + p.length) (this + 1) hle (by rw [← List.drop_drop, hd, List.drop_left' rfl])
            (fun x hx => hall x (List.mem_cons_of_mem _ hx)) (by omega) (by
              rcases hi with hi | hi
              · left; rw [List.length_cons] at hi; omega
              · exact Or.inr hi)]
          simp only [List.flatten_cons, List.length_append, Nat.add_assoc]
        · rintro (h | ⟨h, _⟩)
          · rcases hi with hi | ⟨hi, _⟩
            · rw [List.length_cons] at hi; omega
            · omega
          · omega
    · cases hs with
      | stop hs => exact absurd hp (hs p _ hd)

/-- the walk never changes its answer with more rounds. -/
theorem certLoop_mono {chain : Bytes} {index : Int} {r : Res (Nat × Nat)} : ∀ (fuel off : Nat) (this : Int),
    certLoop chain index fuel off this = some r → ∀ fuel', fuel ≤ fuel' → certLoop chain index fuel' off this = some r := by
  intro fuel
  induction fuel with
  | zero => intro _ _ h; cases h
  | succ fuel ih =>
    intro off this h fuel' hf
    obtain ⟨f, rfl⟩ : ∃ f, fuel' = f + 1 := ⟨fuel' - 1, by omega⟩
    by_cases h1 : off ≤ chain.length
    · rcases certLoop_step (index := index) h1 fuel this with ⟨c, hc, hle, he⟩ | ⟨hs, he⟩
      · rcases certLoop_step (index := index) h1 f this with ⟨c', hc', hle', he'⟩ | ⟨hs, _⟩
        · have : c' = c := by
            cases hc with
            | cert _ rest hd hr =>
              cases hc' with
              | cert _ rest' hd' hr' =>
                rw [hd] at hd'
                exact (rawCert_inj hr hr' hd').1.symm
          subst this
          rw [he] at h
          rw [he']
          split
          · next hh => rw [if_pos hh] at h; exact h
          · next hh => rw [if_neg hh] at h; exact ih _ _ h f (by omega)
        · cases hc with
          | cert _ rest hd hr => cases hs with | stop hs => exact absurd hr (hs _ _ hd)
      · rcases certLoop_step (index := index) h1 f this with ⟨c', hc', _, _⟩ | ⟨_, he'⟩
        · cases hc' with
          | cert _ rest hd hr => cases hs with | stop hs => exact absurd hr (hs _ _ hd)
        · rw [he', ← he]; exact h
    · rw [certLoop, if_pos (by omega)] at h ⊢; exact h

theorem beNat_strip (n : Bytes) : beNat (strip n) = beNat n := by
  induction n with
  | nil => rfl
  | cons b bs ih =>
    unfold strip at ih ⊢
    by_cases hb : (b == 0) = true
    · rw [List.dropWhile_cons_of_pos (p := (· == 0)) hb, ih]
      have : b = 0 := beq_iff_eq.1 hb
      subst this
      simp [beNat]
    · rw [List.dropWhile_cons_of_neg (p := (· == 0)) hb]

theorem strip_length (n : Bytes) : (strip n).length ≤ n.length := by
  induction n with
  | nil => exact Nat.le_refl _
  | cons b bs ih =>
    unfold strip at ih ⊢
    by_cases hb : (b == 0) = true
    · rw [List.dropWhile_cons_of_pos (p := (· == 0)) hb, List.length_cons]; omega
    · rw [List.dropWhile_cons_of_neg (p := (· == 0)) hb]; exact Nat.le_refl _

theorem strip_head {n : Bytes} {b : UInt8} {bs : Bytes} (h : strip n = b :: bs) : b ≠ 0 := by
  induction n with
  | nil => cases h
  | cons x xs ih =>
    unfold strip at ih h
    by_cases hb : (x == 0) = true
    · rw [List.dropWhile_cons_of_pos (p := (· == 0)) hb] at h; exact ih h
    · rw [List.dropWhile_cons_of_neg (p := (· == 0)) hb] at h
      simp only [List.cons.injEq] at h
      rw [← h.1]; exact fun hf => hb (beq_iff_eq.2 hf)

theorem strip_nil {n : Bytes} : strip n = [] ↔ beNat n = 0 := by
  constructor
  · intro h; rw [← beNat_strip, h]; rfl
  · intro h
    rw [← beNat_strip] at h
    cases hs : strip n with
    | nil => rfl
    | cons b bs =>
      exfalso
      rw [hs, beNat] at h
      have hb := strip_head hs
      have h0 : b.toNat ≠ 0 := fun hf => hb (UInt8.toNat_inj.1 (by rw [hf]; rfl))
      have hp : 0 < 256 ^ bs.length := Nat.pow_pos (by omega)
      have := Nat.mul_pos (Nat.pos_of_ne_zero h0) hp
      omega

theorem derInt_spec {n : Bytes} (h : strip n ≠ []) : DerInt (beNat n) (derInt (strip n)) := by
  cases hs : strip n with
  | nil => exact absurd hs h
  | cons b bs =>
    have hb := strip_head hs
    simp only [derInt]
    by_cases h8 : b < 0x80
    · rw [if_pos h8]
      refine ⟨by rw [← hs, beNat_strip], b, bs, rfl, ?_, fun hf => absurd hf hb⟩
      exact UInt8.lt_iff_toNat_lt.1 h8
    · rw [if_neg h8]
      refine ⟨?_, 0, b :: bs, rfl, by decide, fun _ => ⟨b, bs, rfl, ?_⟩⟩
      · rw [← beNat_strip n, hs]; simp [beNat]
      · have := h8
        rw [UInt8.lt_iff_toNat_lt] at this
        exact Nat.le_of_not_lt this

theorem derInt_length (n : Bytes) : (derInt n).length ≤ n.length + 1 := by
  cases n with
  | nil => simp [derInt]
  | cons b bs =>
    simp only [derInt]
    split
    · omega
    · simp

theorem ofNat_toNat {n : Nat} (h : n < 256) : (UInt8.ofNat n).toNat = n := by
  rw [UInt8.toNat_ofNat']; omega

end Verif.X509
