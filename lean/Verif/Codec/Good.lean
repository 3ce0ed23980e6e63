/-
`Rd.Good`: the closure property shared by every decoder of the model, and inversion lemmas for `do` blocks.
-/
import Verif.Codec.Lemmas

namespace Verif

namespace M
variable {ε σ α β : Type}

theorem bind_ok {x : M ε σ α} {f : α → M ε σ β} {s s' : σ} {b : β} :
    (x >>= f) s = .ok b s' ↔ ∃ a t, x s = .ok a t ∧ f a t = .ok b s' := by
  simp only [bind_apply]
  cases h : x s with
  | ok a t =>
    constructor
    · intro g; exact ⟨a, t, rfl, g⟩
    · rintro ⟨_, _, g, g'⟩
      injection g with g1 g2
      subst g1; subst g2; exact g'
  | err e t => simp
  | panic => simp

theorem map_ok {x : M ε σ α} {f : α → β} {s s' : σ} {b : β} :
    (f <$> x) s = .ok b s' ↔ ∃ a, x s = .ok a s' ∧ f a = b := by
  simp only [map_apply]
  cases h : x s with
  | ok a t =>
    simp only [Out.ok.injEq]
    constructor
    · rintro ⟨rfl, rfl⟩; exact ⟨a, ⟨rfl, rfl⟩, rfl⟩
    · rintro ⟨_, ⟨rfl, rfl⟩, rfl⟩; exact ⟨rfl, rfl⟩
  | err e t => simp
  | panic => simp

theorem bind_ne_panic {x : M ε σ α} {f : α → M ε σ β} {s : σ}
    (hx : x s ≠ .panic) (hf : ∀ a t, x s = .ok a t → f a t ≠ .panic) : (x >>= f) s ≠ .panic := by
  simp only [bind_apply]
  cases h : x s with
  | ok a t => exact hf a t h
  | err e t => simp
  | panic => exact absurd h hx

theorem pure_ok {a b : α} {s s' : σ} : (pure a : M ε σ α) s = .ok b s' ↔ a = b ∧ s = s' := by
  simp [pure_apply]

theorem fail_ok {e : ε} {b : α} {s s' : σ} : (fail e : M ε σ α) s = .ok b s' ↔ False := by simp

theorem ite_ok {c : Prop} [Decidable c] {x y : M ε σ α} {s s' : σ} {b : α} :
    (if c then x else y) s = .ok b s' ↔ (c ∧ x s = .ok b s') ∨ (¬ c ∧ y s = .ok b s') := by
  by_cases h : c <;> simp [h]

@[simp] theorem ite_apply {c : Prop} [Decidable c] {x y : M ε σ α} {s : σ} :
    (if c then x else y) s = if c then x s else y s := by
  by_cases h : c <;> simp [h]

/-- `if bad { return None }` followed by the rest. -/
theorem guard_ok {c : Prop} [Decidable c] {e : ε} {y : M ε σ α} {s s' : σ} {b : α} :
    (if c then fail e else y) s = .ok b s' ↔ ¬ c ∧ y s = .ok b s' := by
  by_cases h : c <;> simp [h]
end M

/-- A decoder that, on every input, does not panic and has consumed a prefix of the unread bytes, whether it succeeds or
fails. -/
def Rd.Good {α : Type} (x : Rd α) : Prop :=
  ∀ r, (∃ a bs r', x r = .ok a r' ∧ r.After bs r') ∨ (∃ bs r', x r = .err () r' ∧ r.After bs r')

namespace Rd.Good
variable {α β : Type}

theorem ne_panic {x : Rd α} (h : x.Good) (r : Reader) : x r ≠ .panic := by
  rcases h r with ⟨a, bs, r', h, _⟩ | ⟨bs, r', h, _⟩ <;> rw [h] <;> simp

theorem after {x : Rd α} (h : x.Good) {r r' : Reader} {a : α} (hx : x r = .ok a r') : ∃ bs, r.After bs r' := by
  rcases h r with ⟨a, bs, r'', h, h'⟩ | ⟨bs, r'', h, h'⟩
  · rw [hx] at h; simp at h; obtain ⟨_, rfl⟩ := h; exact ⟨bs, h'⟩
  · rw [hx] at h; simp at h

theorem pure (a : α) : Rd.Good (pure a) := fun r => .inl ⟨a, [], r, rfl, Reader.After.refl r⟩
theorem fail : Rd.Good (M.fail () : Rd α) := fun r => .inr ⟨[], r, rfl, Reader.After.refl r⟩
theorem none : Rd.Good (Rd.none : Rd α) := fail

theorem bind {x : Rd α} {f : α → Rd β} (hx : x.Good) (hf : ∀ a, (f a).Good) : Rd.Good (x >>= f) := by
  intro r
  rcases hx r with ⟨a, bs, r', h, h'⟩ | ⟨bs, r', h, h'⟩
  · rcases hf a r' with ⟨b, bs', r'', g, g'⟩ | ⟨bs', r'', g, g'⟩
    · exact .inl ⟨b, bs ++ bs', r'', by simp [h, g], h'.trans g'⟩
    · exact .inr ⟨bs ++ bs', r'', by simp [h, g], h'.trans g'⟩
  · exact .inr ⟨bs, r', by simp [h], h'⟩

theorem map {x : Rd α} {f : α → β} (hx : x.Good) : Rd.Good (f <$> x) := by
  intro r
  rcases hx r with ⟨a, bs, r', h, h'⟩ | ⟨bs, r', h, h'⟩
  · exact .inl ⟨f a, bs, r', by simp [h], h'⟩
  · exact .inr ⟨bs, r', by simp [h], h'⟩

theorem ite {c : Prop} [Decidable c] {x y : Rd α} (hx : x.Good) (hy : y.Good) :
    Rd.Good (if c then x else y) := by
  by_cases h : c <;> simp only [h, if_true, if_false] <;> assumption

/-- The branch condition may be used in each branch. -/
theorem ite' {c : Prop} [Decidable c] {x y : Rd α} (hx : c → x.Good) (hy : ¬ c → y.Good) :
    Rd.Good (if c then x else y) := by
  by_cases h : c
  · simpa [h] using hx h
  · simpa [h] using hy h

theorem take (n : Nat) : Rd.Good (Rd.take n) := by
  intro r
  unfold Rd.take
  by_cases h : r.left < n
  · exact .inr ⟨[], r, by simp [h], Reader.After.refl r⟩
  · refine .inl ⟨r.rest.take n, r.rest.take n, _, by simp [h]; rfl, ?_, ?_⟩
    · simp
    · simp [Reader.left] at h ⊢; omega

theorem rest : Rd.Good Rd.rest := fun r => .inl ⟨r.rest, r.rest, _, rfl, by simp [Reader.After]⟩

private theorem of {x : Rd α} (hp : ∀ r, x r ≠ .panic)
    (hok : ∀ r a r', x r = .ok a r' → ∃ bs, r.After bs r')
    (herr : ∀ r r', x r = .err () r' → ∃ bs, r.After bs r') : x.Good := by
  intro r
  cases h : x r with
  | ok a r' => obtain ⟨bs, hb⟩ := hok r a r' h; exact .inl ⟨a, bs, r', rfl, hb⟩
  | err e r' => obtain ⟨bs, hb⟩ := herr r r' h; exact .inr ⟨bs, r', rfl, hb⟩
  | panic => exact absurd h (hp r)

theorem u8 : Rd.Good rdU8 := of rdU8_ne_panic (fun _ _ _ h => ⟨_, rdU8_ok.mp h⟩) (by
  intro r r' h
  obtain ⟨bs, u⟩ := r
  cases bs <;> simp at h
  subst h; exact ⟨[], Reader.After.refl _⟩)

private theorem short {α : Type} {n : Nat} {f : Bytes → Rd α} {r r' : Reader}
    (hf : ∀ bs s e t, bs.length = n → f bs s ≠ .err e t)
    (h : (Rd.take n >>= f) r = .err () r') : ∃ bs, r.After bs r' := by
  rw [M.bind_apply] at h
  unfold Rd.take at h
  by_cases hl : r.left < n
  · simp [hl] at h; subst h; exact ⟨[], Reader.After.refl _⟩
  · simp only [hl, if_false] at h
    exact absurd h (hf _ _ _ _ (by simp [Reader.left] at hl ⊢; omega))

theorem u16 : Rd.Good rdU16 := of rdU16_ne_panic (fun _ _ _ h => ⟨_, rdU16_ok.mp h⟩) (by
  intro r r' h
  refine short ?_ h
  intro bs s e t hl
  match bs, hl with
  | [a, b], _ => simp)

theorem u24 : Rd.Good rdU24 := of rdU24_ne_panic (fun _ _ _ h => ⟨_, (rdU24_ok.mp h).2⟩) (by
  intro r r' h
  refine short ?_ h
  intro bs s e t hl
  match bs, hl with
  | [a, b, c], _ => simp)

theorem u32 : Rd.Good rdU32 := of rdU32_ne_panic (fun _ _ _ h => ⟨_, rdU32_ok.mp h⟩) (by
  intro r r' h
  refine short ?_ h
  intro bs s e t hl
  match bs, hl with
  | [a, b, c, d], _ => simp)

theorem u64 : Rd.Good rdU64 := by
  intro r
  unfold rdU64
  by_cases hl : r.left < 8
  · exact .inr ⟨[], r, by simp [Rd.take, hl], Reader.After.refl r⟩
  · have hlen : (r.rest.take 8).length = 8 := by simp [Reader.left] at hl ⊢; omega
    match hb : r.rest.take 8, hlen with
    | [a, b, c, d, e, f, g, i], _ =>
      refine .inl ⟨decU64 a b c d e f g i, [a, b, c, d, e, f, g, i], ⟨r.rest.drop 8, r.used + 8⟩, ?_, ?_, ?_⟩
      · simp [Rd.take, hl, hb]
      · rw [← hb]; simp
      · simp

theorem bytes (n : Nat) : Rd.Good (rdBytes n) := by
  induction n with
  | zero => exact pure _
  | succ n ih => exact bind u8 fun _ => bind ih fun _ => pure _

/-- Same value list, decoder applied `n` times. -/
theorem opt {o : Option α} : Rd.Good (M.ofOption () o) := by
  cases o
  · exact fail
  · exact pure _
end Rd.Good

/-- Discharge `Rd.Good` for a `do` block. -/
macro "rd_good" : tactic => `(tactic|
  repeat (first
    | assumption
    | exact Rd.Good.u8 | exact Rd.Good.u16 | exact Rd.Good.u24 | exact Rd.Good.u32 | exact Rd.Good.u64
    | exact Rd.Good.bytes _ | exact Rd.Good.take _ | exact Rd.Good.rest
    | exact Rd.Good.pure _ | exact Rd.Good.none | exact Rd.Good.fail | exact Rd.Good.opt
    | refine Rd.Good.bind ?_ ?_ | refine Rd.Good.map ?_ | refine Rd.Good.ite ?_ ?_
    | split | intro _))

end Verif
