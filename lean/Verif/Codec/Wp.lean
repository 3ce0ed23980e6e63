/-
Reasoning about the outcome monad: pre/post relations that hold on success and on failure alike.
-/
import Verif.Codec.Good

namespace Verif
namespace M
variable {ε ε' σ α β : Type}

/-- every non-panicking outcome of `x` started in `s` satisfies `Q` (success) or `E` (failure). -/
def wp (x : M ε σ α) (s : σ) (Q : α → σ → Prop) (E : ε → σ → Prop) : Prop :=
  match x s with
  | .ok a s' => Q a s'
  | .err e s' => E e s'
  | .panic => True

theorem wp_def {x : M ε σ α} {s : σ} {Q : α → σ → Prop} {E : ε → σ → Prop} :
    x.wp s Q E ↔ (∀ a s', x s = .ok a s' → Q a s') ∧ (∀ e s', x s = .err e s' → E e s') := by
  unfold wp
  cases x s <;> simp

theorem wp.ok {x : M ε σ α} {s s' : σ} {a : α} {Q : α → σ → Prop} {E : ε → σ → Prop} (h : x.wp s Q E) (hx : x s = .ok a s') :
    Q a s' := (wp_def.1 h).1 a s' hx
theorem wp.err {x : M ε σ α} {s s' : σ} {e : ε} {Q : α → σ → Prop} {E : ε → σ → Prop} (h : x.wp s Q E) (hx : x s = .err e s') :
    E e s' := (wp_def.1 h).2 e s' hx

theorem wp.mono {x : M ε σ α} {s : σ} {Q Q' : α → σ → Prop} {E E' : ε → σ → Prop} (h : x.wp s Q E)
    (hQ : ∀ a s', Q a s' → Q' a s') (hE : ∀ e s', E e s' → E' e s') : x.wp s Q' E' := by
  rw [wp_def] at *
  exact ⟨fun a s' g => hQ _ _ (h.1 a s' g), fun e s' g => hE _ _ (h.2 e s' g)⟩

theorem wp.and {x : M ε σ α} {s : σ} {Q Q' : α → σ → Prop} {E E' : ε → σ → Prop} (h : x.wp s Q E) (h' : x.wp s Q' E') :
    x.wp s (fun a t => Q a t ∧ Q' a t) (fun e t => E e t ∧ E' e t) := by
  rw [wp_def] at *
  exact ⟨fun a s' g => ⟨h.1 a s' g, h'.1 a s' g⟩, fun e s' g => ⟨h.2 e s' g, h'.2 e s' g⟩⟩

theorem wp_bind {x : M ε σ α} {f : α → M ε σ β} {s : σ} {Q : β → σ → Prop} {E : ε → σ → Prop} :
    (x >>= f).wp s Q E ↔ x.wp s (fun a t => (f a).wp t Q E) E := by
  unfold wp
  simp only [bind_apply]
  cases x s <;> rfl

@[simp] theorem wp_pure {a : α} {s : σ} {Q : α → σ → Prop} {E : ε → σ → Prop} : (pure a : M ε σ α).wp s Q E ↔ Q a s := Iff.rfl
@[simp] theorem wp_fail {e : ε} {s : σ} {Q : α → σ → Prop} {E : ε → σ → Prop} : (fail e : M ε σ α).wp s Q E ↔ E e s := Iff.rfl
@[simp] theorem wp_panic {s : σ} {Q : α → σ → Prop} {E : ε → σ → Prop} : (panic : M ε σ α).wp s Q E ↔ True := Iff.rfl
@[simp] theorem wp_get {s : σ} {Q : σ → σ → Prop} {E : ε → σ → Prop} : (get : M ε σ σ).wp s Q E ↔ Q s s := Iff.rfl
@[simp] theorem wp_set {s t : σ} {Q : Unit → σ → Prop} {E : ε → σ → Prop} : (set t : M ε σ Unit).wp s Q E ↔ Q () t := Iff.rfl
@[simp] theorem wp_modify {f : σ → σ} {s : σ} {Q : Unit → σ → Prop} {E : ε → σ → Prop} :
    (modify f : M ε σ Unit).wp s Q E ↔ Q () (f s) := Iff.rfl

theorem wp_ofOption {e : ε} {o : Option α} {s : σ} {Q : α → σ → Prop} {E : ε → σ → Prop} :
    (ofOption e o).wp s Q E ↔ (∀ a, o = some a → Q a s) ∧ (o = none → E e s) := by
  cases o <;> simp [wp, ofOption]

theorem wp_unwrap {o : Option α} {s : σ} {Q : α → σ → Prop} {E : ε → σ → Prop} :
    (unwrap o : M ε σ α).wp s Q E ↔ ∀ a, o = some a → Q a s := by
  cases o <;> simp [wp, unwrap]

theorem wp_ite {c : Prop} [Decidable c] {x y : M ε σ α} {s : σ} {Q : α → σ → Prop} {E : ε → σ → Prop} :
    (if c then x else y).wp s Q E ↔ (c → x.wp s Q E) ∧ (¬ c → y.wp s Q E) := by
  by_cases h : c <;> simp [h]

theorem wp_mapErr {x : M ε σ α} {e' : ε'} {s : σ} {Q : α → σ → Prop} {E : ε' → σ → Prop} :
    (x.mapErr e').wp s Q E ↔ x.wp s Q (fun _ => E e') := by
  unfold wp mapErr
  cases x s <;> rfl

theorem wp_try {x : M ε σ α} {s : σ} {Q : Except ε α → σ → Prop} {E : ε → σ → Prop} :
    (M.try' x).wp s Q E ↔ x.wp s (fun a => Q (.ok a)) (fun e => Q (.error e)) := by
  unfold wp M.try'
  cases x s <;> rfl

/-- a relation between the state before and after that is reflexive and transitive. -/
class Pre (R : σ → σ → Prop) : Prop where
  refl : ∀ s, R s s
  trans : ∀ {a b c}, R a b → R b c → R a c

/-- whatever the outcome, the states before and after are related. -/
def Rel (R : σ → σ → Prop) (x : M ε σ α) : Prop := ∀ s, x.wp s (fun _ => R s) (fun _ => R s)

namespace Rel
variable {R : σ → σ → Prop}

theorem ok {x : M ε σ α} (h : Rel R x) {s s' : σ} {a : α} (hx : x s = .ok a s') : R s s' := (h s).ok hx
theorem err {x : M ε σ α} (h : Rel R x) {s s' : σ} {e : ε} (hx : x s = .err e s') : R s s' := (h s).err hx

theorem mono {R' : σ → σ → Prop} {x : M ε σ α} (h : Rel R x) (hR : ∀ s s', R s s' → R' s s') : Rel R' x :=
  fun s => (h s).mono (fun _ _ => hR _ _) (fun _ _ => hR _ _)

variable [Pre R]

theorem pure (a : α) : Rel R (Pure.pure a : M ε σ α) := fun s => Pre.refl s
theorem fail (e : ε) : Rel R (M.fail e : M ε σ α) := fun s => Pre.refl s
theorem panic : Rel R (M.panic : M ε σ α) := fun _ => trivial
theorem get : Rel R (M.get : M ε σ σ) := fun s => Pre.refl s
theorem ofOption (e : ε) (o : Option α) : Rel R (M.ofOption e o) := fun s => by
  cases o <;> exact Pre.refl s
theorem unwrap (o : Option α) : Rel R (M.unwrap o : M ε σ α) := fun s => by
  cases o
  · exact trivial
  · exact Pre.refl s
theorem bind {x : M ε σ α} {f : α → M ε σ β} (hx : Rel R x) (hf : ∀ a, Rel R (f a)) : Rel R (x >>= f) := by
  intro s
  rw [wp_bind]
  refine (hx s).mono ?_ (fun _ _ h => h)
  intro a t h
  exact (hf a t).mono (fun _ _ h' => Pre.trans h h') (fun _ _ h' => Pre.trans h h')
omit [Pre R] in
theorem modify {f : σ → σ} (h : ∀ s, R s (f s)) : Rel R (M.modify f : M ε σ Unit) := fun s => h s
omit [Pre R] in
theorem mapErr {x : M ε σ α} (e' : ε') (h : Rel R x) : Rel R (x.mapErr e') := fun s => wp_mapErr.2 (h s)
omit [Pre R] in
theorem try' {x : M ε σ α} (h : Rel R x) : Rel R (M.try' x) := fun s => wp_try.2 (h s)
theorem ite {c : Prop} [Decidable c] {x y : M ε σ α} (hx : c → Rel R x) (hy : ¬ c → Rel R y) : Rel R (if c then x else y) := by
  intro s
  exact wp_ite.2 ⟨fun h => hx h s, fun h => hy h s⟩
end Rel
end M

end Verif
