/-
Outcome monad shared by the whole model.

A Rust function of this code base that takes `&mut self`/`&mut Reader`/`&mut Writer` and returns `Option<T>` or
`Result<T, SpdmStatus>` has three kinds of outcome: success, failure (with whatever mutation happened before the failure
left in place) and a panic (index out of range, `unwrap` on `None`, failed assertion).  `Out` has those three.
-/
namespace Verif

/-- Outcome of running a Rust function on a mutable state `σ`: `ok`, `err` (the mutated state is kept) or `panic`. -/
inductive Out (ε σ α : Type) where
  | ok (a : α) (s : σ)
  | err (e : ε) (s : σ)
  | panic
  deriving Repr, DecidableEq

/-- A Rust function acting on mutable state `σ`, failing with `ε`. -/
def M (ε σ α : Type) := σ → Out ε σ α

namespace M
variable {ε σ α β : Type}

/-- Return a value without touching the state. -/
def pure' (a : α) : M ε σ α := fun s => .ok a s

/-- Sequencing with the `?` operator of Rust: failure and panic short-circuit, mutations are kept. -/
def bind' (x : M ε σ α) (f : α → M ε σ β) : M ε σ β := fun s =>
  match x s with
  | .ok a s' => f a s'
  | .err e s' => .err e s'
  | .panic => .panic

instance : Monad (M ε σ) where
  pure := pure'
  bind := bind'

/-- `return Err(e)` / `return None`. -/
def fail (e : ε) : M ε σ α := fun s => .err e s

/-- `panic!` or an operation that panics. -/
def panic : M ε σ α := fun _ => .panic

/-- Read the mutable state. -/
def get : M ε σ σ := fun s => .ok s s

/-- Overwrite the mutable state. -/
def set (s : σ) : M ε σ Unit := fun _ => .ok () s

/-- Modify the mutable state. -/
def modify (f : σ → σ) : M ε σ Unit := fun s => .ok () (f s)

/-- Inspect the `Result` instead of propagating it (`match f() { Ok(..) => .., Err(..) => .. }`). -/
def try' (x : M ε σ α) : M ε σ (Except ε α) := fun s =>
  match x s with
  | .ok a s' => .ok (.ok a) s'
  | .err e s' => .ok (.error e) s'
  | .panic => .panic

/-- `opt.ok_or(e)?` -/
def ofOption (e : ε) : Option α → M ε σ α
  | some a => fun s => .ok a s
  | none => fun s => .err e s

/-- An operation that panics on `None` (`unwrap`, index). -/
def unwrap : Option α → M ε σ α
  | some a => fun s => .ok a s
  | none => fun _ => .panic

/-- `map_err(|_| e')` -/
def mapErr {ε' : Type} (e' : ε') (x : M ε σ α) : M ε' σ α := fun s =>
  match x s with
  | .ok a s' => .ok a s'
  | .err _ s' => .err e' s'
  | .panic => .panic

@[simp] theorem pure_apply (a : α) (s : σ) : (pure a : M ε σ α) s = .ok a s := rfl
@[simp] theorem bind_apply (x : M ε σ α) (f : α → M ε σ β) (s : σ) :
    (x >>= f) s = match x s with
      | .ok a s' => f a s'
      | .err e s' => .err e s'
      | .panic => .panic := rfl
@[simp] theorem fail_apply (e : ε) (s : σ) : (fail e : M ε σ α) s = .err e s := rfl
@[simp] theorem panic_apply (s : σ) : (panic : M ε σ α) s = .panic := rfl
@[simp] theorem get_apply (s : σ) : (get : M ε σ σ) s = .ok s s := rfl
@[simp] theorem set_apply (s t : σ) : (set t : M ε σ Unit) s = .ok () t := rfl
@[simp] theorem modify_apply (f : σ → σ) (s : σ) : (modify f : M ε σ Unit) s = .ok () (f s) := rfl
@[simp] theorem try_apply (x : M ε σ α) (s : σ) :
    (try' x) s = match x s with
      | .ok a s' => .ok (.ok a) s'
      | .err e s' => .ok (.error e) s'
      | .panic => .panic := rfl
@[simp] theorem ofOption_some (e : ε) (a : α) (s : σ) : (ofOption e (some a) : M ε σ α) s = .ok a s := rfl
@[simp] theorem ofOption_none (e : ε) (s : σ) : (ofOption e none : M ε σ α) s = .err e s := rfl
@[simp] theorem unwrap_some (a : α) (s : σ) : (unwrap (some a) : M ε σ α) s = .ok a s := rfl
@[simp] theorem unwrap_none (s : σ) : (unwrap none : M ε σ α) s = .panic := rfl
@[simp] theorem mapErr_apply {ε' : Type} (e' : ε') (x : M ε σ α) (s : σ) :
    (mapErr e' x) s = match x s with
      | .ok a s' => .ok a s'
      | .err _ s' => .err e' s'
      | .panic => .panic := rfl

instance : LawfulMonad (M ε σ) := LawfulMonad.mk'
  (id_map := by
    intro α x; funext s
    show (match x s with
      | .ok a s' => Out.ok (id a) s'
      | .err e s' => .err e s'
      | .panic => .panic) = x s
    cases x s <;> rfl)
  (pure_bind := by intros; rfl)
  (bind_assoc := by
    intro α β γ x f g; funext s
    simp only [bind_apply]
    cases x s <;> rfl)
  (bind_pure_comp := by intros; rfl)

@[simp] theorem map_apply (f : α → β) (x : M ε σ α) (s : σ) :
    (f <$> x) s = match x s with
      | .ok a s' => .ok (f a) s'
      | .err e s' => .err e s'
      | .panic => .panic := rfl
end M
end Verif
