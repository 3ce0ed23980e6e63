/-
Status codes and the outcome type of functions that return `SpdmResult<T>` without touching mutable state.
-/
import Verif.Codec.Good

namespace Verif

/-- `SpdmStatus` error values (spdmlib/src/error.rs:410-620).  Only the codes are modelled, not their numeric encoding
(severity/source/code triple). -/
inductive Status where
  | invalidParameter | unsupportedCap | invalidStateLocal | invalidStatePeer | invalidMsgField | invalidMsgSize
  | negotiationFail | busyPeer | notReadyPeer | errorPeer | resynchPeer | bufferFull | bufferTooSmall
  | sessionNumberExceed | sessionMsgError | acquireFail | sessionTryDiscardKeyUpdate | decodeAeadFail
  | cryptoError | verifFail | sequenceNumberOverflow | verifNoAuthority | invalidCert
  | sendFail | receiveFail | decapFail | decapAppFail | encapFail | encapAppFail
  | measInvalidIndex | measInternalError | lowEntropy
  deriving Repr, DecidableEq

/-- Result of a Rust function returning `SpdmResult<T>` that does not mutate anything the model keeps: a value, an error
status, or a panic. -/
inductive Res (α : Type) where
  | ok (a : α)
  | err (e : Status)
  | panic
  deriving Repr, DecidableEq

namespace Res
variable {α β : Type}

/-- the `?` operator -/
def bind' (x : Res α) (f : α → Res β) : Res β :=
  match x with
  | .ok a => f a
  | .err e => .err e
  | .panic => .panic

instance : Monad Res where
  pure := Res.ok
  bind := bind'

/-- `opt.ok_or(e)?` -/
def ofOption (e : Status) : Option α → Res α
  | some a => .ok a
  | none => .err e

/-- an operation that panics on `None` -/
def unwrap : Option α → Res α
  | some a => .ok a
  | none => .panic

/-- run a decoder on a buffer and map `None` to the status `e`; returns the value and the reader. -/
def read (e : Status) (x : Rd α) (r : Reader) : Res (α × Reader) :=
  match x r with
  | .ok a r' => .ok (a, r')
  | .err _ _ => .err e
  | .panic => .panic

/-- use a state-free function inside a stateful one. -/
def lift {σ : Type} (x : Res α) : M Status σ α := fun s =>
  match x with
  | .ok a => .ok a s
  | .err e => .err e s
  | .panic => .panic

@[simp] theorem pure_def (a : α) : (pure a : Res α) = .ok a := rfl
@[simp] theorem ok_bind (a : α) (f : α → Res β) : (Res.ok a >>= f) = f a := rfl
@[simp] theorem err_bind (e : Status) (f : α → Res β) : ((Res.err e : Res α) >>= f) = .err e := rfl
@[simp] theorem panic_bind (f : α → Res β) : ((Res.panic : Res α) >>= f) = .panic := rfl

theorem bind_ok {x : Res α} {f : α → Res β} {b : β} : (x >>= f) = .ok b ↔ ∃ a, x = .ok a ∧ f a = .ok b := by
  cases x <;> simp

theorem ite_ok {c : Prop} [Decidable c] {x y : Res α} {b : α} :
    (if c then x else y) = .ok b ↔ (c ∧ x = .ok b) ∨ (¬ c ∧ y = .ok b) := by
  split <;> simp_all

theorem guard_ok {c : Prop} [Decidable c] {e : Status} {y : Res α} {b : α} :
    (if c then .err e else y) = .ok b ↔ ¬ c ∧ y = .ok b := by
  split <;> simp_all

theorem guardP_ok {c : Prop} [Decidable c] {y : Res α} {b : α} :
    (if c then .panic else y) = .ok b ↔ ¬ c ∧ y = .ok b := by
  split <;> simp_all

@[simp] theorem ofOption_ok {e : Status} {o : Option α} {a : α} : ofOption e o = .ok a ↔ o = some a := by
  cases o <;> simp [ofOption]

@[simp] theorem unwrap_ok {o : Option α} {a : α} : unwrap o = .ok a ↔ o = some a := by
  cases o <;> simp [unwrap]

theorem read_ok {e : Status} {x : Rd α} {r : Reader} {p : α × Reader} :
    read e x r = .ok p ↔ x r = .ok p.1 p.2 := by
  unfold read
  cases h : x r with
  | ok a r' => simp [Prod.ext_iff]
  | err => simp
  | panic => simp

@[simp] theorem lift_ok_iff {σ : Type} {x : Res α} {s s' : σ} {a : α} :
    (lift x : M Status σ α) s = .ok a s' ↔ x = .ok a ∧ s = s' := by
  cases x <;> simp [lift]

@[simp] theorem lift_err_iff {σ : Type} {x : Res α} {s s' : σ} {e : Status} :
    (lift x : M Status σ α) s = .err e s' ↔ x = .err e ∧ s = s' := by
  cases x <;> simp [lift]

@[simp] theorem lift_panic_iff {σ : Type} {x : Res α} {s : σ} :
    (lift x : M Status σ α) s = .panic ↔ x = .panic := by
  cases x <;> simp [lift]

end Res
end Verif
