/-
Round-trip predicate and repeated-element combinators.
-/
import Verif.Codec.Good

namespace Verif

/-- Decoder `x`, run on the bytes `w` followed by anything, returns `a` and leaves exactly what followed. -/
def RT {α : Type} (x : Rd α) (w : Bytes) (a : α) : Prop :=
  ∀ t u, x ⟨w ++ t, u⟩ = .ok a ⟨t, u + w.length⟩

namespace RT
variable {α β : Type}

theorem pure (a : α) : RT (pure a) [] a := fun _ _ => rfl

theorem bind {x : Rd α} {f : α → Rd β} {w1 w2 : Bytes} {a : α} {b : β}
    (h1 : RT x w1 a) (h2 : RT (f a) w2 b) : RT (x >>= f) (w1 ++ w2) b := by
  intro t u
  rw [List.append_assoc, M.bind_apply, h1]
  show f a _ = _
  rw [h2]
  simp [Nat.add_assoc]

/-- The first decoder's bytes are a prefix of the given bytes. -/
theorem bind' {x : Rd α} {f : α → Rd β} {w w1 w2 : Bytes} {a : α} {b : β}
    (hw : w = w1 ++ w2) (h1 : RT x w1 a) (h2 : RT (f a) w2 b) : RT (x >>= f) w b := hw ▸ bind h1 h2

theorem map {x : Rd α} {f : α → β} {w : Bytes} {a : α} {b : β} (h : RT x w a) (hb : f a = b) :
    RT (f <$> x) w b := by
  intro t u
  rw [M.map_apply, h]
  show Out.ok (f a) _ = _
  rw [hb]

theorem guard {c : Prop} [Decidable c] {x : Rd α} {w : Bytes} {a : α} (hc : ¬ c) (h : RT x w a) :
    RT (if c then M.fail () else x) w a := by simpa [hc] using h

theorem itePos {c : Prop} [Decidable c] {x y : Rd α} {w : Bytes} {a : α} (hc : c) (h : RT x w a) :
    RT (if c then x else y) w a := by simpa [hc] using h

theorem iteNeg {c : Prop} [Decidable c] {x y : Rd α} {w : Bytes} {a : α} (hc : ¬ c) (h : RT y w a) :
    RT (if c then x else y) w a := by simpa [hc] using h

theorem cast {x : Rd α} {w w' : Bytes} {a a' : α} (h : RT x w a) (hw : w = w') (ha : a = a') : RT x w' a' :=
  hw ▸ ha ▸ h

theorem u8 (b : UInt8) : RT rdU8 [b] b := fun t u => rdU8_cons b t u
theorem u16 (v : UInt16) : RT rdU16 (putU16 v) v := fun t u => rdU16_put v t u
theorem u24 (v : UInt32) (h : v.toNat < 2 ^ 24) : RT rdU24 (putU24 v) v := fun t u => rdU24_put v h t u
theorem u32 (v : UInt32) : RT rdU32 (putU32 v) v := fun t u => rdU32_put v t u
theorem u64 (v : UInt64) : RT rdU64 (putU64 v) v := fun t u => rdU64_put v t u
theorem bytes {n : Nat} (d : Bytes) (h : d.length = n) : RT (rdBytes n) d d := by
  subst h; exact fun t u => rdBytes_append d t u
theorem unwrap {o : Option α} {a : α} (h : o = some a) : RT (M.unwrap o) [] a := by
  subst h; exact fun _ _ => rfl

theorem read {x : Rd α} {w : Bytes} {a : α} (h : RT x w a) (t : Bytes) : x (Reader.init (w ++ t)) = .ok a ⟨t, w.length⟩ := by
  have := h t 0
  simpa [Reader.init] using this
end RT

/-! ### Repetition -/

/-- `for x in xs.iter_mut().take(n) { *x = T::read(r)?; }`, the loop shape of the list decoders of
`spdmlib/src/message` (e.g. message/version.rs:107-112). -/
def rdN {α : Type} (n : Nat) (x : Rd α) : Rd (List α) :=
  match n with
  | 0 => pure []
  | n + 1 => do
    let a ← x
    let as ← rdN n x
    pure (a :: as)

theorem RT.repeat {α : Type} {x : Rd α} {w : α → Bytes} (as : List α) (h : ∀ a ∈ as, RT x (w a) a) :
    RT (rdN as.length x) (as.flatMap w) as := by
  induction as with
  | nil => exact RT.pure _
  | cons a as ih =>
    rw [List.flatMap_cons]
    refine RT.bind (h a (by simp)) ?_
    exact RT.bind' (List.append_nil _).symm (ih fun b hb => h b (by simp [hb])) (RT.pure _)

theorem Rd.Good.repeat {α : Type} {x : Rd α} (h : x.Good) (n : Nat) : (rdN n x).Good := by
  induction n with
  | zero => exact Rd.Good.pure _
  | succ n ih => exact Rd.Good.bind h fun _ => Rd.Good.bind ih fun _ => Rd.Good.pure _

theorem rdN_length {α : Type} {x : Rd α} {n : Nat} {r r' : Reader} {as : List α} (h : rdN n x r = .ok as r') :
    as.length = n := by
  induction n generalizing r r' as with
  | zero => simp [rdN] at h; simp [← h.1]
  | succ n ih =>
    simp only [rdN, M.bind_ok, M.pure_ok] at h
    obtain ⟨a, t, _, bs, t', h2, rfl, rfl⟩ := h
    simp [ih h2]

theorem rdN_forall {α : Type} {x : Rd α} {P : α → Prop} (hP : ∀ r a r', x r = .ok a r' → P a)
    {n : Nat} {r r' : Reader} {as : List α} (h : rdN n x r = .ok as r') : ∀ a ∈ as, P a := by
  induction n generalizing r r' as with
  | zero => simp [rdN] at h; simp [h.1]
  | succ n ih =>
    simp only [rdN, M.bind_ok, M.pure_ok] at h
    obtain ⟨a, t, h1, bs, t', h2, rfl, rfl⟩ := h
    intro b hb
    rcases List.mem_cons.mp hb with rfl | hb
    · exact hP _ _ _ h1
    · exact ih h2 b hb

/-- `for x in xs { cnt += x.encode(bytes)?; }` -/
def encN {α : Type} (e : α → Enc Nat) (as : List α) : Enc Nat := Enc.seq (as.map e)

theorem Writes.repeat {α : Type} {e : α → Enc Nat} {w : α → Bytes} (as : List α) (h : ∀ a ∈ as, Writes (e a) (w a)) :
    Writes (encN e as) (as.flatMap w) := by
  unfold encN
  induction as with
  | nil => exact Writes.seq_nil
  | cons a as ih =>
    rw [List.map_cons, List.flatMap_cons]
    exact Writes.seq_cons (h a (by simp)) (ih fun b hb => h b (by simp [hb]))

/-- An encoder that first needs a value whose absence is a panic. -/
theorem Writes.unwrap {α : Type} {o : Option α} {a : α} {f : α → Enc Nat} {w : Bytes} (ho : o = some a)
    (h : Writes (f a) w) : Writes (M.unwrap o >>= f) w := by
  subst ho; exact h

theorem Writes.guardPanic {c : Prop} [Decidable c] {e : Enc Nat} {w : Bytes} (hc : ¬ c) (h : Writes e w) :
    Writes (if c then M.panic else e) w := by simpa [hc] using h

theorem Writes.iteBoth {c : Prop} [Decidable c] {e f : Enc Nat} {v w : Bytes} (h : c → Writes e v) (h' : ¬ c → Writes f w) :
    Writes (if c then e else f) (if c then v else w) := by
  by_cases hc : c
  · simpa [hc] using h hc
  · simpa [hc] using h' hc

theorem Rd.Good.unwrap {α : Type} {o : Option α} (h : o.isSome) : Rd.Good (M.unwrap o : Rd α) := by
  cases o
  · simp at h
  · exact Rd.Good.pure _

/-! ### What a decoder took from the input -/

/-- The bytes `d` lie contiguously in the bytes unread before the call. -/
def Reader.Contains (r : Reader) (d : Bytes) : Prop := ∃ pre post, r.rest = pre ++ d ++ post

theorem Reader.After.contains {r r' : Reader} {a d : Bytes} (h : r.After a r') (h' : r'.Contains d) : r.Contains d := by
  obtain ⟨pre, post, h'⟩ := h'
  exact ⟨a ++ pre, post, by rw [h.1, h']; simp⟩

theorem Reader.After.contains_self {r r' : Reader} {d : Bytes} (h : r.After d r') : r.Contains d :=
  ⟨[], r'.rest, by rw [h.1]; simp⟩

theorem Reader.Contains.length_le {r : Reader} {d : Bytes} (h : r.Contains d) : d.length ≤ r.left := by
  obtain ⟨pre, post, h⟩ := h
  simp [Reader.left, h]; omega

end Verif
