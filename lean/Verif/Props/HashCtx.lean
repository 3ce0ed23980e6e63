/-
C63: incremental hashing.
-/
import Verif.Spec.Ring
import Verif.Spec.Toy

namespace Verif.Props
open Verif.Spec Verif.Ring

variable {σ : Type} {D : Digests σ}

theorem put_same (f : Nat → Option σ) (k : Nat) (v : Option σ) : put f k v k = v := if_pos rfl
theorem put_other {f : Nat → Option σ} {k i : Nat} {v : Option σ} (h : i ≠ k) : put f k v i = f i := if_neg h

theorem steps_append {a b : List (Ev × Ret)} : ∀ {m m' : Heap σ}, Steps D m (a ++ b) m' ↔ ∃ m1, Steps D m a m1 ∧ Steps D m1 b m' := by
  induction a with
  | nil => intro m m'; exact ⟨fun h => ⟨m, .nil, h⟩, fun ⟨_, h1, h2⟩ => by cases h1; exact h2⟩
  | cons x t ih =>
    intro m m'
    constructor
    · intro h
      cases h with
      | cons h1 h2 =>
        obtain ⟨m1, h3, h4⟩ := ih.1 h2
        exact ⟨m1, .cons h1 h3, h4⟩
    · rintro ⟨m1, h1, h2⟩
      cases h1 with
      | cons h3 h4 => exact .cons h3 (ih.2 ⟨m1, h4, h2⟩)

/-- what was fed to the context with handle `h`. -/
def fed (h : Nat) (evs : List (Ev × Ret)) : List Bytes :=
  evs.filterMap fun x => match x.1 with
    | .update h' d => if h' = h then some d else none
    | _ => none

/-- no step of the schedule finishes the context with handle `h`. -/
def NotFinished (h : Nat) (evs : List (Ev × Ret)) : Prop := ∀ x ∈ evs, x.1 ≠ .finish h

/-- no step of the schedule inserts the box at `h`. -/
def NotInserted (h : Nat) (evs : List (Ev × Ret)) : Prop := ∀ x ∈ evs, x.1 ≠ .insert h

/-- an allocated box that is not inserted keeps its context. -/
theorem waiting {h : Nat} {x : σ} : ∀ {evs : List (Ev × Ret)} {m m' : Heap σ}, Steps D m evs m' → NotInserted h evs → m.pending h = some x → m.table h = none →
    m'.pending h = some x ∧ m'.table h = none := by
  intro evs
  induction evs with
  | nil => intro m m' hs _ h1 h2; cases hs; exact ⟨h1, h2⟩
  | cons y t ih =>
    intro m m' hs hn h1 h2
    cases hs with
    | cons hstep hrest =>
      refine ih hrest (fun z hz => hn z (List.mem_cons_of_mem _ hz)) ?_ ?_
      · cases hstep with
        | create hq hf =>
          rename_i addr
          by_cases e : h = addr
          · subst e; rw [hf.2.2] at h1; cases h1
          · simpa [put_other e] using h1
        | copy hq hf =>
          rename_i addr
          by_cases e : h = addr
          · subst e; rw [hf.2.2] at h1; cases h1
          · simpa [put_other e] using h1
        | insert hp =>
          rename_i addr _
          have e : h ≠ addr := fun e => hn _ (List.mem_cons_self ..) (by rw [e])
          simpa [put_other e] using h1
        | _ => exact h1
      · cases hstep with
        | insert hp =>
          rename_i addr _
          have e : h ≠ addr := fun e => hn _ (List.mem_cons_self ..) (by rw [e])
          simpa [put_other e] using h2
        | update hp =>
          rename_i h' _ _
          have e : h ≠ h' := fun e => by subst e; rw [h2] at hp; cases hp
          simpa [put_other e] using h2
        | finish hp =>
          rename_i h' _
          have e : h ≠ h' := fun e => by subst e; rw [h2] at hp; cases hp
          simpa [put_other e] using h2
        | _ => exact h2

/-- a context in the table is only changed by what is fed to it. -/
theorem living {h : Nat} : ∀ {evs : List (Ev × Ret)} {m m' : Heap σ} {x : σ}, Steps D m evs m' → NotFinished h evs → m.table h = some x → m.pending h = none →
    m'.table h = some ((fed h evs).foldl D.update x) ∧ m'.pending h = none := by
  intro evs
  induction evs with
  | nil => intro m m' x hs _ h1 h2; cases hs; exact ⟨h1, h2⟩
  | cons y t ih =>
    intro m m' x hs hn h1 h2
    have hn' : NotFinished h t := fun z hz => hn z (List.mem_cons_of_mem _ hz)
    cases hs with
    | cons hstep hrest =>
      cases hstep with
      | create hq hf =>
        rename_i addr
        have e : h ≠ addr := fun e => by subst e; rw [hf.2.1] at h1; cases h1
        exact ih (x := x) hrest hn' h1 (by simpa [put_other e] using h2)
      | copy hq hf =>
        rename_i addr
        have e : h ≠ addr := fun e => by subst e; rw [hf.2.1] at h1; cases h1
        exact ih (x := x) hrest hn' h1 (by simpa [put_other e] using h2)
      | insert hp =>
        rename_i addr _
        have e : h ≠ addr := fun e => by subst e; rw [h2] at hp; cases hp
        exact ih (x := x) hrest hn' (by simpa [put_other e] using h1) (by simpa [put_other e] using h2)
      | update hp =>
        rename_i h' x' data
        by_cases e : h' = h
        · subst e
          rw [h1] at hp
          cases hp
          have := ih (x := D.update x data) hrest hn' (put_same ..) h2
          simpa [fed] using this
        · have := ih (x := x) hrest hn' (by simpa [put_other (Ne.symm e)] using h1) h2
          simpa [fed, e] using this
      | noUpdate hp =>
        rename_i h' data
        have e : h' ≠ h := fun e => by subst e; rw [h1] at hp; cases hp
        have := ih (x := x) hrest hn' h1 h2
        simpa [fed, e] using this
      | finish hp =>
        rename_i h' _
        have e : h ≠ h' := fun e => hn _ (List.mem_cons_self ..) (by rw [e])
        exact ih (x := x) hrest hn' (by simpa [put_other e] using h1) h2
      | unsupported _ => exact ih (x := x) hrest hn' h1 h2
      | noCopy _ => exact ih (x := x) hrest hn' h1 h2
      | noFinish _ => exact ih (x := x) hrest hn' h1 h2

/-- finishing a live context. -/
theorem finishing {h : Nat} {r : Ret} {m m' : Heap σ} {x : σ} (hs : Steps D m [(.finish h, r)] m') (h1 : m.table h = some x) : r = .digest (D.finish x) := by
  cases hs with
  | cons hstep hrest =>
    cases hstep with
    | finish hp => rw [h1] at hp; cases hp; rfl
    | noFinish hp => rw [h1] at hp; cases hp

theorem inserting {h : Nat} {m m' : Heap σ} {x : σ} {r : Ret} (hs : Steps D m [(.insert h, r)] m') (h1 : m.pending h = some x) :
    m'.table h = some x ∧ m'.pending h = none := by
  cases hs with
  | cons hstep hrest =>
    cases hrest
    cases hstep with
    | insert hp => rw [h1] at hp; cases hp; exact ⟨put_same .., put_same ..⟩

/-- **C63**: whatever other threads do with other contexts, and at whatever moments between, a context made for a hash, fed some pieces and finished gives the
digest of the pieces together. -/
theorem C63_digest {l : Lib} (hi : Incremental l D) {m m' : Heap σ} {a : BaseHash} {s : Sha} (ha : sha? a = some s) {h : Nat} {r1 r2 : Ret} {during after : List (Ev × Ret)}
    (hs : Steps D m ((.create a h, .done) :: during ++ (.insert h, r1) :: after ++ [(.finish h, r2)]) m')
    (hd : NotInserted h during) (hn : NotFinished h after) : r2 = .digest (l.digest s (fed h after).flatten) := by
  obtain ⟨m4, hs, h5⟩ := steps_append.1 hs
  obtain ⟨m1, hs, h2⟩ := steps_append.1 hs
  cases hs with
  | cons hc hs =>
    cases hc with
    | create hsh hf =>
      rw [ha] at hsh
      cases hsh
      obtain ⟨k1, k2⟩ := waiting hs hd (put_same ..) hf.2.1
      rw [show (Ev.insert h, r1) :: after = [(Ev.insert h, r1)] ++ after from rfl] at h2
      obtain ⟨m2, h2, h3⟩ := steps_append.1 h2
      obtain ⟨k3, k4⟩ := inserting h2 k1
      obtain ⟨k5, -⟩ := living h3 hn k3 k4
      rw [finishing h5 k5, hi]

/-- **C63**: a copy of a context starts from what the original had been fed, and from then on the two are fed and finished independently. -/
theorem C63_copy {l : Lib} (hi : Incremental l D) {m m' : Heap σ} {a : BaseHash} {s : Sha} (ha : sha? a = some s) {h k : Nat} {r1 r2 r3 : Ret}
    {during before between after : List (Ev × Ret)}
    (hs : Steps D m ((.create a h, .done) :: during ++ (.insert h, r1) :: before ++ (.copy h k, .done) :: between ++ (.insert k, r2) :: after ++ [(.finish k, r3)]) m')
    (hd : NotInserted h during) (hn : NotFinished h before) (hd' : NotInserted k between) (hn' : NotFinished k after) :
    r3 = .digest (l.digest s ((fed h before).flatten ++ (fed k after).flatten)) := by
  obtain ⟨m9, hs, h9⟩ := steps_append.1 hs
  obtain ⟨m6, hs, h6⟩ := steps_append.1 hs
  obtain ⟨m4, hs, h4⟩ := steps_append.1 hs
  obtain ⟨m1, hs, h2⟩ := steps_append.1 hs
  cases hs with
  | cons hc hs =>
    cases hc with
    | create hsh hf =>
      rw [ha] at hsh
      cases hsh
      obtain ⟨k1, k2⟩ := waiting hs hd (put_same ..) hf.2.1
      rw [show (Ev.insert h, r1) :: before = [(Ev.insert h, r1)] ++ before from rfl] at h2
      obtain ⟨m2, h2, h3⟩ := steps_append.1 h2
      obtain ⟨k3, k4⟩ := inserting h2 k1
      obtain ⟨k5, -⟩ := living h3 hn k3 k4
      cases h4 with
      | cons hc h4 =>
        cases hc with
        | copy hp hf' =>
          rw [k5] at hp
          cases hp
          obtain ⟨q1, q2⟩ := waiting h4 hd' (put_same ..) hf'.2.1
          rw [show (Ev.insert k, r2) :: after = [(Ev.insert k, r2)] ++ after from rfl] at h6
          obtain ⟨m7, h6, h7⟩ := steps_append.1 h6
          obtain ⟨q3, q4⟩ := inserting h6 q1
          obtain ⟨q5, -⟩ := living h7 hn' q3 q4
          rw [finishing h9 q5, ← List.foldl_append, hi, List.flatten_append]

/-- **C63**: once finished, a context is gone: until the allocator hands out its address again, feeding it is refused with the crypto error and finishing it gives nothing. -/
theorem C63_gone {m m' : Heap σ} {h : Nat} {d : Bytes} {evs : List (Ev × Ret)} {ev : Ev} {r : Ret} (h0 : m.pending h = none)
    (hs : Steps D m ((.finish h, .digest d) :: evs ++ [(ev, r)]) m')
    (hc : ∀ x ∈ evs, (∀ a, x.1 ≠ .create a h) ∧ ∀ k, x.1 ≠ .copy k h) :
    ((∃ data, ev = .update h data) → r = .failed .cryptoError) ∧ (ev = .finish h → r = .none) := by
  obtain ⟨m1, hs, h2⟩ := steps_append.1 hs
  have key : m1.table h = none ∧ m1.pending h = none := by
    cases hs with
    | cons hf hs =>
      have h1 : ∀ {evs : List (Ev × Ret)} {m m' : Heap σ}, Steps D m evs m' → (∀ x ∈ evs, (∀ a, x.1 ≠ .create a h) ∧ ∀ k, x.1 ≠ .copy k h) →
          m.table h = none → m.pending h = none → m'.table h = none ∧ m'.pending h = none := by
        intro evs
        induction evs with
        | nil => intro m m' hs _ a b; cases hs; exact ⟨a, b⟩
        | cons y t ih =>
          intro m m' hs hc a b
          have hc' : ∀ x ∈ t, (∀ a, x.1 ≠ .create a h) ∧ ∀ k, x.1 ≠ .copy k h := fun z hz => hc z (List.mem_cons_of_mem _ hz)
          have hy := hc y (List.mem_cons_self ..)
          cases hs with
          | cons hstep hrest =>
            cases hstep with
            | create hq hf =>
              rename_i a' s addr
              have e : h ≠ addr := fun e => hy.1 a' (by rw [e])
              exact ih hrest hc' a (by simpa [put_other e] using b)
            | copy hq hf =>
              rename_i k _ addr
              have e : h ≠ addr := fun e => hy.2 k (by rw [e])
              exact ih hrest hc' a (by simpa [put_other e] using b)
            | insert hp =>
              rename_i addr _
              have e : h ≠ addr := fun e => by subst e; rw [b] at hp; cases hp
              exact ih hrest hc' (by simpa [put_other e] using a) (by simpa [put_other e] using b)
            | update hp =>
              rename_i h' _ _
              have e : h ≠ h' := fun e => by subst e; rw [a] at hp; cases hp
              exact ih hrest hc' (by simpa [put_other e] using a) b
            | finish hp =>
              rename_i h' _
              have e : h ≠ h' := fun e => by subst e; rw [a] at hp; cases hp
              exact ih hrest hc' (by simpa [put_other e] using a) b
            | unsupported _ => exact ih hrest hc' a b
            | noCopy _ => exact ih hrest hc' a b
            | noUpdate _ => exact ih hrest hc' a b
            | noFinish _ => exact ih hrest hc' a b
      cases hf with
      | finish hp => exact h1 hs hc (put_same ..) h0
  cases h2 with
  | cons hstep hrest =>
    constructor
    · rintro ⟨data, rfl⟩
      cases hstep with
      | update hp => rw [key.1] at hp; cases hp
      | noUpdate hp => rfl
    · rintro rfl
      cases hstep with
      | finish hp => rw [key.1] at hp; cases hp
      | noFinish hp => rfl

/-- the heap before anything was done. -/
def emptyHeap : Heap σ := ⟨fun _ => none, fun _ => none⟩

/-- what always holds: no box is both inserted and waiting, and none is at the null address. -/
theorem heap_inv : ∀ {evs : List (Ev × Ret)} {m m' : Heap σ}, Steps D m evs m' → (∀ h, m.table h = none ∨ m.pending h = none) → m.table 0 = none → m.pending 0 = none →
    (∀ h, m'.table h = none ∨ m'.pending h = none) ∧ m'.table 0 = none ∧ m'.pending 0 = none := by
  intro evs
  induction evs with
  | nil => intro m m' hs a b c; cases hs; exact ⟨a, b, c⟩
  | cons y t ih =>
    intro m m' hs a b c
    have other : ∀ {f : Nat → Option σ} {addr : Nat} {v : Option σ}, addr ≠ 0 → f 0 = none → put f addr v 0 = none :=
      fun h0 hf => by rw [put_other (Ne.symm h0)]; exact hf
    cases hs with
    | cons hstep hrest =>
      cases hstep with
      | create hq hf =>
        rename_i addr
        refine ih hrest (fun h => ?_) b (other hf.1 c)
        by_cases e : h = addr
        · subst e; exact .inl hf.2.1
        · rcases a h with a | a
          · exact .inl a
          · exact .inr (by simpa [put_other e] using a)
      | copy hq hf =>
        rename_i addr
        refine ih hrest (fun h => ?_) b (other hf.1 c)
        by_cases e : h = addr
        · subst e; exact .inl hf.2.1
        · rcases a h with a | a
          · exact .inl a
          · exact .inr (by simpa [put_other e] using a)
      | insert hp =>
        rename_i addr x
        have h0 : addr ≠ 0 := fun e => by subst e; rw [c] at hp; cases hp
        refine ih hrest (fun h => ?_) (other h0 b) (other h0 c)
        by_cases e : h = addr
        · subst e; exact .inr (put_same ..)
        · rcases a h with a | a
          · exact .inl (by simpa [put_other e] using a)
          · exact .inr (by simpa [put_other e] using a)
      | update hp =>
        rename_i h' x data
        have h0 : h' ≠ 0 := fun e => by subst e; rw [b] at hp; cases hp
        refine ih hrest (fun h => ?_) (other h0 b) c
        by_cases e : h = h'
        · subst e
          rcases a h with a | a
          · rw [a] at hp; cases hp
          · exact .inr a
        · rcases a h with a | a
          · exact .inl (by simpa [put_other e] using a)
          · exact .inr a
      | finish hp =>
        rename_i h' x
        have h0 : h' ≠ 0 := fun e => by subst e; rw [b] at hp; cases hp
        refine ih hrest (fun h => ?_) (other h0 b) c
        by_cases e : h = h'
        · subst e; exact .inl (put_same ..)
        · rcases a h with a | a
          · exact .inl (by simpa [put_other e] using a)
          · exact .inr a
      | unsupported _ => exact ih hrest a b c
      | noCopy _ => exact ih hrest a b c
      | noUpdate _ => exact ih hrest a b c
      | noFinish _ => exact ih hrest a b c

/-- **C63**: the null handle, which a default context has, is never one of a context: using it is refused. -/
theorem C63_null {m : Heap σ} {evs : List (Ev × Ret)} {ev : Ev} {r : Ret} {m' : Heap σ} (hs : Steps D emptyHeap evs m) (h1 : Step D m ev r m') :
    ((∃ data, ev = .update 0 data) → r = .failed .cryptoError) ∧ (ev = .finish 0 → r = .none) ∧ ((∃ k, ev = .copy 0 k) → r = .none) := by
  obtain ⟨-, k, -⟩ := heap_inv hs (fun _ => .inl rfl) rfl rfl
  refine ⟨?_, ?_, ?_⟩
  · rintro ⟨data, rfl⟩
    cases h1 with
    | update hp => rw [k] at hp; cases hp
    | noUpdate hp => rfl
  · rintro rfl
    cases h1 with
    | finish hp => rw [k] at hp; cases hp
    | noFinish hp => rfl
  · rintro ⟨n, rfl⟩
    cases h1 with
    | copy hp => rw [k] at hp; cases hp
    | noCopy hp => rfl

/-- **C63**: no step is stuck but for want of memory: whatever a thread wants to do next with the table it can do, if for a new context the allocator offers an
address that is not in use. -/
theorem C63_progress (m : Heap σ) (ev : Ev) (h1 : ∀ a k, ev = .create a k → m.free k) (h2 : ∀ h k, ev = .copy h k → m.free k)
    (h3 : ∀ k, ev = .insert k → (m.pending k).isSome) : ∃ r m', Step D m ev r m' := by
  cases ev with
  | create a k =>
    cases hs : sha? a with
    | none => exact ⟨_, _, .unsupported hs⟩
    | some s => exact ⟨_, _, .create hs (h1 a k rfl)⟩
  | copy h k =>
    cases hs : m.table h with
    | none => exact ⟨_, _, .noCopy hs⟩
    | some s => exact ⟨_, _, .copy hs (h2 h k rfl)⟩
  | insert k => obtain ⟨x, hx⟩ := Option.isSome_iff_exists.1 (h3 k rfl); exact ⟨_, _, .insert hx⟩
  | update h d =>
    cases hs : m.table h with
    | none => exact ⟨_, _, .noUpdate hs⟩
    | some s => exact ⟨_, _, .update hs⟩
  | finish h =>
    cases hs : m.table h with
    | none => exact ⟨_, _, .noFinish hs⟩
    | some s => exact ⟨_, _, .finish hs⟩

/-- a library whose contexts keep what they were fed. -/
def keepAll : Digests (Sha × Bytes) where
  new s := (s, [])
  update x d := (x.1, x.2 ++ d)
  finish x := Toy.digest x.1.len x.2

/-- a stand-in for `ring`. -/
def toyLib : Lib where
  digest s d := Toy.digest s.len d
  hmac s k d := Toy.digest s.len (k ++ d)
  hmacVerify s k d m := decide (m = Toy.digest s.len (k ++ d))
  expand s prk info n := if n ≤ 255 * s.len then some (hkdfExpand (fun d => Toy.digest s.len (prk ++ d)) s.len info n) else none
  «seal» _ _ _ _ pt := some (pt ++ List.replicate 16 0xEE)
  «open» _ _ _ _ x := if 16 ≤ x.length ∧ x.drop (x.length - 16) = List.replicate 16 0xEE then some (x.take (x.length - 16)) else none
  generate n := some (List.replicate 64 (UInt8.ofNat n))

theorem keepAll_incremental : Incremental toyLib keepAll := by
  intro s pieces
  have h : ∀ (pieces : List Bytes) (x : Sha × Bytes), pieces.foldl keepAll.update x = (x.1, x.2 ++ pieces.flatten) := by
    intro pieces
    induction pieces with
    | nil => intro x; simp
    | cons p t ih => intro x; rw [List.foldl_cons, ih]; simp [keepAll]
  rw [h]
  simp [keepAll, toyLib]

/-- two threads: one hashes [1], [2] at 8; the other makes a context at 16; the first context is copied to 24 between its two pieces, and the copy is fed [3]. -/
def mixed : List (Ev × Ret) :=
  [(.create BaseHash.sha256 8, .done), (.create BaseHash.sha384 16, .done), (.insert 8, .done), (.update 8 [1], .done), (.copy 8 24, .done), (.insert 16, .done),
    (.update 8 [2], .done), (.insert 24, .done), (.update 16 [9], .done), (.update 24 [3], .done), (.finish 8, .digest (Toy.digest 32 [1, 2])),
    (.finish 24, .digest (Toy.digest 32 [1, 3])), (.update 8 [4], .failed .cryptoError)]

/-- the hypotheses of `C63_digest`, `C63_copy`, `C63_gone` and `C63_null` are met by such a schedule. -/
theorem C63_case : Incremental toyLib keepAll ∧ ∃ m', Steps keepAll emptyHeap mixed m' := by
  refine ⟨keepAll_incremental, ?_⟩
  unfold mixed
  refine Exists.intro ?w ?h
  case h =>
    refine .cons (.create (s := Sha.sha256) rfl ⟨by decide, rfl, rfl⟩) ?_
    refine .cons (.create (s := Sha.sha384) rfl ⟨by decide, rfl, rfl⟩) ?_
    refine .cons (.insert rfl) ?_
    refine .cons (.update rfl) ?_
    refine .cons (.copy rfl ⟨by decide, rfl, rfl⟩) ?_
    refine .cons (.insert rfl) ?_
    refine .cons (.update rfl) ?_
    refine .cons (.insert rfl) ?_
    refine .cons (.update rfl) ?_
    refine .cons (.update rfl) ?_
    refine .cons (.finish (x := (Sha.sha256, [1, 2])) rfl) ?_
    refine .cons (.finish (x := (Sha.sha256, [1, 3])) rfl) ?_
    refine .cons (.noUpdate rfl) ?_
    exact .nil

end Verif.Props
