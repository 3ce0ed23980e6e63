/-
The session table of the responder: an invariant of all histories.
-/
import Verif.Responder.Process

namespace Verif
namespace Rsp
variable {e : Env}

theorem half_join (r q : UInt16) : Ctx.half false (joinId r q) = r := by
  apply UInt16.toNat_inj.1
  unfold Ctx.half joinId
  simp only [Bool.false_eq_true, if_false, UInt32.toNat_toUInt16, UInt32.toNat_shiftRight, UInt32.toNat_add, UInt32.toNat_shiftLeft, UInt16.toNat_toUInt32]
  have hr := r.toNat_lt
  have hq := q.toNat_lt
  have : (16 : UInt32).toNat % 32 = 16 := by decide
  rw [this]
  simp only [Nat.shiftLeft_eq, Nat.shiftRight_eq_div_pow]
  omega

/-- the slot at position `i` is free, or its id has the responder half assigned to that position. -/
def SlotOk (i : Nat) (s : Session) : Prop := s.Erased ∨ Ctx.half false s.id = 0xFFFD - UInt16.ofNat i

/-- all slots are `SlotOk`, the first one being number `i`. -/
def TableOk : Nat → List Session → Prop
  | _, [] => True
  | i, s :: l => SlotOk i s ∧ TableOk (i + 1) l

theorem own_ne_zero {i : Nat} (h : i < 0xFFFD) : (0xFFFD : UInt16) - UInt16.ofNat i ≠ 0 := by
  intro hc
  have := congrArg UInt16.toNat hc
  have h1 : (UInt16.ofNat i).toNat = i := by simp [UInt16.toNat_ofNat, Nat.mod_eq_of_lt (show i < 65536 by omega)]
  rw [UInt16.toNat_sub_of_le _ _ (by rw [UInt16.le_iff_toNat_le, h1]; have : (0xFFFD : UInt16).toNat = 0xFFFD := by decide
                                     omega), h1] at this
  have h2 : (0xFFFD : UInt16).toNat = 0xFFFD := by decide
  have h3 : (0 : UInt16).toNat = 0 := by decide
  omega

theorem half_zero : Ctx.half false 0 = 0 := by decide

theorem SlotOk.id_zero {i : Nat} {s : Session} (h : SlotOk i s) (hi : i < 0xFFFD) : s.id = 0 ↔ s.Erased := by
  constructor
  · intro h0
    rcases h with h | h
    · exact h
    · rw [h0, half_zero] at h; exact absurd h.symm (own_ne_zero hi)
  · exact fun h => h.id
theorem SlotOk.half_zero {i : Nat} {s : Session} (h : SlotOk i s) (hi : i < 0xFFFD) : Ctx.half false s.id = 0 ↔ s.Erased := by
  constructor
  · intro h0
    rcases h with h | h
    · exact h
    · rw [h0] at h; exact absurd h.symm (own_ne_zero hi)
  · intro h; rw [h.id]; exact Rsp.half_zero

theorem TableOk.find {l : List Session} {i : Nat} (h : TableOk i l) (hl : i + l.length < 0xFFFD) {sid : UInt32} {s : Session}
    (hf : l.find? (·.id = sid) = some s) : s.id = sid ∧ (s.id = 0 ↔ s.Erased) := by
  induction l generalizing i with
  | nil => simp at hf
  | cons a l ih =>
    by_cases hp : a.id = sid
    · have : a = s := by simpa [hp] using hf
      subst this
      exact ⟨hp, h.1.id_zero (by simp at hl; omega)⟩
    · exact ih h.2 (by simp at hl; omega) (by simpa [hp] using hf)

/-- the id handed out belongs to the first free slot. -/
theorem TableOk.open {l : List Session} {i : Nat} (h : TableOk i l) (hl : i + l.length < 0xFFFD) {r req : UInt16} {s1 : Session}
    (hn : Ctx.nextHalf false i l = some r) (h1 : s1.id = joinId r req ∨ s1.Erased) :
    r ≠ 0 ∧ TableOk i (Ctx.updFirst (·.id = 0) (fun _ => s1) l) := by
  induction l generalizing i with
  | nil => simp [Ctx.nextHalf] at hn
  | cons a l ih =>
    have hi : i < 0xFFFD := by simp at hl; omega
    unfold Ctx.nextHalf at hn
    unfold Ctx.updFirst
    by_cases hz : Ctx.half false a.id = 0
    · rw [if_pos hz] at hn
      have hn := Option.some.inj hn
      subst hn
      have : a.id = 0 := ((h.1.half_zero hi).1 hz).id
      simp only [this, decide_true, if_true]
      refine ⟨own_ne_zero hi, ?_, h.2⟩
      rcases h1 with h1 | h1
      · right; rw [h1, half_join]
      · exact .inl h1
    · rw [if_neg hz] at hn
      have : a.id ≠ 0 := fun h0 => hz (by rw [h0]; exact Rsp.half_zero)
      simp only [this, decide_false]
      obtain ⟨g1, g2⟩ := ih h.2 (by simp at hl; omega) hn
      exact ⟨g1, h.1, g2⟩

theorem joinId_ne_zero {r q : UInt16} (h : r ≠ 0) : joinId r q ≠ 0 := by
  intro hc
  have := half_join r q
  rw [hc, half_zero] at this
  exact h this.symm

/-- changing only sessions with a nonzero id, which keep it or become free. -/
theorem TableOk.change {l m : List Session} {i : Nat} {sid : UInt32} (h0 : sid ≠ 0) {R : Session → Session → Prop}
    (hR : ∀ s s', R s s' → s' = s ∨ (s.id = sid ∧ (s'.id = sid ∨ s'.Erased))) (h : TableOk i l) (hc : All2 R l m) : TableOk i m := by
  induction hc generalizing i with
  | nil => trivial
  | cons a _ ih =>
    refine ⟨?_, ih h.2⟩
    rcases hR _ _ a with rfl | ⟨h1, h2 | h2⟩
    · exact h.1
    · rcases h.1 with g | g
      · exact absurd (h1.symm.trans g.id) h0
      · right; rw [h2, ← h1]; exact g
    · exact .inl h2

theorem TableOk.cleared {l : List Session} {i : Nat} : TableOk i (l.map Session.setDefault) := by
  induction l generalizing i with
  | nil => trivial
  | cons a l ih => exact ⟨.inl ⟨_, rfl⟩, ih⟩

theorem opened_ok {est : Bool} {c c' : Ctx} (h : TableOk 0 c.sessions) (hl : c.sessions.length < 0xFFFD) (ho : OpenedIn est c c') : TableOk 0 c'.sessions := by
  obtain ⟨r, req, s1, l, h1, h2, _, _, rfl, h6⟩ := ho
  obtain ⟨g1, g2⟩ := h.open (by omega) h1 h2
  exact g2.change (joinId_ne_zero g1) (by
    rintro s s' (h | ⟨h1, h2, _⟩)
    · exact .inl h
    · exact .inr ⟨h1, h2⟩) h6

theorem updFirst_length (p : Session → Bool) (f : Session → Session) (l : List Session) : (Ctx.updFirst p f l).length = l.length := by
  induction l with
  | nil => rfl
  | cons a l ih => unfold Ctx.updFirst; split <;> simp [ih]

theorem TableStep.length {k : UInt8} {c c' : Ctx} (h : TableStep k c c') : c'.sessions.length = c.sessions.length := by
  cases h with
  | same h => rw [h]
  | cleared _ h => rw [h]; simp
  | keyExchange _ h => obtain ⟨_, _, _, _, _, _, _, _, rfl, h⟩ := h; rw [h.length_eq, updFirst_length]
  | pskExchange _ h => obtain ⟨_, _, _, _, _, _, _, _, rfl, h⟩ := h; rw [h.length_eq, updFirst_length]
  | finish _ _ _ _ _ _ _ h => exact h.length_eq

theorem Step.length {rx : Bytes} {c c' : Ctx} (h : Step e rx c c') : c'.sessions.length = c.sessions.length := by
  cases h with
  | ignored h => rw [h]
  | plain _ _ _ _ h => exact h.table.length
  | secured _ _ _ h => exact h.sessions.length_eq

theorem Step.table {rx : Bytes} {c c' : Ctx} (h : Step e rx c c') (ht : TableOk 0 c.sessions) (hl : c.sessions.length < 0xFFFD) : TableOk 0 c'.sessions := by
  cases h with
  | ignored h => rw [h]; exact ht
  | plain _ _ _ _ h =>
    cases h.table with
    | same h => rw [h]; exact ht
    | cleared _ h => rw [h]; exact TableOk.cleared
    | keyExchange _ h => exact opened_ok ht hl h
    | pskExchange _ h => exact opened_ok ht hl h
    | finish sid s _ _ _ hs hst h =>
      obtain ⟨g1, g2⟩ := ht.find (by omega) hs
      have h0 : sid ≠ 0 := by
        rintro rfl
        have := (g2.1 g1).notStarted
        rw [hst] at this
        cases this
      exact ht.change h0 (by
        rintro s s' (h | ⟨h1, h2⟩)
        · exact .inl h
        · exact .inr ⟨h1, .inl h2⟩) h
  | secured sid _ hu h =>
    obtain ⟨s, hs, hst⟩ := hu
    obtain ⟨g1, g2⟩ := ht.find (by omega) hs
    have h0 : sid ≠ 0 := by
      rintro rfl
      exact hst (g2.1 g1).notStarted
    exact ht.change h0 (fun _ _ h => h) h.sessions

theorem TableOk.new (n i : Nat) : TableOk i (List.replicate n Session.new) := by
  induction n generalizing i with
  | zero => trivial
  | succ n ih => exact ⟨.inl ⟨0, rfl⟩, ih _⟩

/-- the invariant of every history of a responder with fewer than 0xFFFD session slots. -/
theorem Run.table {cfg : Config} {prov : Provision} {n : Nat} (hn : n < 0xFFFD) {h : List (Env × Bytes)} {c : Ctx} (hr : Run (Ctx.new cfg prov n) h c)
    (hl : ∀ p ∈ h, HashLaw p.1) : c.sessions.length = n ∧ TableOk 0 c.sessions := by
  refine Run.induct (P := fun _ c => c.sessions.length = n ∧ TableOk 0 c.sessions) ?_ ?_ hr hl
  · exact ⟨by simp [Ctx.new], TableOk.new n 0⟩
  · rintro _ e rx c c' _ _ ⟨h1, h2⟩ hs
    exact ⟨hs.length.trans h1, hs.table h2 (by omega)⟩

theorem TableOk.get {l : List Session} {i : Nat} (h : TableOk i l) {j : Nat} {s : Session} (hj : l[j]? = some s) : SlotOk (i + j) s := by
  induction l generalizing i j with
  | nil => simp at hj
  | cons a l ih =>
    cases j with
    | zero => simp at hj; subst hj; exact h.1
    | succ j => have := ih h.2 (by simpa using hj); rwa [show i + 1 + j = i + (j + 1) by omega] at this

end Rsp
end Verif
