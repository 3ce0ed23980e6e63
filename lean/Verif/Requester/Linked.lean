/-
A requester whose peer is this responder, over a transport that delivers what is sent.
-/
import Verif.Requester.Ops
import Verif.Responder.Answer
import Verif.Spec.ToyRun
import Verif.Msg.Weak

namespace Verif
namespace Req
open Rsp

/-- The peer of requester environment `e` is a responder with environment `f` that started in `r0`.  Plain messages arrive as they were sent,
possibly followed by padding.  What the requester receives after its last packet is what the responder, having been given every packet the
requester ever sent, answered to that last one.  (Nothing is said when nothing is received.) -/
structure Linked (e : REnv) (f : Env) (r0 : Ctx) : Prop where
  out : ∀ m pkt, Ctx.encap e.toEnv m = .ok pkt → ∃ pad, Plain f pkt (m ++ pad)
  back : ∀ m pkt bytes, Ctx.encap f m = .ok pkt → PlainIn e pkt bytes → ∃ pad, bytes = m ++ pad
  answers : ∀ sent rx p, e.recv (sent ++ [rx]) = some p → ∃ rc rc', Toy.runAll f r0 sent = some rc ∧ processMessage f rx rc = .ok true rc' ∧
    rc'.sent = rc.sent ++ [p]

variable {e : REnv} {f : Env} {r0 : Ctx}

theorem runAll_snoc {c c1 c2 : Ctx} {l : List Bytes} {rx : Bytes} {b : Bool} (h : Toy.runAll f c l = some c1) (h' : processMessage f rx c1 = .ok b c2) :
    Toy.runAll f c (l ++ [rx]) = some c2 := by
  induction l generalizing c with
  | nil => cases h; simp [Toy.runAll, h']
  | cons a l ih =>
    rw [List.cons_append, Toy.runAll]
    rw [Toy.runAll] at h
    cases hp : processMessage f a c with
    | panic => rw [hp] at h; cases h
    | ok b' c' => rw [hp] at h; exact ih h
    | err u c' => rw [hp] at h; exact ih h

/-- one plain exchange over the link, seen from both sides. -/
theorem Linked.answer' (hl : Linked e f r0) {x : Bytes → H Bytes} {c : Ctx} {pkt bytes t t' : Bytes} {v v' k r : UInt8}
    (hs : Said e none c (v :: k :: t) bytes (withSent pkt c)) (hb : bytes = v' :: r :: t')
    (hd : ∀ t, dispatchCode f (ReqRespCode.ofCode k) (v :: k :: t) = (do let b ← reply (x (v :: k :: t)); Rsp.sendMessage f b))
    (hc : ∀ t, Codes r (Starts r) (x (v :: k :: t))) (hr : r ≠ 0x65) (hr' : r ≠ 0x7F) :
    ∃ rc rc' pad pad' b c1 pktr, Toy.runAll f r0 c.sent = some rc ∧ Toy.runAll f r0 (c.sent ++ [pkt]) = some rc' ∧ bytes = b ++ pad' ∧
      (x (v :: k :: (t ++ pad)) rc = .ok b c1 ∨
        ∃ rep, x (v :: k :: (t ++ pad)) rc = .err rep c1 ∧ writeError c1 rep = some b ∧ rep.pre ≠ []) ∧
      rc' = withState (afterState r c1.rt.state) (withSent pktr c1) ∧ tooLarge c1 b = false := by
  obtain ⟨pkt', p, h1, h2, h3, h4⟩ := hs
  have hpk : pkt' = pkt := by
    have := congrArg Ctx.sent h4
    simp [withSent] at this
    exact this.symm
  subst hpk
  obtain ⟨rc, rc', g1, g2, g3⟩ := hl.answers _ _ _ h1
  obtain ⟨pad, g4⟩ := hl.out _ _ h2
  rw [List.cons_append, List.cons_append] at g4
  obtain ⟨b, c1, pktr, k1, k2⟩ := plain_answered g4 (hd _) (hc _) hr g2
  have hsent : rc'.sent = c1.sent ++ [pktr] := by
    rcases k2 with ⟨_, rfl⟩ | ⟨_, _, _, _, _, rfl⟩ | ⟨_, _, _, _, rfl⟩ <;> rfl
  have hp : p = pktr := by
    rw [g3] at hsent
    have := congrArg List.getLast? hsent
    simpa using this
  subst hp
  obtain ⟨pad', hpad⟩ := hl.back _ _ _ k1 h3
  have hnerr : ∀ b' : Bytes, (∃ v t, b' = v :: 0x7F :: t) → bytes ≠ b' ++ pad' := by
    rintro b' ⟨v1, t1, rfl⟩ hh
    rw [hb] at hh
    simp at hh
    exact hr' hh.2.1
  have hfit : tooLarge c1 b = false := by
    cases ht : tooLarge c1 b with
    | false => rfl
    | true =>
      unfold outgoing at hpad
      rw [ht, if_pos rfl] at hpad
      exact absurd hpad (hnerr _ ⟨_, _, rfl⟩)
  have hout : outgoing c1 b = b := by unfold outgoing; rw [hfit]; rfl
  rw [hout] at hpad
  refine ⟨rc, rc', pad, pad', b, c1, p, g1, runAll_snoc g1 g2, hpad, ?_⟩
  rw [hfit] at k2
  rcases k2 with ⟨q1, q2⟩ | ⟨rep, q1, q2, q3, _, q4⟩ | ⟨rep, _, _, q, _⟩
  · exact ⟨.inl q1, q2, hfit⟩
  · exact ⟨.inr ⟨rep, q1, q2, q3⟩, q4, hfit⟩
  · exact absurd hpad (hnerr _ ⟨_, _, q⟩)

theorem Linked.answer (hl : Linked e f r0) {x : Bytes → H Bytes} {c : Ctx} {pkt bytes t t' : Bytes} {v v' k r : UInt8}
    (hs : Said e none c (v :: k :: t) bytes (withSent pkt c)) (hb : bytes = v' :: r :: t')
    (hd : ∀ t, dispatchCode f (ReqRespCode.ofCode k) (v :: k :: t) = (do let b ← reply (x (v :: k :: t)); Rsp.sendMessage f b))
    (hc : ∀ t, Codes r (Starts r) (x (v :: k :: t))) (hr : r ≠ 0x65) (hr' : r ≠ 0x7F) :
    ∃ rc rc' pad pad' b c1 pktr, Toy.runAll f r0 c.sent = some rc ∧ Toy.runAll f r0 (c.sent ++ [pkt]) = some rc' ∧ bytes = b ++ pad' ∧
      (x (v :: k :: (t ++ pad)) rc = .ok b c1 ∨
        ∃ rep, x (v :: k :: (t ++ pad)) rc = .err rep c1 ∧ writeError c1 rep = some b ∧ rep.pre ≠ []) ∧
      rc' = withState (afterState r c1.rt.state) (withSent pktr c1) := by
  obtain ⟨rc, rc', pad, pad', b, c1, pktr, g1, g2, g3, g4, g5, _⟩ := hl.answer' hs hb hd hc hr hr'
  exact ⟨rc, rc', pad, pad', b, c1, pktr, g1, g2, g3, g4, g5⟩

end Req
end Verif
