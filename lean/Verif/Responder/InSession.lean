/-
What a secured packet gives: the message the handler wrote, or the ERROR it asked for, sealed with the session's response keys.
-/
import Verif.Responder.Answer
import Verif.Responder.ExchangeExact
import Verif.Props.Table

namespace Verif
namespace Rsp
variable {e : Env}
open Props (Opens)

/-- packet `pkt` carries `msg` as a record the responder sealed with the response keys of session `s` in force. -/
def SealedBy (e : Env) (s : Session) (msg pkt : Bytes) : Prop :=
  ∃ app rec, Ctx.intoBuf (e.tr.encapApp msg false) 4160 = .ok app ∧ Session.encodeMsg e.crypto s app 4160 (s.dir false) = .ok rec ∧
    Ctx.intoBuf (e.tr.encap rec true) 4160 = .ok pkt

theorem liftOk {σ α : Type} {x : Res α} {s s' : σ} {a : α} : (x.lift : M Status σ α) s = .ok a s' ↔ x = .ok a ∧ s' = s := by
  cases x <;> simp [Res.lift, eq_comm]

theorem seals {sid : UInt32} {msg pkt : Bytes} {c c1 : Ctx} (h : Ctx.encodeSecured e sid msg false false c = .ok pkt c1) :
    ∃ s, c.session? sid = some s ∧ s.state ≠ .notStarted ∧ SealedBy e s msg pkt ∧ c1 = c.updSession sid fun _ => s.bump false := by
  unfold Ctx.encodeSecured at h
  obtain ⟨app, c2, h3, g2⟩ := M.bind_ok.1 h
  obtain ⟨h3', rfl⟩ := liftOk.1 h3
  obtain ⟨enc, c3, h4, g3⟩ := M.bind_ok.1 g2
  obtain ⟨g3', rfl⟩ := liftOk.1 g3
  cases hs : c2.session? sid with
  | none => simp [Ctx.onSession, hs] at h4
  | some s =>
    obtain ⟨s', h5, rfl⟩ := onSession_ok hs h4
    obtain ⟨k1, k2, rfl⟩ := Session.dispatchDir_ok.1 h5
    exact ⟨s, rfl, k1, ⟨app, enc, h3', k2, g3'⟩, rfl⟩

/-- a message that ends no phase: it goes out, the sending sequence number advances, nothing else changes. -/
theorem sendSecured_exact {sid : UInt32} {code : UInt8} {b : Bytes} {c c' : Ctx} {u : Unit} (hb : Starts code b) (h1 : code ≠ 0x6C) (h2 : code ≠ 0x65)
    (h3 : code ≠ 0x67) (h : sendSecured e sid b false c = .ok u c') :
    ∃ s pkt, c.session? sid = some s ∧ s.state ≠ .notStarted ∧ SealedBy e s (outgoing c b) pkt ∧
      c' = withSent pkt (c.updSession sid fun _ => s.bump false) := by
  have hplain : ∀ {b : Bytes} {code : UInt8}, Starts code b → code ≠ 0x6C → code ≠ 0x65 → code ≠ 0x67 →
      sendSecuredPlain e sid b false c = .ok u c' → ∃ s pkt, c.session? sid = some s ∧ s.state ≠ .notStarted ∧ SealedBy e s b pkt ∧
        c' = withSent pkt (c.updSession sid fun _ => s.bump false) := by
    intro b code hb h1 h2 h3 h
    unfold sendSecuredPlain at h
    obtain ⟨pkt, c1, g1, g2⟩ := M.bind_ok.1 h
    obtain ⟨s, k1, k2, k3, rfl⟩ := seals g1
    obtain ⟨_, c2, g3, g4⟩ := M.bind_ok.1 g2
    unfold Ctx.devSend at g3
    simp only [M.bind_apply, M.get_apply, M.set_apply] at g3
    cases hd : e.send (c.updSession sid fun _ => s.bump false).sent.length pkt with
    | some st => rw [hd] at g3; cases g3
    | none =>
      rw [hd] at g3
      cases g3
      obtain ⟨op, c3, g5, g6⟩ := M.bind_ok.1 g4
      rw [hb.get] at g5
      cases g5
      unfold afterSecured at g6
      rw [if_neg (by exact h1), if_neg (by rintro (h | h); exact h2 h; exact h3 h)] at g6
      cases g6
      exact ⟨s, pkt, k1, k2, k3, rfl⟩
  unfold sendSecured at h
  rw [M.bind_apply, M.get_apply] at h
  dsimp only at h
  cases ht : tooLarge c b with
  | false =>
    have hout : outgoing c b = b := by unfold outgoing; rw [ht]; rfl
    rw [if_neg (by simp [ht])] at h
    rw [hout]
    exact hplain hb h1 h2 h3 h
  | true =>
    rw [if_pos (by simp [ht])] at h
    obtain ⟨err, c1, g1, g2⟩ := M.bind_ok.1 h
    rw [writeError_nil c _ rfl] at g1
    cases g1
    have hout : outgoing c b = errorBytes c.neg.version .responseTooLarge 0 := by unfold outgoing; rw [ht]; rfl
    rw [hout]
    by_cases hl : tooLarge c (errorBytes c.neg.version .responseTooLarge 0) = true
    · rw [if_pos (by exact hl)] at g2; cases g2
    · rw [if_neg (by exact hl)] at g2
      exact hplain (starts_error _ _ _) (by decide) (by decide) (by decide) g2

/-- processing a packet that opens is dispatching what is in it. -/
theorem process_opened {rx msg : Bytes} {sid : UInt32} {c c1 : Ctx} (ho : Opens e rx c sid msg false c1) :
    processMessage e rx c = isOk (dispatchSecured e sid msg) c1 := by
  obtain ⟨pkt, h1, h2⟩ := ho
  have hd : Ctx.intoBuf2 (e.tr.decap rx) 4160 = .ok (pkt, true) := by
    unfold received at h1
    split at h1
    · rename_i p hp; cases h1; exact hp
    · simp at h1
  unfold processMessage
  simp [hd, Res.lift, M.mapErr, h2]

end Rsp
end Verif
