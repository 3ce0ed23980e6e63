/-
Which sessions ask for mutual authentication: every session in use that was opened by KEY_EXCHANGE carries the request put into
KEY_EXCHANGE_RSP, whatever happens afterwards.
-/
import Verif.Responder.Ties

namespace Verif
namespace Rsp

variable {e : Env} {m : UInt8}

/-- the slot is free, holds a PSK session, or holds a session that asks for mutual authentication as `m` says. -/
def Due (m : UInt8) (s : Session) : Prop := s.id = 0 ∨ s.usePsk = true ∨ s.mutAuth = m

/-- that holds for every slot of the table. -/
def AllDue (m : UInt8) (c : Ctx) : Prop := ∀ s ∈ c.sessions, Due m s

/-- it is kept. -/
def Asked (m : UInt8) (c c' : Ctx) : Prop := AllDue m c → AllDue m c'

theorem Due.same {s s' : Session} (h1 : s'.id = s.id) (h2 : s'.usePsk = s.usePsk) (h3 : s'.setting = s.setting) (hd : Due m s) : Due m s' := by
  have h4 : s'.mutAuth = s.mutAuth := congrArg (·.1) h3
  unfold Due
  rw [h1, h2, h4]
  exact hd

theorem Due.keep {s s' : Session} (h : s.Keep s') (hd : Due m s) : Due m s' := hd.same h.1 h.2.2.1 h.2.2.2

instance : Tied (fun _ => True) (Due m) where
  policy _ _ _ := trivial
  free _ := .inl rfl
  keep _ _ h1 h2 h3 h := h.same h1 h2 h3

theorem asked_upd (c : Ctx) (sid : UInt32) (f : Session → Session) (h : ∀ s, c.session? sid = some s → Due m s → Due m (f s)) :
    Asked m c (c.updSession sid f) := (tie_upd (N := fun _ => True) c sid f h trivial).2

/-- processing a packet keeps the invariant. -/
theorem ask_processMessage (rx : Bytes) : M.Rel (Asked e.mutAuth) (processMessage e rx) := by
  refine (tie_processMessage (N := fun _ => True) (D := Due e.mutAuth) ⟨fun n s _ _ h => .inr (.inr (congrArg (·.1) h)), fun n s hint _ h _ => .inr (.inl h)⟩
    (fun _ => trivial) rx).mono fun _ _ h => (h trivial).2

end Rsp
end Verif
