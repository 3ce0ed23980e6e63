/-
What a requester's operation says and hears.
-/
import Verif.Requester.Said
import Verif.Requester.Tails
import Verif.Props.Transcript

namespace Verif
namespace Req
open Rsp

variable {e : REnv}

/-- the message `rsp` is what the decoder takes of `bytes`, with the algorithms negotiated: what follows is ignored. -/
def Took (neg : Neg) (bytes rsp : Bytes) : Prop := ∃ cc : Cc, cc.neg = neg ∧ Props.Consumed cc bytes rsp

theorem took_of {α : Type} {c : Ctx} {neg : Neg} {v k : UInt8} {t : Bytes} {x : Cc → Rd α} {f : α → Payload} {a : α} {r : Reader}
    (hk : ∀ cc, Payload.read cc (ReqRespCode.ofCode k) = f <$> x cc) (hn : c.neg = neg) (hv : SpdmVersion.ofCode v = c.neg.version)
    (h : x c.cc ⟨t, 2⟩ = .ok a r) : Took neg (v :: k :: t) ((v :: k :: t).take r.used) :=
  ⟨c.cc, hn, Props.consumed_same hk hv h⟩

/-- a session apart from its transcripts. -/
def view (s : Session) : Session := { s with l1l2 := none, th := none }

/-- nothing was sent or negotiated, and the sessions differ at most in their transcripts. -/
def Quiet (c c' : Ctx) : Prop := c'.sent = c.sent ∧ c'.neg = c.neg ∧ c'.sessions.map view = c.sessions.map view

theorem Quiet.refl (c : Ctx) : Quiet c c := ⟨rfl, rfl, rfl⟩
theorem Quiet.trans {a b c : Ctx} (h : Quiet a b) (h' : Quiet b c) : Quiet a c :=
  ⟨h'.1.trans h.1, h'.2.1.trans h.2.1, h'.2.2.trans h.2.2⟩

theorem view_updFirst {p : Session → Bool} {f : Session → Session} (hf : ∀ s, view (f s) = view s) (l : List Session) :
    (Ctx.updFirst p f l).map view = l.map view := by
  induction l with
  | nil => rfl
  | cons a l ih =>
    unfold Ctx.updFirst
    split
    · simp [hf]
    · simp [ih]

theorem quiet_upd {c : Ctx} {sid : UInt32} {f : Session → Session} (hf : ∀ s, view (f s) = view s) : Quiet c (c.updSession sid f) :=
  ⟨rfl, rfl, view_updFirst hf _⟩

theorem quiet_resetM (sid : Option UInt32) (c : Ctx) : Quiet c (Ctx.resetM sid c) := by
  cases sid with
  | none => exact ⟨rfl, rfl, rfl⟩
  | some i => exact quiet_upd fun _ => rfl

theorem quiet_reset (k : ReqRespCode) (sid : Option UInt32) (c : Ctx) : Quiet c (Ctx.resetBuffers k sid c) := by
  have h1 : Quiet c (if k ≠ .reqGetMeasurements then Ctx.resetM sid c else c) := by
    split
    · exact quiet_resetM sid c
    · exact .refl c
  unfold Ctx.resetBuffers
  generalize (if k ≠ .reqGetMeasurements then Ctx.resetM sid c else c) = c1 at *
  have h2 : Quiet c (Ctx.resetM1M2 c1) := h1.trans ⟨rfl, rfl, rfl⟩
  dsimp only
  repeat' split
  all_goals first | exact h1 | exact h2

/-- The requests sent and the responses received between two contexts, in session `sid` or outside sessions. -/
inductive Heard (e : REnv) (sid : Option UInt32) : Ctx → List (Bytes × Bytes) → Ctx → Prop
  | done {c c' : Ctx} : c'.sent = c.sent → Heard e sid c [] c'
  | more {c c0 c1 c' : Ctx} {req bytes rsp : Bytes} {l : List (Bytes × Bytes)} : Quiet c c0 → Said e sid c0 req bytes c1 → Took c0.neg bytes rsp →
      Heard e sid c1 l c' → Heard e sid c ((req, rsp) :: l) c'

theorem Heard.one {sid : Option UInt32} {c c0 c1 c' : Ctx} {req bytes rsp : Bytes} (h : Quiet c c0) (hs : Said e sid c0 req bytes c1) (ht : Took c0.neg bytes rsp)
    (hc : c'.sent = c1.sent) : Heard e sid c [(req, rsp)] c' := .more h hs ht (.done hc)

/-- silence before. -/
theorem Heard.quiet {sid : Option UInt32} {c c1 c' : Ctx} {l : List (Bytes × Bytes)} (h : Quiet c c1) (hl : Heard e sid c1 l c') : Heard e sid c l c' := by
  cases hl with
  | done h1 => exact .done (h1.trans h.1)
  | more h1 h2 h3 h4 => exact .more (h.trans h1) h2 h3 h4

end Req
end Verif
