/-
One request and one response of the requester, outside and inside a session.
-/
import Verif.Requester.Exact
import Verif.Responder.ExchangeExact

namespace Verif
namespace Req
open Rsp

variable {e : REnv}

/-- packet `p` carries the plain message `bytes`. -/
def PlainIn (e : REnv) (p bytes : Bytes) : Prop := Ctx.decap e.toEnv p 4096 = .ok bytes

/-- packet `p` carries `bytes` as a record from the responder that the keys of session `s` in force open. -/
def RecordIn (e : REnv) (s : Session) (p bytes : Bytes) : Prop :=
  ∃ rec app flag, Ctx.intoBuf2 (e.tr.decap p) 4160 = .ok (rec, true) ∧ Session.decodeMsg e.crypto s rec 4160 (s.dir false) = .ok app ∧
    Ctx.intoBuf2 (e.tr.decapApp app) 4096 = .ok (bytes, flag)

/-- packet `pkt` carries `msg` as a record the requester sealed with the keys of session `s` in force. -/
def RecordOut (e : REnv) (s : Session) (msg pkt : Bytes) : Prop :=
  ∃ app rec, Ctx.intoBuf (e.tr.encapApp msg false) 4160 = .ok app ∧ Session.encodeMsg e.crypto s app 4160 (s.dir true) = .ok rec ∧
    Ctx.intoBuf (e.tr.encap rec true) 4160 = .ok pkt

/-- `req` was sent and `bytes` came back, in session `sid` or outside sessions; the context goes from `c` to `c1`. -/
def Said (e : REnv) (sid : Option UInt32) (c : Ctx) (req bytes : Bytes) (c1 : Ctx) : Prop :=
  ∃ pkt p, e.recv (c.sent ++ [pkt]) = some p ∧
    match sid with
    | none => Ctx.encap e.toEnv req = .ok pkt ∧ PlainIn e p bytes ∧ c1 = withSent pkt c
    | some i => ∃ s, c.session? i = some s ∧ s.state ≠ .notStarted ∧ RecordOut e s req pkt ∧ RecordIn e (s.bump true) p bytes ∧
        c1 = withSent pkt (c.updSession i fun _ => (s.bump true).bump false)

theorem encodeSecured_ok {sid : UInt32} {msg pkt : Bytes} {c c1 : Ctx} (h : Ctx.encodeSecured e.toEnv sid msg true false c = .ok pkt c1) :
    ∃ s, c.session? sid = some s ∧ s.state ≠ .notStarted ∧ RecordOut e s msg pkt ∧ c1 = c.updSession sid fun _ => s.bump true := by
  unfold Ctx.encodeSecured at h
  obtain ⟨app, c2, h3, g2⟩ := M.bind_ok.1 h
  obtain ⟨h3', rfl⟩ := liftOk.1 h3
  obtain ⟨enc, c3, h4, g3⟩ := M.bind_ok.1 g2
  obtain ⟨g3', rfl⟩ := liftOk.1 g3
  cases hs : c2.session? sid with
  | none => simp [Ctx.onSession, hs] at h4
  | some s =>
    obtain ⟨s', h5, rfl⟩ := onSession_ok hs h4
    obtain ⟨k1, k2, rfl⟩ := Session.dispatchDir_ok.1 h5
    exact ⟨s, rfl, k1, ⟨app, enc, h3', k2, g3'⟩, rfl⟩

theorem decodeSecured_ok {sid : UInt32} {p b : Bytes} {c c1 : Ctx} (h : Ctx.decodeSecured e.toEnv sid p 4096 c = .ok b c1) :
    ∃ s, c.session? sid = some s ∧ s.state ≠ .notStarted ∧ RecordIn e s p b ∧ c1 = c.updSession sid fun _ => s.bump false := by
  unfold Ctx.decodeSecured at h
  obtain ⟨⟨r, f⟩, c2, h3, g2⟩ := M.bind_ok.1 h
  obtain ⟨h3', rfl⟩ := liftOk.1 h3
  cases f with
  | false => rw [if_pos rfl] at g2; cases g2
  | true =>
    rw [if_neg (by simp)] at g2
    obtain ⟨app, c3, h4, g3⟩ := M.bind_ok.1 g2
    obtain ⟨⟨out, f2⟩, c4, h5, g4⟩ := M.bind_ok.1 g3
    obtain ⟨h5', rfl⟩ := liftOk.1 h5
    cases g4
    cases hs : c2.session? sid with
    | none => simp [Ctx.onSession, hs] at h4
    | some s =>
      obtain ⟨s', h6, rfl⟩ := onSession_ok hs h4
      obtain ⟨k1, k2, rfl⟩ := Session.dispatchDir_ok.1 h6
      exact ⟨s, rfl, k1, ⟨r, app, f2, h3', k2, h5'⟩, rfl⟩

theorem updSession_twice {c : Ctx} {sid : UInt32} {s s' : Session} (h : s.id = sid) :
    ((c.updSession sid fun _ => s).updSession sid fun _ => s') = c.updSession sid fun _ => s' := by
  unfold Ctx.updSession
  have : ∀ l : List Session, Ctx.updFirst (·.id = sid) (fun _ => s') (Ctx.updFirst (·.id = sid) (fun _ => s) l) = Ctx.updFirst (·.id = sid) (fun _ => s') l := by
    intro l
    induction l with
    | nil => rfl
    | cons a l ih =>
      by_cases ha : a.id = sid
      · simp [Ctx.updFirst, ha, h]
      · simp [Ctx.updFirst, ha, ih]
  simp [this]

theorem sendSecured_ok {sid : UInt32} {msg : Bytes} {c c' : Ctx} {u : Unit} (h : sendSecured e sid msg false c = .ok u c') :
    ∃ pkt s, c.session? sid = some s ∧ s.state ≠ .notStarted ∧ RecordOut e s msg pkt ∧ c' = withSent pkt (c.updSession sid fun _ => s.bump true) := by
  simp only [sendSecured, M.bind_apply, M.get_apply] at h
  by_cases hd : True ∧ c.neg.rspDts ≠ 0 ∧ c.neg.rspDts.toNat < msg.length
  · rw [if_pos hd] at h; cases h
  · rw [if_neg hd] at h
    obtain ⟨pkt, c1, h1, h2⟩ := M.bind_ok.1 h
    obtain ⟨s, h3, h4, h5, rfl⟩ := encodeSecured_ok h1
    obtain ⟨rfl, _⟩ := devSend_ok h2
    exact ⟨pkt, s, h3, h4, h5, rfl⟩

theorem transact_ok {sid : Option UInt32} {msg b : Bytes} {c c' : Ctx} (h : transact e sid msg c = .ok b c') : Said e sid c msg b c' := by
  cases sid with
  | none =>
    obtain ⟨pkt, p, h1, h2, _, h4, h5⟩ := transact_none_ok h
    exact ⟨pkt, p, h4, h1, h5, h2⟩
  | some i =>
    obtain ⟨u, c1, h1, h2⟩ := M.bind_ok.1 h
    obtain ⟨pkt, s, h3, h4, h5, rfl⟩ := sendSecured_ok h1
    obtain ⟨p, h6, h7⟩ := receiveSecured_ok h2
    obtain ⟨s', h8, _, h10, rfl⟩ := decodeSecured_ok h7
    have hid := session?_id h3
    have hs : (withSent pkt (c.updSession i fun _ => s.bump true)).session? i = some (s.bump true) :=
      session?_const h3 (by rw [Session.bump_id]; exact hid)
    rw [hs] at h8; cases h8
    refine ⟨pkt, p, h6, s, h3, h4, h5, h10, ?_⟩
    have := updSession_twice (c := c) (sid := i) (s := s.bump true) (s' := (s.bump true).bump false) (by simp [hid])
    unfold withSent Ctx.updSession at *
    simp only [Ctx.mk.injEq] at this ⊢
    simp_all

/-- a message exchange changes nothing but the packets sent and, in a session, its record counters. -/
theorem Said.fields {sid : Option UInt32} {c c1 : Ctx} {req bytes : Bytes} (h : Said e sid c req bytes c1) :
    c1.neg = c.neg ∧ c1.rt = c.rt ∧ c1.config = c.config ∧ c1.prov = c.prov ∧ c1.peer = c.peer := by
  obtain ⟨pkt, p, _, h⟩ := h
  cases sid with
  | none => obtain ⟨_, _, rfl⟩ := h; exact ⟨rfl, rfl, rfl, rfl, rfl⟩
  | some i => obtain ⟨s, _, _, _, _, rfl⟩ := h; exact ⟨rfl, rfl, rfl, rfl, rfl⟩

end Req
end Verif
