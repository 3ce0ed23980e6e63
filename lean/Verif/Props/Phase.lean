/-
C27: requests per session phase.
-/
import Verif.Responder.Process
import Verif.Spec.ToyRun
import Verif.Spec.Phase
import Verif.Props.Conn

namespace Verif.Props
open Verif.Rsp

variable {e : Env}

/-- the refusal sent back. -/
def refusalOf (c : Ctx) (v k : UInt8) : Bytes :=
  errorOf c (Spec.refusal (decide (SpdmVersion.ofCode v = c.neg.version)) k).1
    (Spec.refusal (decide (SpdmVersion.ofCode v = c.neg.version)) k).2

theorem handleError_in (code : ErrorCode) (sid : UInt32) (v k : UInt8) (t : Bytes) (c : Ctx)
    (hcode : Spec.refusal true k = (code.get, if code = .unsupportedRequest then k else 0)) :
    handleError e code (some sid) (v :: k :: t) c = sendSecured e sid (refusalOf c v k) false c := by
  unfold handleError
  have : errorResponse code (v :: k :: t) c = .err (if SpdmVersion.ofCode v = c.neg.version then { code := code, data := if code = .unsupportedRequest then k else 0 }
      else { code := .versionMismatch }) c := by
    unfold errorResponse
    simp only [M.bind_apply, M.get_apply, header_read]
    by_cases h : SpdmVersion.ofCode v = c.neg.version
    · simp only [h, ne_eq, not_true, if_false, if_true, M.fail_apply, ReqRespCode.get_ofCode]
    · rw [if_pos h, if_neg h]; rfl
  simp only [M.bind_apply, reply, this]
  unfold refusalOf
  by_cases h : SpdmVersion.ofCode v = c.neg.version
  · simp only [if_pos h, writeError_nil c { code := code, data := if code = .unsupportedRequest then k else 0 } rfl, h, decide_true, hcode]; rfl
  · simp only [if_neg h, writeError_nil c { code := .versionMismatch } rfl, h, decide_false]; rfl

/-- what a phase does with a message that is not for it: nothing for codes that are not requests, a refusal otherwise. -/
def Refuses (e : Env) (sid : UInt32) (v k : UInt8) (t : Bytes) (c : Ctx) : Prop :=
  dispatchSecured e sid (v :: k :: t) c =
    if Spec.isRequest k then sendSecured e sid (refusalOf c v k) false c else .err .unsupportedCap c

theorem isRequest_unknown {k b : UInt8} (h : ReqRespCode.ofCode k = .unknown b) : Spec.isRequest k = false := by
  cases hk : Spec.isRequest k with
  | false => rfl
  | true =>
    simp only [Spec.isRequest, List.mem_cons, List.mem_nil_iff, or_false, decide_eq_true_eq] at hk
    rcases hk with rfl | rfl | rfl | rfl | rfl | rfl | rfl | rfl | rfl | rfl | rfl | rfl | rfl | rfl | rfl | rfl <;> cases h

/-- Handshake phase: every request but FINISH, PSK_FINISH and VENDOR_DEFINED is refused. -/
theorem C27_handshake (c : Ctx) (sid : UInt32) (s : Session) (v k : UInt8) (t : Bytes) (hs : c.session? sid = some s)
    (hst : s.state = .handshaking) (hc : c.cc.inClear = false) (hk : Spec.handshakeRequest k = false) :
    Refuses e sid v k t c := by
  unfold Refuses dispatchSecured dispatchHandshake
  simp only [M.bind_apply, M.get_apply, hs, hst, hc, Bool.false_eq_true, if_false, Res.read, header_read, Res.lift]
  have hkk := ReqRespCode.get_ofCode k
  cases hx : ReqRespCode.ofCode k <;> rw [hx] at hkk <;>
    first
    | (subst hkk; exact absurd hk (by decide))
    | (subst hkk; exact handleError_in _ sid v _ t c (by decide))
    | (subst hkk; rfl)
    | (rw [isRequest_unknown hx]; rfl)

/-- Handshake phase of a connection with HANDSHAKE_IN_THE_CLEAR: no secured message at all is processed. -/
theorem C27_handshake_in_clear (c : Ctx) (sid : UInt32) (s : Session) (b : Bytes) (hs : c.session? sid = some s)
    (hst : s.state = .handshaking) (hc : c.cc.inClear = true) : dispatchSecured e sid b c = .err .unsupportedCap c := by
  unfold dispatchSecured dispatchHandshake
  simp only [M.bind_apply, M.get_apply, hs, hst, hc, if_true]; rfl

/-- Application phase: every request but GET_DIGESTS, GET_CERTIFICATE, GET_MEASUREMENTS, HEARTBEAT, KEY_UPDATE, END_SESSION
and VENDOR_DEFINED is refused. -/
theorem C27_application (c : Ctx) (sid : UInt32) (s : Session) (v k : UInt8) (t : Bytes) (hs : c.session? sid = some s)
    (hst : s.state = .established) (hk : Spec.applicationRequest k = false) : Refuses e sid v k t c := by
  unfold Refuses dispatchSecured dispatchApplication
  simp only [M.bind_apply, M.get_apply, hs, hst, Res.read, header_read, Res.lift]
  have hkk := ReqRespCode.get_ofCode k
  cases hx : ReqRespCode.ofCode k <;> rw [hx] at hkk <;>
    first
    | (subst hkk; exact absurd hk (by decide))
    | (subst hkk; exact handleError_in _ sid v _ t c (by decide))
    | (subst hkk; rfl)
    | (rw [isRequest_unknown hx]; rfl)

/-- A message for a session that does not exist or is not in use is dropped. -/
theorem C27_no_session (c : Ctx) (sid : UInt32) (b : Bytes)
    (h : ∀ s, c.session? sid = some s → s.state = .notStarted) : dispatchSecured e sid b c = .err .unsupportedCap c := by
  unfold dispatchSecured
  simp only [M.bind_apply, M.get_apply]
  cases hs : c.session? sid with
  | none => rfl
  | some s => simp only [h s hs]; rfl

/-- is code `k` for the phase of session `s`? -/
def forPhase (c : Ctx) (s : Session) (k : UInt8) : Bool :=
  match s.state with
  | .handshaking => !c.cc.inClear && Spec.handshakeRequest k
  | .established => Spec.applicationRequest k
  | .notStarted => false

/-- Whatever the outcome, a message out of place leaves every session and everything else as it was, except that the
session's outgoing sequence number moves on when the refusal is sealed. -/
theorem C27_no_effect (c c' : Ctx) (sid : UInt32) (s : Session) (v k : UInt8) (t : Bytes) (hs : c.session? sid = some s)
    (hk : forPhase c s k = false)
    (hr : dispatchSecured e sid (v :: k :: t) c = .ok () c' ∨ ∃ st, dispatchSecured e sid (v :: k :: t) c = .err st c') : SentIn sid c c' := by
  have hself : SentIn sid c c := ⟨_, _, .inl rfl, List.prefix_refl _, rfl⟩
  have hdrop : dispatchSecured e sid (v :: k :: t) c = .err .unsupportedCap c → SentIn sid c c' := by
    intro h
    rw [h] at hr
    rcases hr with hr | ⟨st, hr⟩ <;> cases hr
    exact hself
  have href : Refuses e sid v k t c → SentIn sid c c' := by
    intro h
    unfold Refuses at h
    split at h
    · have hw := sendSecured_sentIn (e := e) sid (b := refusalOf c v k) ⟨_, _, rfl⟩ (by decide) false c
      rw [h] at hr
      rcases hr with hr | ⟨st, hr⟩
      · exact hw.ok hr
      · exact hw.err hr
    · exact hdrop h
  unfold forPhase at hk
  split at hk
  · rename_i hst
    cases hc : c.cc.inClear with
    | true => exact hdrop (C27_handshake_in_clear c sid s _ hs hst hc)
    | false => rw [hc] at hk; exact href (C27_handshake c sid s v k t hs hst hc (by simpa using hk))
  · rename_i hst
    exact href (C27_application c sid s v k t hs hst hk)
  · rename_i hst
    exact hdrop (C27_no_session c sid _ fun s' h => by rw [hs] at h; cases h; exact hst)

/-- the packet opens, in context `c`, to message `msg` of session `sid`. -/
def Opens (e : Env) (rx : Bytes) (c : Ctx) (sid : UInt32) (msg : Bytes) (isApp : Bool) (c1 : Ctx) : Prop :=
  ∃ pkt, received e rx = some (pkt, true) ∧ openSecured e pkt c = .ok (sid, msg, isApp) c1

/-- Opening a packet only advances the receiving sequence number of its session. -/
theorem Opens.eq {rx : Bytes} {c c1 : Ctx} {sid : UInt32} {msg : Bytes} {isApp : Bool} (h : Opens e rx c sid msg isApp c1) :
    SecuredFor e rx sid ∧ ∃ s, c.session? sid = some s ∧ s.state ≠ .notStarted ∧ c1 = c.updSession sid (·.bump true) := by
  obtain ⟨pkt, h1, h2⟩ := h
  refine ⟨((openSecured_wp rx pkt h1 c).ok h2).1, ?_⟩
  unfold openSecured at h2
  obtain ⟨⟨sid', r⟩, c2, h3, g2⟩ := M.bind_ok.1 h2
  have h3 : c2 = c := by
    revert h3
    cases Res.read .invalidParameter rdU32 (Reader.init pkt) <;> simp [M.mapErr, Res.lift, eq_comm]
  subst h3
  dsimp only at g2
  obtain ⟨app, c3, h4, g3⟩ := M.bind_ok.1 g2
  obtain ⟨⟨msg', isApp'⟩, c4, h5, g4⟩ := M.bind_ok.1 g3
  have h5 : c4 = c3 := by
    revert h5
    cases Ctx.intoBuf2 (e.tr.decapApp app) msgSize <;> simp [M.mapErr, Res.lift, eq_comm]
  subst h5
  cases g4
  unfold Ctx.onSession at h4
  cases hs : c2.session? sid with
  | none => simp [M.mapErr, hs] at h4
  | some s =>
    simp only [M.mapErr, M.bind_apply, M.get_apply, hs] at h4
    cases hx : Session.decodeSecured e.crypto pkt 4160 true s with
    | panic => simp [hx] at h4
    | err st s' => simp [hx] at h4
    | ok a s' =>
      obtain ⟨g1, _, rfl⟩ := Session.dispatchDir_ok.1 hx
      simp only [hx, M.bind_apply, M.set_apply, M.pure_apply] at h4
      refine ⟨s, rfl, g1, ?_⟩
      cases h4
      unfold Ctx.updSession
      rw [updFirst_const (f := (·.bump true)) _ hs]

theorem find_updFirst {sid : UInt32} {f : Session → Session} (hf : ∀ s, (f s).id = s.id) (l : List Session) :
    (Ctx.updFirst (·.id = sid) f l).find? (·.id = sid) = (l.find? (·.id = sid)).map f := by
  induction l with
  | nil => rfl
  | cons a l ih =>
    unfold Ctx.updFirst
    by_cases h : a.id = sid
    · simp [h, hf]
    · simp [h, ih]

/-- The same for whole packets: a packet that opens to a message out of place only moves sequence numbers of that session. -/
theorem C27_packet (c c1 c' : Ctx) (rx : Bytes) (sid : UInt32) (s : Session) (v k : UInt8) (t : Bytes) (hs : c.session? sid = some s)
    (ho : Opens e rx c sid (v :: k :: t) false c1) (hk : forPhase c s k = false)
    (hr : (∃ b, processMessage e rx c = .ok b c') ∨ processMessage e rx c = .err () c') :
    SentIn sid (c.updSession sid (·.bump true)) c' := by
  obtain ⟨_, s', hs', _, rfl⟩ := ho.eq
  rw [hs] at hs'; cases hs'
  obtain ⟨pkt, h1, h2⟩ := ho
  have hd : Ctx.intoBuf2 (e.tr.decap rx) 4160 = .ok (pkt, true) := by
    unfold received at h1
    split at h1
    · rename_i p hp; cases h1; exact hp
    · simp at h1
  have hp : processMessage e rx c = isOk (dispatchSecured e sid (v :: k :: t)) (c.updSession sid (·.bump true)) := by
    unfold processMessage
    simp [hd, Res.lift, M.mapErr, h2]
  rw [hp] at hr
  have hs1 : (c.updSession sid (·.bump true)).session? sid = some (s.bump true) := by
    have := find_updFirst (sid := sid) (f := (·.bump true)) (fun s => Session.bump_id s true) c.sessions
    unfold Ctx.session? Ctx.updSession at *
    rw [this, hs]; rfl
  have hk1 : forPhase (c.updSession sid (·.bump true)) (s.bump true) k = false := by
    unfold forPhase at *
    rw [Session.bump_state]; exact hk
  refine C27_no_effect (e := e) _ c' sid (s.bump true) v k t hs1 hk1 ?_
  unfold isOk at hr
  split at hr <;> rename_i hx
  · left; rcases hr with ⟨b, hr⟩ | hr <;> cases hr; exact hx
  · right; rcases hr with ⟨b, hr⟩ | hr <;> cases hr; exact ⟨_, hx⟩
  · rcases hr with ⟨b, hr⟩ | hr <;> cases hr

/-- `inner` sealed by the requester of session `s`, as a packet. -/
def sealedFor (s : Session) (inner : Bytes) : Bytes :=
  match Session.encodeSecured Toy.crypto inner 4160 true s with
  | .ok b _ => 6 :: b
  | _ => []

/-- the toy session in its handshake phase. -/
def toyHandshake : Session :=
  { Toy.sess 0 with state := .handshaking, hs := { req := { key := List.replicate 32 7, salt := List.replicate 12 5 }, rsp := { key := List.replicate 32 9, salt := List.replicate 12 3 } } }

/-- KEY_EXCHANGE inside an established session, HEARTBEAT inside a handshake: one refusal each, nothing else. -/
example : (match processMessage Toy.env (sealedFor (Toy.sess 0) [8, 0x12, 0xE4, 0, 0]) twoSessions with
    | .ok b c => some (b, c.sessions.map fun s => (s.state, s.app.req.seq, s.app.rsp.seq), c.sent.length)
    | _ => none) = some (true, [(.established, 1, 1), (.established, 0, 0)], 4) := by decide +kernel
example : (match processMessage Toy.env (sealedFor toyHandshake [8, 0x12, 0xE8, 0, 0]) { Toy.negotiated with sessions := [toyHandshake] } with
    | .ok b c => some (b, c.sessions.map fun s => (s.state, s.hs.req.seq, s.hs.rsp.seq), c.sent.length)
    | _ => none) = some (true, [(.handshaking, 1, 1)], 4) := by decide +kernel
example : forPhase Toy.negotiated toyHandshake 0xE8 = false ∧ forPhase Toy.negotiated (Toy.sess 0) 0xE4 = false := by decide +kernel

/-! ### C46 -/

/-- the environment with another application. -/
def withApp (e : Env) (f : UInt32 → Bytes → Option Bytes) : Env := { e with app := f }

theorem dispatch_app (f : UInt32 → Bytes → Option Bytes) (b : Bytes) : dispatch (withApp e f) b = dispatch e b := rfl
theorem dispatchSecured_app (f : UInt32 → Bytes → Option Bytes) (sid : UInt32) (b : Bytes) :
    dispatchSecured (withApp e f) sid b = dispatchSecured e sid b := rfl
theorem openSecured_app (f : UInt32 → Bytes → Option Bytes) (b : Bytes) : openSecured (withApp e f) b = openSecured e b := rfl

/-- The application only ever sees data that opened, under the keys of a session in use, as application data of that session:
for every other packet the outcome does not depend on what the application would do.
Missing from the full property: the session need not be in its application phase (`C46_handshake_data_violated`). -/
theorem C46_only_session_data_partial (c : Ctx) (rx : Bytes) :
    (∀ f, processMessage (withApp e f) rx c = processMessage e rx c) ∨
    ∃ sid s msg c1, Opens e rx c sid msg true c1 ∧ c.session? sid = some s ∧ s.state ≠ .notStarted := by
  cases hd : Ctx.intoBuf2 (e.tr.decap rx) 4160 with
  | panic => left; intro f; unfold processMessage; simp [withApp, hd, Res.lift, M.mapErr]
  | err st => left; intro f; unfold processMessage; simp [withApp, hd, Res.lift, M.mapErr]
  | ok p =>
    obtain ⟨pkt, sec⟩ := p
    cases sec with
    | false =>
      left; intro f; unfold processMessage
      have : (withApp e f).tr = e.tr := rfl
      simp [this, hd, Res.lift, M.mapErr, dispatch_app]
    | true =>
      have hr : received e rx = some (pkt, true) := by unfold received; rw [hd]
      have hgo : ∀ f, (withApp e f).tr = e.tr := fun _ => rfl
      cases ho : openSecured e pkt c with
      | panic => left; intro f; unfold processMessage; simp [hgo, hd, Res.lift, M.mapErr, openSecured_app, ho]
      | err st c1 => left; intro f; unfold processMessage; simp [hgo, hd, Res.lift, M.mapErr, openSecured_app, ho]
      | ok r c1 =>
        obtain ⟨sid, msg, isApp⟩ := r
        cases isApp with
        | false =>
          left; intro f; unfold processMessage
          simp [hgo, hd, Res.lift, M.mapErr, openSecured_app, ho, dispatchSecured_app]
        | true =>
          have h : Opens e rx c sid msg true c1 := ⟨pkt, hr, ho⟩
          obtain ⟨_, s, hs, hn, _⟩ := h.eq
          exact .inr ⟨sid, s, msg, c1, h, hs, hn⟩

/-- the packets sent so far, after a packet that was processed. -/
def sentAfter (e : Env) (rx : Bytes) (c : Ctx) : Option (List Bytes) :=
  match processMessage e rx c with
  | .ok true c' => some c'.sent
  | _ => none

/-- a packet that opens as an SPDM message is handed to the dispatcher of its session. -/
theorem Opens.process {rx : Bytes} {c c1 : Ctx} {sid : UInt32} {msg : Bytes} (h : Opens e rx c sid msg false c1) :
    processMessage e rx c = isOk (dispatchSecured e sid msg) c1 := by
  obtain ⟨pkt, h1, h2⟩ := h
  have hd : Ctx.intoBuf2 (e.tr.decap rx) 4160 = .ok (pkt, true) := by
    unfold received at h1
    split at h1
    · rename_i p hp; cases h1; exact hp
    · simp at h1
  unfold processMessage
  simp [hd, Res.lift, M.mapErr, h2]

/-- The full property fails: application data protected by the handshake keys of a session that was never finished reaches
the application, and its answer is sent back. -/
theorem C46_handshake_data_violated :
    ∃ (c : Ctx) (rx : Bytes) (s : Session), c.session? 0xFFFD0007 = some s ∧ s.state = .handshaking ∧
      (sentAfter (withApp Toy.env fun _ b => some (b ++ [0xAA, 0xBB])) rx c).map (·.length) = some (c.sent.length + 1) ∧
      sentAfter (withApp Toy.env fun _ b => some (b ++ [0xAA, 0xBB])) rx c ≠ sentAfter (withApp Toy.env fun _ b => some (b ++ [0xCC, 0xDD])) rx c :=
  ⟨{ Toy.negotiated with sessions := [toyHandshake] }, sealedFor toyHandshake [9, 0x12, 0x99, 1, 2], toyHandshake, by decide +kernel, rfl, by decide +kernel, by decide +kernel⟩

end Verif.Props
