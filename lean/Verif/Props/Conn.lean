/-
C24: order of requests outside a session.  C25: GET_VERSION restarts.  C27: requests per session phase.  C28: sessions are
independent.  C39: error responses.
-/
import Verif.Responder.Process
import Verif.Spec.ToyRun

namespace Verif.Props
open Verif.Rsp

variable {e : Env}

/-- the four-byte ERROR message. -/
def errorOf (c : Ctx) (code data : UInt8) : Bytes := [c.neg.version.get, 0x7F, code, data]

/-- the toy provider returns digests of the right size, so `HashLaw` can be met. -/
theorem toy_hashLaw : HashLaw Toy.env := by
  intro a d h hh
  have : (BaseHash.size? a).map (fun n => Toy.digest n d) = some h := hh
  cases hs : BaseHash.size? a with
  | none => rw [hs] at this; simp at this
  | some n => rw [hs] at this; cases this; rw [Toy.digest_length]

/-! ### C24 -/

/-- A request that comes too early is answered with an UnexpectedRequest error (code 4) and nothing else happens. -/
theorem C24_too_early (c : Ctx) (v k : UInt8) (t : Bytes) (h : Spec.tooEarly k c.rt.state = true) :
    dispatch e (v :: k :: t) c = sendMessage e (errorOf c 4 0) c := by
  rw [dispatch_cons]
  unfold Spec.tooEarly at h
  have hr : ∀ {x : H Bytes}, x c = .err { code := .unexpectedRequest } c →
      (do let b ← reply x; sendMessage e b : M Status Ctx Unit) c = sendMessage e (errorOf c 4 0) c := fun hx => refused_eq hx
  split at h
  · rename_i hk; subst hk
    exact hr (capabilityRsp_early (by simpa using h))
  split at h
  · rename_i hk; subst hk
    exact hr (algorithmRsp_early (by simpa using h))
  split at h
  · rename_i hk
    have h : Spec.ready c.rt.state = false := by simpa using h
    rcases hk with rfl | rfl | rfl | rfl
    · exact hr (digestRsp_early h)
    · exact hr (certificateRsp_early h)
    · exact hr (challengeRsp_early h)
    · exact hr (measurementRsp_early h)
  · simp at h

/-- The only effect of such a request is the packet sent. -/
theorem C24_too_early_effect (c c' : Ctx) (v k : UInt8) (t : Bytes) (h : Spec.tooEarly k c.rt.state = true)
    (hr : dispatch e (v :: k :: t) c = .ok () c' ∨ ∃ st, dispatch e (v :: k :: t) c = .err st c') :
    c' = c ∨ ∃ pkt, c' = { c with sent := c.sent ++ [pkt] } := by
  rw [C24_too_early c v k t h] at hr
  have hw := sendMessage_error_any (e := e) (b := errorOf c 4 0) ⟨_, _, rfl⟩ c
  rcases hr with hr | ⟨st, hr⟩
  · exact hw.ok hr
  · exact hw.err hr

/-- KEY_EXCHANGE and PSK_EXCHANGE before negotiation are refused without effect; no answer is sent. -/
theorem C24_exchange_too_early (c : Ctx) (v k : UInt8) (t : Bytes) (h : Spec.exchangeTooEarly k c.rt.state = true) :
    dispatch e (v :: k :: t) c = .err .invalidStatePeer c := by
  rw [dispatch_cons]
  unfold Spec.exchangeTooEarly at h
  simp only [Bool.and_eq_true, decide_eq_true_eq, Bool.not_eq_true'] at h
  obtain ⟨hk, h⟩ := h
  have hlt : c.rt.state.code < ConnState.negotiated.code := by
    by_cases h' : c.rt.state.code < ConnState.negotiated.code
    · exact h'
    · rw [(ready_code _).2 h'] at h; simp at h
  rcases hk with rfl | rfl
  · show handleKeyExchange e _ c = _
    simp [handleKeyExchange, keyExchangeRsp, exchangeStart, hlt]
  · show handlePskExchange e _ c = _
    simp [handlePskExchange, pskExchangeRsp, exchangeStart, hlt]

/-- One packet moves the connection state only along the edges of the specification, and only a plain message does. -/
theorem C24_moves (hl : HashLaw e) (rx : Bytes) (c c' : Ctx)
    (hr : (∃ b, processMessage e rx c = .ok b c') ∨ processMessage e rx c = .err () c') :
    c'.rt.state = c.rt.state ∨ ∃ v k t, Plain e rx (v :: k :: t) ∧ Spec.Moves k c.rt.state c'.rt.state := by
  have hs : Step e rx c c' := by
    rcases hr with ⟨b, hr⟩ | hr
    · exact (process_step hl rx c).ok hr
    · exact (process_step hl rx c).err hr
  rcases hs with h | ⟨v, k, t, hp, h⟩ | ⟨sid, _, _, h⟩
  · rw [h]; exact .inl rfl
  · exact .inr ⟨v, k, t, hp, h.conn⟩
  · exact .inl h.state

/-- the request codes of the plain messages in a history. -/
def codes (h : List (Env × Bytes)) : List UInt8 :=
  h.filterMap fun p => match received p.1 p.2 with
    | some (_ :: k :: _, false) => some k
    | _ => none

/-- the requests that must have come, in this order, before a connection can be in that state. -/
def prelude : ConnState → List UInt8
  | .notStarted => []
  | .afterVersion => [0x84]
  | .afterCapabilities => [0x84, 0xE1]
  | .negotiated | .afterDigest | .afterCertificate | .authenticated => [0x84, 0xE1, 0xE3]

theorem prelude_ready {st : ConnState} (h : Spec.ready st = true) : prelude st = [0x84, 0xE1, 0xE3] := by
  cases st <;> first | rfl | simp [Spec.ready] at h

theorem codes_snoc (h : List (Env × Bytes)) (e : Env) (rx : Bytes) (v k : UInt8) (t : Bytes) (hp : Plain e rx (v :: k :: t)) :
    codes (h ++ [(e, rx)]) = codes h ++ [k] := by
  unfold Plain at hp
  simp [codes, List.filterMap_append, hp]

theorem codes_prefix (h : List (Env × Bytes)) (p : Env × Bytes) : (codes h).Sublist (codes (h ++ [p])) := by
  unfold codes
  rw [List.filterMap_append]
  exact List.sublist_append_left _ _

/-- In every history the connection is past a negotiation step only if the requests of all steps up to it were received in
order. -/
theorem C24_history (c0 c : Ctx) (h : List (Env × Bytes)) (h0 : c0.rt.state = .notStarted) (hr : Run c0 h c)
    (hl : ∀ p ∈ h, HashLaw p.1) : (prelude c.rt.state).Sublist (codes h) := by
  refine Run.induct (P := fun h c => (prelude c.rt.state).Sublist (codes h)) ?_ ?_ hr hl
  · rw [h0]; exact List.Sublist.refl _
  · intro h e rx c c' _ _ ih hs
    have keep : c'.rt.state = c.rt.state → (prelude c'.rt.state).Sublist (codes (h ++ [(e, rx)])) := fun g => by
      rw [g]; exact ih.trans (codes_prefix h _)
    rcases hs with g | ⟨v, k, t, hp, g⟩ | ⟨sid, _, _, g⟩
    · rw [g]; exact ih.trans (codes_prefix h _)
    · have hm := g.conn
      rw [codes_snoc h e rx v k t hp]
      have mono : (prelude c.rt.state).Sublist (codes h ++ [k]) := ih.trans (List.sublist_append_left _ _)
      generalize c'.rt.state = st' at hm
      generalize c.rt.state = st at hm ih mono
      cases hm with
      | stay => exact mono
      | version _ hk => subst hk; exact List.sublist_append_right _ _
      | versionUnsent _ hk => exact List.nil_sublist _
      | capabilities hk => subst hk; exact List.Sublist.append ih (List.Sublist.refl [0xE1])
      | algorithms hk => subst hk; exact List.Sublist.append ih (List.Sublist.refl [0xE3])
      | digests _ hk hready => rw [prelude_ready hready] at mono; exact mono
      | certificate _ hk hready => rw [prelude_ready hready] at mono; exact mono
      | challenge _ hk hready => rw [prelude_ready hready] at mono; exact mono
    · exact keep g.state

/-- A positive answer to any of these requests is only ever sent when the connection allows the request: the first packet
handed to the device by a refused request is the ERROR message (unless even that does not fit the requester's buffer). -/
theorem C24_answer_is_error (c c' : Ctx) (v k : UInt8) (t : Bytes) (h : Spec.tooEarly k c.rt.state = true)
    (hs : dispatch e (v :: k :: t) c = .ok () c') :
    ∃ pkt, c' = { c with sent := c.sent ++ [pkt] } ∧
      (Ctx.encap e (errorOf c 4 0) = .ok pkt ∨ Ctx.encap e (errorOf c 0x0D 0) = .ok pkt) := by
  rw [C24_too_early c v k t h] at hs
  obtain ⟨pkt, h1, h2, rfl⟩ := (sendMessage_error_wp (e := e) (b := errorOf c 4 0) ⟨_, _, rfl⟩ c).ok hs
  refine ⟨pkt, rfl, ?_⟩
  unfold outgoing at h1
  split at h1
  · exact .inr h1
  · exact .inl h1

/-- concrete histories: a complete negotiation, and one with the steps swapped. -/
example : Toy.negotiated.rt.state = .negotiated := by decide +kernel
example : ((Toy.runAll Toy.env Toy.ctx0 [Toy.version, Toy.algorithms, Toy.capabilities]).map fun c => (c.rt.state, c.sent[1]?)) =
    some (.afterCapabilities, some [5, 0, 0x7F, 4, 0]) := by decide +kernel
example : Spec.tooEarly 0xE3 Toy.ctx0.rt.state = true ∧ Spec.exchangeTooEarly 0xE4 Toy.ctx0.rt.state = true := by decide +kernel

/-! ### C25 -/

/-- the VERSION response to be sent. -/
def versionAnswer (c : Ctx) : Bytes :=
  [0x10, 0x04, 0, 0, 0, 3, 0, c.config.version0.get, 0, c.config.version1.get, 0, c.config.version2.get]

/-- the state after a restart: no session, no negotiated parameter, no peer data, no transcript but the version exchange. -/
structure Restarted (req : Bytes) (c c' : Ctx) : Prop where
  no_session : ∀ s ∈ c'.sessions, s.id = 0 ∧ s.state = .notStarted
  erased : ∀ s ∈ c'.sessions, ∃ slot, s = { (({} : Session)) with slotId := slot }
  capacity : c'.sessions.length = c.sessions.length
  negotiated : c'.neg = {}
  transcript : c'.rt.messageA = req ++ versionAnswer c
  no_m1m2 : c'.rt.m1m2 = none
  no_l1l2 : c'.rt.l1l2 = none
  last : c'.rt.lastSession = none
  peer : c'.peer = {}
  config : c'.config = c.config
  prov : c'.prov = c.prov

theorem fresh_restarted (c : Ctx) (req : Bytes) : Restarted req c (fresh c req) := by
  refine ⟨?_, ?_, ?_, rfl, rfl, rfl, rfl, rfl, rfl, rfl, rfl⟩
  · intro s hs
    simp only [fresh, Ctx.reset, List.mem_map] at hs
    obtain ⟨a, _, rfl⟩ := hs
    exact ⟨rfl, rfl⟩
  · intro s hs
    simp only [fresh, Ctx.reset, List.mem_map] at hs
    obtain ⟨a, _, rfl⟩ := hs
    exact ⟨a.slotId, rfl⟩
  · simp [fresh, Ctx.reset]

/-- A well-formed GET_VERSION restarts the responder whatever happened before; the VERSION response is the one packet sent,
and the connection state is that after GET_VERSION exactly if the device accepted it. -/
theorem C25_restart (c : Ctx) (p1 p2 : UInt8) (t rx : Bytes) (hp : Plain e rx (0x10 :: 0x84 :: p1 :: p2 :: t)) :
    (processMessage e rx).wp c
      (fun ok c' => Restarted [0x10, 0x84, p1, p2] c c' ∧
        (ok = true → c'.rt.state = .afterVersion ∧ ∃ pkt, Ctx.encap e (versionAnswer c) = .ok pkt ∧ c'.sent = c.sent ++ [pkt]) ∧
        (ok = false → c'.rt.state = .notStarted))
      (fun _ _ => False) := by
  have hf := fresh_restarted c [0x10, 0x84, p1, p2]
  have hd : dispatch e (0x10 :: 0x84 :: p1 :: p2 :: t) c = sendPlain e (versionBytes c.config) (fresh c [0x10, 0x84, p1, p2]) := by
    rw [dispatch_cons]; exact handleVersion_ok p1 p2 t c
  have hw := sendPlain_wp (e := e) (b := versionBytes c.config) (code := 0x04) ⟨_, _, rfl⟩ (by decide) (fresh c [0x10, 0x84, p1, p2])
  rw [M.wp, process_plain rx hp]
  unfold isOk
  rw [hd]
  rw [M.wp] at hw
  cases hx : sendPlain e (versionBytes c.config) (fresh c [0x10, 0x84, p1, p2]) with
  | ok a c' =>
    rw [hx] at hw
    obtain ⟨pkt, h1, _, rfl⟩ := hw
    exact ⟨⟨hf.no_session, hf.erased, hf.capacity, rfl, rfl, rfl, rfl, rfl, rfl, rfl, rfl⟩, fun _ => ⟨rfl, pkt, h1, rfl⟩, fun h => by simp at h⟩
  | err a c' =>
    rw [hx] at hw
    rcases hw with rfl | ⟨pkt, _, rfl⟩
    · exact ⟨hf, fun h => by simp at h, fun _ => rfl⟩
    · exact ⟨⟨hf.no_session, hf.erased, hf.capacity, rfl, rfl, rfl, rfl, rfl, rfl, rfl, rfl⟩, fun h => by simp at h, fun _ => rfl⟩
  | panic => trivial

/-- A malformed GET_VERSION (other version, or too short) changes no session, parameter, state or transcript A. -/
theorem C25_malformed (c : Ctx) (v : UInt8) (t rx : Bytes) (hp : Plain e rx (v :: 0x84 :: t)) (hbad : v ≠ 0x10 ∨ t.length < 2) :
    (processMessage e rx).wp c
      (fun _ c' => c'.sessions = c.sessions ∧ c'.neg = c.neg ∧ c'.rt.state = c.rt.state ∧ c'.rt.messageA = c.rt.messageA ∧ c'.peer = c.peer ∧ c'.prov = c.prov)
      (fun _ _ => False) := by
  obtain ⟨code, c1, hf, hx⟩ := versionRsp_bad v t c (by
    rintro ⟨h1, h2⟩
    rcases hbad with h | h
    · exact h h1
    · omega)
  have hd : dispatch e (v :: 0x84 :: t) c = sendMessage e (errorBytes c1.neg.version code 0) c1 := by
    rw [dispatch_cons]
    show handleVersion e _ c = _
    simp only [handleVersion, M.bind_apply, reply, hx, writeError_nil c1 { code := code } rfl]
  have hs := loc_none_eq hf.sessions
  rw [M.wp, process_plain rx hp]
  unfold isOk
  rw [hd]
  have hw := sendMessage_error_any (e := e) (starts_error c1.neg.version code 0) c1
  rw [M.wp] at hw
  have fin : ∀ c', Sent c1 c' → c'.sessions = c.sessions ∧ c'.neg = c.neg ∧ c'.rt.state = c.rt.state ∧ c'.rt.messageA = c.rt.messageA ∧ c'.peer = c.peer ∧ c'.prov = c.prov := by
    intro c' h
    obtain ⟨_, _, g3, g4, g5, g6, g7⟩ := h.rel
    exact ⟨g4.trans hs, g5.trans (hf.neg rfl), by rw [g3, hf.state], by rw [g3, hf.messageA rfl], g7.trans hf.peer, g6.trans (hf.prov rfl)⟩
  cases hy : sendMessage e (errorBytes c1.neg.version code 0) c1 <;> rw [hy] at hw
  · exact fin _ hw
  · exact fin _ hw
  · trivial

/-- a restart in the middle of a connection with negotiated parameters. -/
example : ((Toy.runAll Toy.env Toy.ctx0 [Toy.version, Toy.capabilities, Toy.algorithms, Toy.version]).map fun c =>
    (c.rt.state, c.neg.baseHash, c.rt.messageA.length)) = some (.afterVersion, 0, 16) := by decide +kernel

/-! ### C28 -/

/-- A secured packet for session `sid` changes at most the session with that id; the other sessions, the connection state,
the negotiated parameters, the provisioning and transcript A stay as they are. -/
theorem C28_isolated (c c' : Ctx) (rx : Bytes) (sid : UInt32) (h : SecuredFor e rx sid)
    (hr : (∃ b, processMessage e rx c = .ok b c') ∨ processMessage e rx c = .err () c') :
    (∀ (i : Nat) (s : Session), c.sessions[i]? = some s → s.id ≠ sid → c'.sessions[i]? = some s) ∧
    c'.sessions.length = c.sessions.length ∧ c'.rt.state = c.rt.state ∧ c'.neg = c.neg ∧ c'.rt.messageA = c.rt.messageA ∧
    c'.rt.lastSession = c.rt.lastSession ∧ c'.prov = c.prov ∧ c'.peer = c.peer ∧ c'.config = c.config := by
  have hrec : ∃ p, received e rx = some (p, true) := by
    obtain ⟨a, b, c, d, t, h, _⟩ := h
    exact ⟨_, h⟩
  obtain ⟨p, hrec⟩ := hrec
  have hs : c' = c ∨ ∃ sid, SecuredFor e rx sid ∧ InUse c sid ∧ SecOnly sid c c' := by
    rcases hr with ⟨b, hr⟩ | hr
    · exact (process_secured rx hrec c).ok hr
    · exact (process_secured rx hrec c).err hr
  rcases hs with rfl | ⟨j, hj, _, hs⟩
  · exact ⟨fun _ _ h _ => h, rfl, rfl, rfl, rfl, rfl, rfl, rfl, rfl⟩
  · obtain rfl := h.unique hj
    refine ⟨?_, hs.sessions.length_eq, hs.state, hs.neg, hs.messageA, hs.last, hs.prov, hs.peer, hs.config⟩
    intro i s hi hne
    have hlt : i < c.sessions.length := by
      by_cases hlt : i < c.sessions.length
      · exact hlt
      · simp [List.getElem?_eq_none (Nat.le_of_not_lt hlt)] at hi
    have hlt' : i < c'.sessions.length := by rw [hs.sessions.length_eq]; exact hlt
    have := hs.sessions.get i hlt hlt'
    have hsi : c.sessions[i] = s := by simpa [List.getElem?_eq_getElem hlt] using hi
    rcases this with g | ⟨g, _⟩
    · rw [List.getElem?_eq_getElem hlt', g, hsi]
    · rw [hsi] at g; exact absurd g hne

/-- In every history, a session is untouched by secured packets for other sessions. -/
theorem C28_history (c0 c : Ctx) (h : List (Env × Bytes)) (hr : Run c0 h c) (i : Nat) (s : Session) (hi : c0.sessions[i]? = some s)
    (hall : ∀ p ∈ h, ∃ sid, SecuredFor p.1 p.2 sid ∧ s.id ≠ sid) : c.sessions[i]? = some s := by
  induction hr with
  | nil => exact hi
  | ok _ hp ih =>
    rename_i h e rx c b c' _
    obtain ⟨sid, h1, h2⟩ := hall (e, rx) (by simp)
    exact (C28_isolated c c' rx sid h1 (.inl ⟨b, hp⟩)).1 i s (ih fun p hp => hall p (by simp [hp])) h2
  | err _ hp ih =>
    rename_i h e rx c b c' _
    obtain ⟨sid, h1, h2⟩ := hall (e, rx) (by simp)
    exact (C28_isolated c c' rx sid h1 (.inr hp)).1 i s (ih fun p hp => hall p (by simp [hp])) h2

/-- two established sessions, a HEARTBEAT for the first. -/
def twoSessions : Ctx :=
  { Toy.negotiated with sessions := [Toy.sess 0, { Toy.sess 0 with id := 0xFFFC0008 }] }

/-- HEARTBEAT (E8) sealed for session FFFD0007. -/
def heartbeatPacket : Bytes :=
  match Session.encodeSecured Toy.crypto [8, 0x12, 0xE8, 0, 0] 4160 true (Toy.sess 0) with
  | .ok b _ => 6 :: b
  | _ => []

example : SecuredFor Toy.env heartbeatPacket 0xFFFD0007 := by
  refine ⟨7, 0, 0xFD, 0xFF, (heartbeatPacket.drop 5), ?_, by decide⟩
  decide +kernel
example : (match processMessage Toy.env heartbeatPacket twoSessions with
    | .ok b c => some (b, c.sessions.map fun s => (s.id, s.app.req.seq, s.app.rsp.seq))
    | _ => none) = some (true, [(0xFFFD0007, 1, 1), (0xFFFC0008, 0, 0)]) := by decide +kernel

end Verif.Props
