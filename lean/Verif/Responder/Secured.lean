/-
What the responder does to its context while handling a message of a session.
-/
import Verif.Responder.Codes

namespace Verif

/-- a free session slot: everything but the remembered certificate slot number has its initial value. -/
def Session.Erased (s : Session) : Prop := ∃ slot, s = { Session.new with slotId := slot }

/-- only the session(s) with id `sid` changed; the connection is as before; packets were only added. -/
structure SecOnly (sid : UInt32) (c c' : Ctx) : Prop where
  config : c'.config = c.config
  neg : c'.neg = c.neg
  state : c'.rt.state = c.rt.state
  last : c'.rt.lastSession = c.rt.lastSession
  messageA : c'.rt.messageA = c.rt.messageA
  prov : c'.prov = c.prov
  peer : c'.peer = c.peer
  sent : c.sent <+: c'.sent
  sessions : All2 (fun s s' => s' = s ∨ (s.id = sid ∧ (s'.id = sid ∨ s'.Erased))) c.sessions c'.sessions

theorem SecOnly.refl (sid : UInt32) (c : Ctx) : SecOnly sid c c :=
  ⟨rfl, rfl, rfl, rfl, rfl, rfl, rfl, List.prefix_refl _, All2.refl (fun _ => .inl rfl) _⟩

instance (sid : UInt32) : M.Pre (SecOnly sid) where
  refl := SecOnly.refl sid
  trans h h' := ⟨h'.config.trans h.config, h'.neg.trans h.neg, h'.state.trans h.state, h'.last.trans h.last,
    h'.messageA.trans h.messageA, h'.prov.trans h.prov, h'.peer.trans h.peer, h.sent.trans h'.sent,
    All2.trans (by
      rintro a b c (rfl | ⟨h1, h2⟩) (rfl | ⟨h3, h4⟩)
      · exact .inl rfl
      · exact .inr ⟨h3, h4⟩
      · exact .inr ⟨h1, h2⟩
      · exact .inr ⟨h1, h4⟩) h.sessions h'.sessions⟩

theorem Frame.secOnly {sid : UInt32} {c c' : Ctx} (h : Frame true (some sid) c c') : SecOnly sid c c' :=
  ⟨h.config, h.neg rfl, h.state, h.last, h.messageA rfl, h.prov rfl, h.peer, h.sent, All2.imp (by
    rintro a b (rfl | ⟨h1, h2⟩)
    · exact .inl rfl
    · have : a.id = sid := by simpa using h1.symm
      exact .inr ⟨this, .inl (by rw [h2.1, this])⟩) h.sessions⟩

namespace Rsp
variable {e : Env} {sid : UInt32}

theorem rel_frame {α ε : Type} {x : M ε Ctx α} (h : M.Rel (Frame true (some sid)) x) : M.Rel (SecOnly sid) x := h.mono fun _ _ h => h.secOnly

/-! ### Handshake building blocks -/

theorem rel_encodeMsgRsp (k : ReqRespCode) (p : Payload) : M.Rel (Frame true (some sid)) (encodeMsgRsp k p) :=
  M.Rel.mapErr _ (rel_encodeRsp k p)

theorem rel_readMsg {α : Type} (x : Cc → Rd α) (bytes : Bytes) (r : Reader) : M.Rel (Frame true (some sid)) (readMsg x bytes r) := by
  unfold readMsg; rel

theorem rel_appendK (msg : Bytes) : M.Rel (Frame true (some sid)) (Ctx.appendK e sid msg) := by
  intro c
  unfold Ctx.appendK
  simp only [M.wp_bind, M.wp_get]
  split
  · trivial
  · split
    · exact Ctx.frame_updSession c _ _ fun _ _ => ⟨rfl, rfl, rfl, rfl⟩
    · split
      · exact M.Pre.refl c
      · exact Ctx.frame_updSession c _ _ fun _ _ => ⟨rfl, rfl, rfl, rfl⟩

theorem rel_appendF (isReq : Bool) (msg : Bytes) : M.Rel (Frame true (some sid)) (Ctx.appendF e isReq sid msg) := by
  intro c
  unfold Ctx.appendF
  simp only [M.wp_bind, M.wp_get]
  split
  · trivial
  · split
    · exact M.Pre.refl c
    · split
      · exact Ctx.frame_updSession c _ _ fun _ _ => ⟨rfl, rfl, rfl, rfl⟩
      · rw [M.wp_bind]
        unfold M.wp
        cases Ctx.mutDigest e isReq c _
        · exact Ctx.frame_updSession c _ _ fun _ _ => ⟨rfl, rfl, rfl, rfl⟩
        · exact M.Pre.refl c
        · trivial

theorem rel_addK (msg : Bytes) : M.Rel (Frame true (some sid)) (addK e sid msg) := M.Rel.mapErr _ (rel_appendK msg)
theorem rel_addF (msg : Bytes) : M.Rel (Frame true (some sid)) (addF e sid msg) := M.Rel.mapErr _ (rel_appendF false msg)
theorem rel_thOf {k : Bool} {o : Option UInt32} (i : UInt32) : M.Rel (Frame k o) (thOf e i) := by
  unfold thOf; rel
theorem rel_finishStart (bytes : Bytes) : M.Rel (Frame true (some sid)) (finishStart bytes) := by
  unfold finishStart; rel
theorem rel_finishMutAuth (m : Finish) : M.Rel (Frame true (some sid)) (finishMutAuth e sid m) := by
  unfold finishMutAuth
  have := fun m => rel_addF (e := e) (sid := sid) m
  rel
  exact this _
theorem rel_checkHmac (mac : Bytes) : M.Rel (Frame true (some sid)) (checkHmac e sid mac) := by
  unfold checkHmac
  have h1 := rel_thOf (e := e) (k := true) (o := some sid) sid
  have h2 := rel_addF (e := e) (sid := sid) mac
  rel
theorem rel_finishAnswer : M.Rel (Frame true (some sid)) (finishAnswer e sid) := by
  unfold finishAnswer
  have h1 := rel_thOf (e := e) (k := true) (o := some sid) sid
  rel
  all_goals first | exact rel_encodeMsgRsp _ _ | exact rel_addF _
theorem rel_deriveData : M.Rel (Frame true (some sid)) (deriveData e sid) := by
  unfold deriveData
  have h1 := rel_thOf (e := e) (k := true) (o := some sid) sid
  rel
  exact Ctx.rel_onSession _ _ _ M.Rel.panic (Session.keep_genData _ _ _)

theorem rel_finishRsp (bytes : Bytes) : M.Rel (Frame true (some sid)) (finishRsp e sid bytes) := by
  unfold finishRsp
  have h1 := rel_finishAnswer (e := e) (sid := sid)
  have h2 := rel_deriveData (e := e) (sid := sid)
  have h3 := rel_finishStart (sid := sid) bytes
  rel
  all_goals first | exact Ctx.rel_resetBuffers _ | exact rel_readMsg _ _ _ | exact rel_addF _ | exact rel_finishMutAuth _ | exact rel_checkHmac _

theorem rel_pskFinishRsp (bytes : Bytes) : M.Rel (Frame true (some sid)) (pskFinishRsp e sid bytes) := by
  unfold pskFinishRsp
  have h2 := rel_deriveData (e := e) (sid := sid)
  have h3 := rel_finishStart (sid := sid) bytes
  rel
  all_goals first | exact Ctx.rel_resetBuffers _ | exact rel_readMsg _ _ _ | exact rel_addF _ | exact rel_checkHmac _ | exact rel_encodeMsgRsp _ _

/-! ### Sending in a session -/

theorem updFirst_secOnly (c : Ctx) (f : Session → Session) (h : ∀ s, c.session? sid = some s → (f s).id = sid ∨ (f s).Erased) :
    SecOnly sid c (c.updSession sid f) := by
  refine ⟨rfl, rfl, rfl, rfl, rfl, rfl, rfl, List.prefix_refl _, ?_⟩
  unfold Ctx.session? at h
  unfold Ctx.updSession
  generalize c.sessions = l at h
  induction l with
  | nil => exact .nil
  | cons a l ih =>
    unfold Ctx.updFirst
    by_cases hp : a.id = sid
    · simp only [hp, decide_true, if_true]
      exact .cons (.inr ⟨hp, h a (by simp [hp])⟩) (All2.refl (fun _ => .inl rfl) _)
    · simp only [hp, decide_false]
      exact .cons (.inl rfl) (ih fun s hs => h s (by simp [hp, hs]))

theorem session?_id {c : Ctx} {i : UInt32} {s : Session} (h : c.session? i = some s) : s.id = i := by
  have := List.find?_some h
  simpa using this

theorem rel_teardown : M.Rel (SecOnly sid) (Ctx.onSession sid M.panic (Session.teardown sid)) := by
  intro c
  unfold Ctx.onSession
  simp only [M.wp_bind, M.wp_get]
  split
  · trivial
  · rename_i s hs
    simp only [Session.teardown, M.bind_apply, M.get_apply, session?_id hs, if_true, M.set_apply]
    exact updFirst_secOnly c _ fun _ _ => .inr ⟨_, rfl⟩

theorem rel_setPhase (st : SessState) : M.Rel (SecOnly sid) (Ctx.onSession sid M.panic (M.modify fun s => { s with state := st })) := by
  intro c
  unfold Ctx.onSession
  simp only [M.wp_bind, M.wp_get]
  split
  · trivial
  · rename_i s hs
    simp only [M.modify_apply]
    have hid := session?_id hs
    exact updFirst_secOnly c _ fun _ _ => .inl hid

theorem rel_afterSecured (op : UInt8) : M.Rel (SecOnly sid) (afterSecured sid op) := by
  unfold afterSecured
  exact M.Rel.ite (fun _ => rel_teardown) fun _ => M.Rel.ite (fun _ => rel_setPhase _) fun _ => M.Rel.pure _

theorem rel_sendSecuredPlain (msg : Bytes) (isApp : Bool) : M.Rel (SecOnly sid) (sendSecuredPlain e sid msg isApp) := by
  unfold sendSecuredPlain
  refine M.Rel.bind (rel_frame (Ctx.rel_encodeSecured _ _ _ _)) fun pkt => M.Rel.bind (rel_frame (Ctx.rel_devSend _)) fun _ =>
    M.Rel.bind (M.Rel.unwrap _) fun op => rel_afterSecured _

/-- whatever is sent in a session affects only that session. -/
theorem rel_sendSecured (msg : Bytes) (isApp : Bool) : M.Rel (SecOnly sid) (sendSecured e sid msg isApp) := by
  unfold sendSecured
  have := fun m => rel_sendSecuredPlain (e := e) (sid := sid) m isApp
  rel <;> exact this _

theorem rel_reply_frame {x : H Bytes} (h : M.Rel (Frame true (some sid)) x) : M.Rel (SecOnly sid) (reply x) := rel_frame (rel_reply h)

/-- `x` answers in session `sid` and touches nothing else. -/
theorem rel_answer {x : H Bytes} (h : M.Rel (Frame true (some sid)) x) (isApp : Bool) :
    M.Rel (SecOnly sid) (do let b ← reply x; sendSecured e sid b isApp) :=
  M.Rel.bind (rel_reply_frame h) fun _ => rel_sendSecured _ _

theorem rel_handleError_sec (code : ErrorCode) (bytes : Bytes) : M.Rel (SecOnly sid) (handleError e code (some sid) bytes) :=
  rel_answer (rel_errorResponse code bytes) false

theorem rel_dispatchApplication (bytes : Bytes) : M.Rel (SecOnly sid) (dispatchApplication e sid bytes) := by
  unfold dispatchApplication
  refine M.Rel.bind (M.Rel.lift _) fun ⟨h, r⟩ => ?_
  dsimp only
  split
  case h_2 => exact rel_answer (rel_certificateRsp bytes) false
  case h_1 => exact rel_answer (rel_digestRsp bytes) false
  case h_3 => exact rel_answer (rel_measurementRsp bytes) false
  case h_4 => exact rel_answer (rel_heartbeatRsp sid bytes) false
  case h_5 => exact rel_answer (rel_keyUpdateRsp sid bytes) false
  case h_6 => exact rel_answer (rel_endSessionRsp sid bytes) false
  case h_7 => exact rel_answer (rel_vendorRsp bytes) false
  all_goals first | exact rel_handleError_sec _ _ | exact M.Rel.fail _

theorem rel_dispatchHandshake (bytes : Bytes) : M.Rel (SecOnly sid) (dispatchHandshake e sid bytes) := by
  intro c
  unfold dispatchHandshake
  rw [M.wp_bind, M.wp_get, M.wp_ite]
  refine ⟨fun _ => SecOnly.refl _ _, fun hclear => ?_⟩
  rw [M.wp_bind]
  cases hr : Res.read .unsupportedCap Header.read (Reader.init bytes) with
  | err st => exact SecOnly.refl _ _
  | panic => trivial
  | ok h =>
    obtain ⟨h, r⟩ := h
    rw [M.wp]
    simp only [Res.lift]
    split
    · unfold handleFinish
      rw [M.wp_bind, M.wp_get]
      refine M.wp.bind (rel_frame (rel_finishRsp bytes) c) fun b c1 h1 => ?_
      rw [if_neg hclear]
      exact (rel_sendSecured b false c1).mono (fun _ _ h => M.Pre.trans h1 h) fun _ _ h => M.Pre.trans h1 h
    · unfold handlePskFinish
      exact M.Rel.bind (rel_frame (rel_pskFinishRsp bytes)) (fun _ => rel_sendSecured _ _) c
    · exact rel_answer (rel_vendorRsp bytes) false c
    all_goals first | exact rel_handleError_sec _ _ c | exact SecOnly.refl _ _

theorem rel_dispatchSecured (bytes : Bytes) : M.Rel (SecOnly sid) (dispatchSecured e sid bytes) := by
  unfold dispatchSecured
  refine M.Rel.bind M.Rel.get fun c => ?_
  split
  · exact M.Rel.fail _
  · split
    · exact rel_dispatchHandshake _
    · exact rel_dispatchApplication _
    · exact M.Rel.fail _

theorem rel_dispatchApp (bytes : Bytes) : M.Rel (SecOnly sid) (dispatchApp e sid bytes) := by
  unfold dispatchApp
  exact M.Rel.bind (M.Rel.unwrap _) fun _ => rel_sendSecured _ _

theorem rel_isOk {ε : Type} {R : Ctx → Ctx → Prop} {x : M Status Ctx Unit} (h : M.Rel R x) : M.Rel R (isOk x : M ε Ctx Bool) := by
  intro c
  have := h c
  unfold M.wp at this ⊢
  unfold isOk
  cases hx : x c <;> rw [hx] at this <;> first | exact this | trivial

end Rsp
end Verif
