/-
What KEY_EXCHANGE and PSK_EXCHANGE do to the responder's context, in particular to the session table.
-/
import Verif.Responder.Secured

namespace Verif

theorem Session.Erased.notStarted {s : Session} (h : s.Erased) : s.state = .notStarted := by obtain ⟨_, rfl⟩ := h; rfl
theorem Session.Erased.id {s : Session} (h : s.Erased) : s.id = 0 := by obtain ⟨_, rfl⟩ := h; rfl

/-- a session is unchanged unless its id is `sid`; then it keeps its id or becomes free, and unless `est` it does not enter
the application phase. -/
def Only (est : Bool) (sid : UInt32) (s s' : Session) : Prop :=
  s' = s ∨ (s.id = sid ∧ (s'.id = sid ∨ s'.Erased) ∧ (est = false → s'.state = .established → s.state = .established))

/-- the connection is as before, except for the session to finish in the clear; packets were only added; only sessions with
id `sid` changed. -/
structure ExBody (est : Bool) (sid : UInt32) (c c' : Ctx) : Prop where
  config : c'.config = c.config
  neg : c'.neg = c.neg
  state : c'.rt.state = c.rt.state
  messageA : c'.rt.messageA = c.rt.messageA
  prov : c'.prov = c.prov
  peer : c'.peer = c.peer
  sent : c.sent <+: c'.sent
  sessions : All2 (Only est sid) c.sessions c'.sessions

instance (est : Bool) (sid : UInt32) : M.Pre (ExBody est sid) where
  refl c := ⟨rfl, rfl, rfl, rfl, rfl, rfl, List.prefix_refl _, All2.refl (fun _ => .inl rfl) _⟩
  trans h h' := ⟨h'.config.trans h.config, h'.neg.trans h.neg, h'.state.trans h.state,
    h'.messageA.trans h.messageA, h'.prov.trans h.prov, h'.peer.trans h.peer, h.sent.trans h'.sent,
    All2.trans (by
      rintro a b c (rfl | ⟨h1, h2, h5⟩) (rfl | ⟨h3, h4, h6⟩)
      · exact .inl rfl
      · exact .inr ⟨h3, h4, h6⟩
      · exact .inr ⟨h1, h2, h5⟩
      · exact .inr ⟨h1, h4, fun he hc => h5 he (h6 he hc)⟩) h.sessions h'.sessions⟩

theorem Frame.exBody {est : Bool} {sid : UInt32} {c c' : Ctx} (h : Frame true (some sid) c c') : ExBody est sid c c' :=
  ⟨h.config, h.neg rfl, h.state, h.messageA rfl, h.prov rfl, h.peer, h.sent, All2.imp (by
    rintro a b (rfl | ⟨h1, h2⟩)
    · exact .inl rfl
    · have : a.id = sid := by simpa using h1.symm
      exact .inr ⟨this, .inl (by rw [h2.1, this]), fun _ hc => by rw [← h2.2.1]; exact hc⟩) h.sessions⟩

namespace Rsp
variable {e : Env} {sid : UInt32} {est : Bool}

theorem ex_frame {α ε : Type} {x : M ε Ctx α} (h : M.Rel (Frame true (some sid)) x) : M.Rel (ExBody est sid) x := h.mono fun _ _ h => h.exBody

theorem updSession_exBody (c : Ctx) (f : Session → Session) (h : ∀ s, c.session? sid = some s →
    ((f s).id = sid ∨ (f s).Erased) ∧ (est = false → (f s).state = .established → s.state = .established)) :
    ExBody est sid c (c.updSession sid f) := by
  refine ⟨rfl, rfl, rfl, rfl, rfl, rfl, List.prefix_refl _, ?_⟩
  unfold Ctx.session? at h
  unfold Ctx.updSession
  generalize c.sessions = l at h
  induction l with
  | nil => exact .nil
  | cons a l ih =>
    unfold Ctx.updFirst
    by_cases hp : a.id = sid
    · simp only [hp, decide_true, if_true]
      exact .cons (.inr ⟨hp, h a (by simp [hp])⟩) (All2.refl (fun _ => .inl rfl) _)
    · simp only [hp, decide_false]
      exact .cons (.inl rfl) (ih fun s hs => h s (by simp [hp, hs]))

theorem ex_onModify {f : Session → Session} (h : ∀ s, s.id = sid →
    ((f s).id = sid ∨ (f s).Erased) ∧ (est = false → (f s).state = .established → s.state = .established)) :
    M.Rel (ExBody est sid) (Ctx.onSession sid M.panic (M.modify f)) := by
  intro c
  unfold Ctx.onSession
  simp only [M.wp_bind, M.wp_get]
  split
  · trivial
  · rename_i s hs
    simp only [M.modify_apply]
    refine updSession_exBody c _ fun s' hs' => ?_
    rw [hs] at hs'
    cases hs'
    exact h s (session?_id hs)

theorem ex_teardown : M.Rel (ExBody est sid) (Ctx.onSession sid M.panic (Session.teardown sid)) := by
  intro c
  unfold Ctx.onSession
  simp only [M.wp_bind, M.wp_get]
  split
  · trivial
  · rename_i s hs
    simp only [Session.teardown, M.bind_apply, M.get_apply, session?_id hs, if_true, M.set_apply]
    exact updSession_exBody c _ fun _ _ => ⟨.inr ⟨_, rfl⟩, fun _ h => by simp [Session.setDefault, Session.new] at h⟩

theorem ex_orTeardown {α : Type} {x : M Status Ctx α} (h : M.Rel (ExBody est sid) x) : M.Rel (ExBody est sid) (orTeardown sid x) := by
  unfold orTeardown
  refine M.Rel.bind (M.Rel.try' h) fun r => ?_
  cases r
  · exact M.Rel.bind ex_teardown fun _ => M.Rel.fail _
  · exact M.Rel.pure _

theorem ex_responseHmac : M.Rel (ExBody est sid) (responseHmac e sid) := by
  unfold responseHmac
  refine M.Rel.bind (ex_frame (rel_thOf _)) fun h => M.Rel.bind M.Rel.get fun c => M.Rel.bind (M.Rel.unwrap _) fun s =>
    M.Rel.bind (ex_orTeardown (M.Rel.lift _)) fun mac => M.Rel.bind (ex_orTeardown (ex_frame (rel_appendK _))) fun _ => M.Rel.pure _

theorem ex_keyExchangePatch (inClear : Bool) (asym hs : Nat) (sig rsp : Bytes) :
    M.Rel (ExBody est sid) (keyExchangePatch e sid inClear asym hs sig rsp) := by
  unfold keyExchangePatch
  have := ex_responseHmac (e := e) (sid := sid) (est := est)
  rel

theorem ex_rememberSession (inClear : Bool) : M.Rel (ExBody est sid) (rememberSession inClear sid) := by
  unfold rememberSession
  refine M.Rel.ite (fun _ => M.Rel.modify fun c => ?_) fun _ => M.Rel.pure _
  exact ⟨rfl, rfl, rfl, rfl, rfl, rfl, List.prefix_refl _, All2.refl (fun _ => .inl rfl) _⟩

theorem ex_keyExchangeSig : M.Rel (ExBody est sid) (keyExchangeSig e sid) := by
  unfold keyExchangeSig
  have : M.Rel (ExBody est sid) (thOf e sid) := ex_frame (rel_thOf _)
  rel

theorem pickSecureVersion_id (o : Bytes) (s : Session) : (pickSecureVersion o s).id = s.id ∧ (pickSecureVersion o s).state = s.state := by
  unfold pickSecureVersion; split <;> exact ⟨rfl, rfl⟩

theorem ex_keyExchangeBody (m : KeyEx) (req : Bytes) (rspId : UInt16) (exchange sum opaq : Bytes) :
    M.Rel (ExBody false sid) (keyExchangeBody e m req sid rspId exchange sum opaq) := by
  unfold keyExchangeBody
  refine M.Rel.bind (M.Rel.ofOption _ _) fun random => M.Rel.bind M.Rel.get fun c => M.Rel.bind (M.Rel.unwrap _) fun asym =>
    M.Rel.bind (M.Rel.unwrap _) fun hs => M.Rel.bind (ex_frame (rel_encodeMsgRsp _ _)) fun rsp => M.Rel.bind (M.Rel.lift _) fun body =>
    M.Rel.bind (ex_frame (rel_addK _)) fun _ => M.Rel.bind (ex_frame (rel_addK _)) fun _ => M.Rel.bind ex_keyExchangeSig fun sig =>
    M.Rel.bind (ex_frame (rel_addK _)) fun _ => M.Rel.bind (ex_frame (rel_thOf _)) fun th1 =>
    M.Rel.bind (ex_frame (Ctx.rel_onSession _ _ _ M.Rel.panic (Session.keep_genHandshake _ _ _))) fun _ =>
    M.Rel.bind (ex_keyExchangePatch _ _ _ _ _) fun rsp => M.Rel.bind (ex_onModify fun s hs => ?_) fun _ =>
    M.Rel.bind (ex_rememberSession _) fun _ => M.Rel.pure _
  exact ⟨.inl ((pickSecureVersion_id _ _).1.trans hs), fun _ h => by simp at h⟩

theorem ex_pskEstablish (nc : Bool) : M.Rel (ExBody nc sid) (pskEstablish e nc sid) := by
  unfold pskEstablish
  refine M.Rel.ite (fun _ => M.Rel.pure _) fun hnc => M.Rel.bind (ex_frame (rel_thOf _)) fun th => ?_
  intro c
  rw [M.wp_bind, M.wp_get, M.wp_bind, M.wp_unwrap]
  intro s hs
  split
  · rename_i u s' hg
    have hk := (Session.keep_genData _ _ _).ok hg
    refine updSession_exBody c _ fun t ht => ⟨.inl ?_, fun he => absurd he hnc⟩
    exact hk.1.trans (session?_id hs)
  · trivial

theorem ex_pskExchangeBody (req : Bytes) (rspId : UInt16) (context sum opaq : Bytes) (c : Ctx) :
    (pskExchangeBody e req sid rspId context sum opaq).wp c (fun _ => ExBody c.cc.pskNoContext sid c) (fun _ => ExBody c.cc.pskNoContext sid c) := by
  unfold pskExchangeBody
  rw [M.wp_bind, M.wp_get]
  refine (?_ : M.Rel (ExBody c.cc.pskNoContext sid) _) c
  refine M.Rel.bind (M.Rel.unwrap _) fun hs => M.Rel.bind (ex_frame (rel_encodeMsgRsp _ _)) fun rsp => M.Rel.bind (M.Rel.lift _) fun body =>
    M.Rel.bind (ex_frame (rel_addK _)) fun _ => M.Rel.bind (ex_frame (rel_addK _)) fun _ => M.Rel.bind (ex_frame (rel_thOf _)) fun th1 =>
    M.Rel.bind (ex_frame (Ctx.rel_onSession _ _ _ M.Rel.panic (Session.keep_genHandshake _ _ _))) fun _ =>
    M.Rel.bind ex_responseHmac fun mac => M.Rel.bind (M.Rel.lift _) fun rsp => M.Rel.bind (ex_onModify fun s hs => ?_) fun _ =>
    M.Rel.bind (ex_pskEstablish _) fun _ => M.Rel.bind (ex_onModify fun s hs => ?_) fun _ => M.Rel.pure _
  · exact ⟨.inl hs, fun _ h => by simp at h⟩
  · exact ⟨.inl ((pickSecureVersion_id _ _).1.trans hs), fun _ h => by rw [(pickSecureVersion_id _ _).2] at h; exact h⟩

/-! ### The whole exchange -/

/-- the connection after an exchange: as before, but for the session termination policy and bookkeeping of the transcripts. -/
structure ExConn (c c' : Ctx) : Prop where
  config : c'.config = c.config
  neg : ∃ p, c'.neg = { c.neg with terminationPolicy := p }
  state : c'.rt.state = c.rt.state
  messageA : c'.rt.messageA = c.rt.messageA
  prov : c'.prov = c.prov
  peer : c'.peer = c.peer
  sent : c.sent <+: c'.sent

/-- a new session was opened in the first free slot: `sid` combines the next responder half id and the requester's half
id, and then only that session was changed. -/
def OpenedIn (est : Bool) (c c' : Ctx) : Prop :=
  ∃ rspId req s1 l, Ctx.nextHalf false 0 c.sessions = some rspId ∧ (s1.id = joinId rspId req ∨ s1.Erased) ∧ s1.state = .notStarted ∧
    (∃ s0, c.session? 0 = some s0) ∧
    l = Ctx.updFirst (·.id = 0) (fun _ => s1) c.sessions ∧ All2 (Only est (joinId rspId req)) l c'.sessions

/-- outcome of an exchange: the session table is as before, or a session was opened. -/
def Exch (est : Bool) (c c' : Ctx) : Prop := ExConn c c' ∧ (c'.sessions = c.sessions ∨ OpenedIn est c c')

/-- sessions unchanged, connection as in `ExConn`. -/
def Calm (c c' : Ctx) : Prop := ExConn c c' ∧ c'.sessions = c.sessions

instance : M.Pre ExConn where
  refl c := ⟨rfl, ⟨c.neg.terminationPolicy, rfl⟩, rfl, rfl, rfl, rfl, List.prefix_refl _⟩
  trans h h' := ⟨h'.config.trans h.config, by
      obtain ⟨p, hp⟩ := h.neg; obtain ⟨q, hq⟩ := h'.neg
      exact ⟨q, by rw [hq, hp]⟩, h'.state.trans h.state, h'.messageA.trans h.messageA, h'.prov.trans h.prov, h'.peer.trans h.peer,
      h.sent.trans h'.sent⟩
instance : M.Pre Calm where
  refl c := ⟨M.Pre.refl c, rfl⟩
  trans h h' := ⟨M.Pre.trans h.1 h'.1, h'.2.trans h.2⟩

theorem Frame.calm {c c' : Ctx} (h : Frame true none c c') : Calm c c' :=
  ⟨⟨h.config, ⟨c.neg.terminationPolicy, by rw [h.neg rfl]⟩, h.state, h.messageA rfl, h.prov rfl, h.peer, h.sent⟩, by
    have := h.sessions
    generalize c.sessions = l at this
    generalize c'.sessions = m at this
    induction this with
    | nil => rfl
    | cons a _ ih =>
      rcases a with rfl | ⟨h, _⟩
      · rw [ih]
      · simp at h⟩

theorem calm_frame {α ε : Type} {x : M ε Ctx α} (h : M.Rel (Frame true none) x) : M.Rel Calm x := h.mono fun _ _ h => Frame.calm h

theorem rel_exchangeStart (bytes : Bytes) : M.Rel (Frame true none) (exchangeStart bytes) := by
  unfold exchangeStart; rel

theorem exBody_conn {c c' : Ctx} (h : ExBody est sid c c') : ExConn c c' :=
  ⟨h.config, ⟨c.neg.terminationPolicy, by rw [h.neg]⟩, h.state, h.messageA, h.prov, h.peer, h.sent⟩

/-- opening a session: what happens between the choice of the half id and the end of the exchange. -/
theorem open_wp {α : Type} {x : M Status Session Unit} {y : M Status Ctx α} {c0 c : Ctx} {rspId req : UInt16} (hc : Calm c0 c)
    (hn : Ctx.nextHalf false 0 c0.sessions = some rspId)
    (hx : ∀ s, s.id = 0 → x.wp s (fun _ s' => s'.id = joinId rspId req ∧ s'.state = .notStarted) (fun _ s' => s'.Erased))
    (hy : ∀ c1 : Ctx, c1.cc.pskNoContext = c.cc.pskNoContext →
      y.wp c1 (fun _ => ExBody est (joinId rspId req) c1) (fun _ => ExBody est (joinId rspId req) c1)) :
    (do Ctx.onSession 0 (M.fail .invalidStateLocal) x; y).wp c (fun _ c' => ExConn c0 c' ∧ OpenedIn est c0 c') (fun _ => Exch est c0) := by
  rw [M.wp_bind]
  unfold Ctx.onSession
  simp only [M.wp_bind, M.wp_get]
  split
  · exact ⟨hc.1, .inl hc.2⟩
  · rename_i s hs
    have h0 : ∃ s0, c0.session? 0 = some s0 := ⟨s, by unfold Ctx.session? at *; rw [← hc.2]; exact hs⟩
    have hx := hx s (session?_id hs)
    unfold M.wp at hx
    split
    · rename_i u s' hxs
      rw [hxs] at hx
      simp only [M.wp_bind, M.wp_set, M.wp_pure]
      have hconn : ExConn c0 (c.updSession 0 fun _ => s') := M.Pre.trans hc.1
        ⟨rfl, ⟨c.neg.terminationPolicy, rfl⟩, rfl, rfl, rfl, rfl, List.prefix_refl _⟩
      have fin : ∀ c', ExBody est (joinId rspId req) (c.updSession 0 fun _ => s') c' → ExConn c0 c' ∧ OpenedIn est c0 c' := fun c' h =>
        ⟨M.Pre.trans hconn (exBody_conn h), ⟨rspId, req, s', _, hn, .inl hx.1, hx.2, h0, rfl, hc.2 ▸ h.sessions⟩⟩
      exact (hy (c.updSession 0 fun _ => s') rfl).mono (fun _ _ h => fin _ h) fun _ _ h => ⟨(fin _ h).1, .inr (fin _ h).2⟩
    · rename_i st s' hxs
      rw [hxs] at hx
      simp only [M.wp_bind, M.wp_set, M.wp_fail]
      exact ⟨M.Pre.trans hc.1 ⟨rfl, ⟨c.neg.terminationPolicy, rfl⟩, rfl, rfl, rfl, rfl, List.prefix_refl _⟩,
        .inr ⟨rspId, req, s', _, hn, .inr hx, hx.notStarted, h0, rfl, hc.2 ▸ All2.refl (fun _ => .inl rfl) _⟩⟩
    · trivial

theorem openDhe_wp (c : Ctx) (i : UInt32) (slot : UInt8) (certHash final : Bytes) (s : Session) (h : s.id = 0) :
    (openDhe e c i slot certHash final).wp s (fun _ s' => s'.id = i ∧ s'.state = .notStarted) (fun _ s' => s'.Erased) := by
  unfold openDhe Session.setup
  simp only [M.wp_bind, M.wp_get, h, if_true, M.wp_set, M.wp_modify]
  rw [M.wp_try]
  refine (Session.keep_setDheSecret e.crypto c.neg.version final _).mono ?_ ?_
  · rintro _ s' ⟨h1, h2, -⟩
    simp only [M.wp_modify]
    exact ⟨h1, h2⟩
  · rintro st s' ⟨h1, h2, -⟩
    simp only [M.wp_bind, Session.teardown, M.wp_get]
    have : s'.id = i := h1
    simp only [this, if_true, M.wp_set, M.wp_fail]
    exact ⟨_, rfl⟩

theorem openPsk_wp (c : Ctx) (i : UInt32) (hint : Bytes) (s : Session) (h : s.id = 0) :
    (openPsk e c i hint).wp s (fun _ s' => s'.id = i ∧ s'.state = .notStarted) (fun _ s' => s'.Erased) := by
  unfold openPsk Session.setup
  simp only [M.wp_bind, M.wp_get, h, if_true, M.wp_set, M.wp_modify]
  simp [Session.setDefault, Session.new]

theorem wp_calm {α β : Type} {x : M Status Ctx α} {f : α → M Status Ctx β} {c0 c : Ctx} {est : Bool} (hc : Calm c0 c) (hx : M.Rel Calm x)
    (hf : ∀ a c1, Calm c0 c1 → (f a).wp c1 (fun _ c' => ExConn c0 c' ∧ OpenedIn est c0 c') (fun _ => Exch est c0)) :
    (x >>= f).wp c (fun _ c' => ExConn c0 c' ∧ OpenedIn est c0 c') (fun _ => Exch est c0) := by
  rw [M.wp_bind]
  refine (hx c).mono (fun a c1 h => hf a c1 (M.Pre.trans hc h)) fun _ c1 h => ?_
  have := M.Pre.trans hc h
  exact ⟨this.1, .inl this.2⟩

theorem nextHalfId_ok {c : Ctx} {r : UInt16} (h : c.nextHalfId false = .ok r) : Ctx.nextHalf false 0 c.sessions = some r := by
  unfold Ctx.nextHalfId at h
  cases hn : Ctx.nextHalf false 0 c.sessions <;> rw [hn] at h <;> simp [Res.ofOption] at h
  rw [h]

/-- KEY_EXCHANGE is only answered after a session was opened. -/
theorem keyExchangeRsp_opens (bytes : Bytes) (c0 : Ctx) :
    (keyExchangeRsp e bytes).wp c0 (fun _ c' => ExConn c0 c' ∧ OpenedIn false c0 c') (fun _ => Exch false c0) := by
  unfold keyExchangeRsp
  refine wp_calm (M.Pre.refl _) (calm_frame (rel_exchangeStart _)) fun r c1 h1 => ?_
  refine wp_calm h1 (calm_frame (Ctx.rel_resetBuffers _)) fun _ c2 h2 => ?_
  refine wp_calm h2 (by unfold readMsg; rel) fun mr c3 h3 => ?_
  refine wp_calm h3 (calm_frame (rel_summaryHash _)) fun sum c4 h4 => ?_
  refine wp_calm h4 (M.Rel.ofOption _ _) fun sum c5 h5 => ?_
  refine wp_calm h5 (M.Rel.modify fun c => ⟨⟨rfl, ⟨_, rfl⟩, rfl, rfl, rfl, rfl, List.prefix_refl _⟩, rfl⟩) fun _ c6 h6 => ?_
  rw [M.wp_bind, M.wp_get]
  refine wp_calm h6 (M.Rel.lift _) fun opaq c7 h7 => ?_
  refine wp_calm h7 (M.Rel.ofOption _ _) fun _ c8 h8 => ?_
  refine wp_calm h8 (M.Rel.modify fun c => ⟨⟨rfl, ⟨c.neg.terminationPolicy, rfl⟩, rfl, rfl, rfl, rfl, List.prefix_refl _⟩, rfl⟩) fun _ c9 h9 => ?_
  refine wp_calm h9 (M.Rel.unwrap _) fun ex c10 h10 => ?_
  refine wp_calm h10 (M.Rel.ofOption _ _) fun final c11 h11 => ?_
  rw [M.wp_bind, M.wp_mapErr]
  cases hn : c6.nextHalfId false with
  | err st => exact ⟨h11.1, .inl h11.2⟩
  | panic => trivial
  | ok rspId =>
    rw [M.wp]
    simp only [Res.lift]
    refine wp_calm h11 (M.Rel.ofOption _ _) fun certHash c12 h12 => ?_
    refine open_wp h12 (by rw [← h6.2]; exact nextHalfId_ok hn) (fun s hs => openDhe_wp _ _ _ _ _ s hs) fun c13 _ => ?_
    exact ex_keyExchangeBody _ _ _ _ _ _ c13

theorem calm_noContext {c c' : Ctx} (h : Calm c c') : c'.cc.pskNoContext = c.cc.pskNoContext := by
  obtain ⟨p, hp⟩ := h.1.neg
  unfold Cc.pskNoContext Ctx.cc
  simp only [hp]

theorem keyExchangeRsp_wp (bytes : Bytes) (c0 : Ctx) :
    (keyExchangeRsp e bytes).wp c0 (fun _ => Exch false c0) (fun _ => Exch false c0) :=
  (keyExchangeRsp_opens bytes c0).mono (fun _ _ h => ⟨h.1, .inr h.2⟩) fun _ _ h => h

/-- PSK_EXCHANGE is only answered after a session was opened. -/
theorem pskExchangeRsp_opens (bytes : Bytes) (c0 : Ctx) :
    (pskExchangeRsp e bytes).wp c0 (fun _ c' => ExConn c0 c' ∧ OpenedIn c0.cc.pskNoContext c0 c') (fun _ => Exch c0.cc.pskNoContext c0) := by
  unfold pskExchangeRsp
  refine wp_calm (M.Pre.refl _) (calm_frame (rel_exchangeStart _)) fun r c1 h1 => ?_
  refine wp_calm h1 (calm_frame (Ctx.rel_resetBuffers _)) fun _ c2 h2 => ?_
  refine wp_calm h2 (by unfold readMsg; rel) fun mr c3 h3 => ?_
  refine wp_calm h3 (calm_frame (rel_summaryHash _)) fun sum c4 h4 => ?_
  refine wp_calm h4 (M.Rel.ofOption _ _) fun sum c5 h5 => ?_
  rw [M.wp_bind, M.wp_get]
  refine wp_calm h5 (M.Rel.lift _) fun opaq c7 h7 => ?_
  refine wp_calm h7 (by unfold pskContext; rel) fun ctx c8 h8 => ?_
  rw [M.wp_bind, M.wp_mapErr]
  cases hn : c5.nextHalfId false with
  | err st => exact ⟨h8.1, .inl h8.2⟩
  | panic => trivial
  | ok rspId =>
    rw [M.wp]
    simp only [Res.lift]
    refine open_wp h8 (by rw [← h5.2]; exact nextHalfId_ok hn) (fun s hs => openPsk_wp _ _ _ s hs) fun c13 hnc => ?_
    have := ex_pskExchangeBody (e := e) (sid := joinId rspId mr.1.reqSession) mr.2 rspId ctx sum opaq c13
    rw [hnc, calm_noContext h8] at this
    exact this

theorem pskExchangeRsp_wp (bytes : Bytes) (c0 : Ctx) :
    (pskExchangeRsp e bytes).wp c0 (fun _ => Exch c0.cc.pskNoContext c0) (fun _ => Exch c0.cc.pskNoContext c0) :=
  (pskExchangeRsp_opens bytes c0).mono (fun _ _ h => ⟨h.1, .inr h.2⟩) fun _ _ h => h

end Rsp
end Verif
