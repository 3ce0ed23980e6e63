/-
What handling one message does to the connection state and to the session table.
-/
import Verif.Responder.Plain
import Verif.Responder.Exchange
import Verif.Spec.Conn

namespace Verif

theorem loc_none_eq {l m : List Session} (h : All2 (Loc none) l m) : m = l := by
  induction h with
  | nil => rfl
  | cons a _ ih =>
    rcases a with rfl | ⟨h, _⟩
    · rw [ih]
    · simp at h

namespace Rsp
variable {e : Env}

/-- parameters fixed by the negotiation are kept. -/
structure KeepNeg (c c' : Ctx) : Prop where
  neg : ∃ p, c'.neg = { c.neg with terminationPolicy := p }
  messageA : c'.rt.messageA = c.rt.messageA
  prov : c'.prov = c.prov
  peer : c'.peer = c.peer

/-- what happened to the session table when request `k` arrived outside a session. -/
inductive TableStep (k : UInt8) (c c' : Ctx) : Prop
  | same : c'.sessions = c.sessions → TableStep k c c'
  | cleared : k = 0x84 → c'.sessions = c.sessions.map Session.setDefault → TableStep k c c'
  | keyExchange : k = 0xE4 → OpenedIn false c c' → TableStep k c c'
  | pskExchange : k = 0xE6 → OpenedIn c.cc.pskNoContext c c' → TableStep k c c'
  | finish (sid : UInt32) (s : Session) : k = 0xE5 → c.cc.inClear = true → c.rt.lastSession = some sid → c.session? sid = some s →
      s.state = .handshaking → All2 (fun s s' => s' = s ∨ (s.id = sid ∧ s'.id = sid)) c.sessions c'.sessions → TableStep k c c'

/-- effect of a request `k` outside a session. -/
structure PlainStep (k : UInt8) (c c' : Ctx) : Prop where
  config : c'.config = c.config
  sent : c.sent <+: c'.sent
  conn : Spec.Moves k c.rt.state c'.rt.state
  table : TableStep k c c'
  keep : k ≠ 0x84 → k ≠ 0xE1 → k ≠ 0xE3 → KeepNeg c c'
  cfgs : k ≠ 0x84 → c'.peer = c.peer


theorem Sent.rel {c c' : Ctx} (h : Sent c c') : c'.config = c.config ∧ c.sent <+: c'.sent ∧ c'.rt = c.rt ∧ c'.sessions = c.sessions ∧
    c'.neg = c.neg ∧ c'.prov = c.prov ∧ c'.peer = c.peer := by
  rcases h with rfl | ⟨pkt, rfl⟩
  · exact ⟨rfl, List.prefix_refl _, rfl, rfl, rfl, rfl, rfl⟩
  · exact ⟨rfl, List.prefix_append _ _, rfl, rfl, rfl, rfl, rfl⟩

theorem Sent.step {k : UInt8} {c c' : Ctx} (h : Sent c c') : PlainStep k c c' := by
  obtain ⟨h1, h2, h3, h4, h5, h6, h7⟩ := h.rel
  exact ⟨h1, h2, by rw [h3]; exact .stay _, .same h4, fun _ _ _ => ⟨⟨c.neg.terminationPolicy, by rw [h5]⟩, by rw [h3], h6, h7⟩, fun _ => h7⟩

/-- an answer with code `r` to request `k`. -/
theorem Answered.step {kk : Bool} {k r : UInt8} {c c' : Ctx} (h : Answered kk r c c') (hk : kk = true ∨ k = 0xE1 ∨ k = 0xE3)
    (hm : Spec.Moves k c.rt.state (afterState r c.rt.state)) : PlainStep k c c' := by
  obtain ⟨c1, hf, h⟩ := h
  have hs := loc_none_eq hf.sessions
  have hkeep : ∀ c', c'.neg = c1.neg → c'.rt.messageA = c1.rt.messageA → c'.prov = c1.prov → c'.peer = c1.peer →
      k ≠ 0x84 → k ≠ 0xE1 → k ≠ 0xE3 → KeepNeg c c' := by
    intro c' h1 h2 h3 h4 _ g2 g3
    have hkk : kk = true := by
      rcases hk with h | h | h
      · exact h
      · exact absurd h g2
      · exact absurd h g3
    exact ⟨⟨c.neg.terminationPolicy, by rw [h1, hf.neg hkk]⟩, by rw [h2, hf.messageA hkk], by rw [h3, hf.prov hkk], by rw [h4, hf.peer]⟩
  rcases h with h | ⟨pkt, rfl⟩
  · obtain ⟨h1, h2, h3, h4, h5, h6, h7⟩ := h.rel
    exact ⟨h1.trans hf.config, hf.sent.trans h2, by rw [h3, hf.state]; exact .stay _, .same (h4.trans hs),
      hkeep c' h5 (by rw [h3]) h6 h7, fun _ => h7.trans hf.peer⟩
  · refine ⟨hf.config, hf.sent.trans (List.prefix_append _ _), ?_, .same hs, hkeep _ rfl rfl rfl rfl, fun _ => hf.peer⟩
    show Spec.Moves k c.rt.state (afterState r c1.rt.state)
    rw [hf.state]
    exact hm

theorem plain_step {kk : Bool} {k r : UInt8} {x : H Bytes} (hx : M.Rel (Frame kk none) x) (hc : Codes r (Starts r) x) (hr : r ≠ 0x65)
    (hk : kk = true ∨ k = 0xE1 ∨ k = 0xE3) (c : Ctx) (hm : Spec.Moves k c.rt.state (afterState r c.rt.state)) :
    (do let b ← reply x; sendMessage e b).wp c (fun _ => PlainStep k c) (fun _ => PlainStep k c) :=
  (plain_wp hx hc hr c).mono (fun _ _ h => h.step hk hm) fun _ _ h => h.step hk hm

/-- a request refused at once. -/
theorem refused_step {k : UInt8} {x : H Bytes} {c : Ctx} {code : ErrorCode} {data : UInt8} (h : x c = .err { code := code, data := data } c) :
    (do let b ← reply x; sendMessage e b).wp c (fun _ => PlainStep k c) (fun _ => PlainStep k c) := by
  rw [M.wp, refused_eq h]
  exact (sendMessage_error_any (starts_error _ _ _) c).mono (fun _ _ h => h.step) fun _ _ h => h.step

theorem ready_code (st : ConnState) : Spec.ready st = true ↔ ¬ st.code < ConnState.negotiated.code := by
  cases st <;> simp [Spec.ready, ConnState.code]

theorem early_of {x : Unit → H Bytes} {c : Ctx} (h : Spec.ready c.rt.state = false) :
    (do afterNegotiation; x () : H Bytes) c = .err { code := .unexpectedRequest } c := by
  have : c.rt.state.code < ConnState.negotiated.code := by
    by_cases h' : c.rt.state.code < ConnState.negotiated.code
    · exact h'
    · rw [(ready_code _).2 h'] at h; simp at h
  simp [afterNegotiation, this]

theorem capabilityRsp_early {bytes : Bytes} {c : Ctx} (h : c.rt.state ≠ .afterVersion) :
    capabilityRsp bytes c = .err { code := .unexpectedRequest } c := by
  simp [capabilityRsp, h]
theorem algorithmRsp_early {bytes : Bytes} {c : Ctx} (h : c.rt.state ≠ .afterCapabilities) :
    algorithmRsp e bytes c = .err { code := .unexpectedRequest } c := by
  simp [algorithmRsp, h]
theorem digestRsp_early {o : Option UInt32} {bytes : Bytes} {c : Ctx} (h : Spec.ready c.rt.state = false) :
    digestRsp e o bytes c = .err { code := .unexpectedRequest } c := early_of (x := fun _ => _) h
theorem certificateRsp_early {o : Option UInt32} {bytes : Bytes} {c : Ctx} (h : Spec.ready c.rt.state = false) :
    certificateRsp e o bytes c = .err { code := .unexpectedRequest } c := early_of (x := fun _ => _) h
theorem challengeRsp_early {bytes : Bytes} {c : Ctx} (h : Spec.ready c.rt.state = false) :
    challengeRsp e bytes c = .err { code := .unexpectedRequest } c := early_of (x := fun _ => _) h
theorem measurementRsp_early {o : Option UInt32} {bytes : Bytes} {c : Ctx} (h : Spec.ready c.rt.state = false) :
    measurementRsp e o bytes c = .err { code := .unexpectedRequest } c := early_of (x := fun _ => _) h

/-- a step in which the connection state keeps, after an exchange. -/
theorem exch_step {k : UInt8} {est : Bool} {c c' : Ctx} (h : Exch est c c') (hk : k = 0xE4 ∧ est = false ∨ k = 0xE6 ∧ est = c.cc.pskNoContext) :
    PlainStep k c c' := by
  obtain ⟨hc, ht⟩ := h
  refine ⟨hc.config, hc.sent, by rw [hc.state]; exact .stay _, ?_, fun _ _ _ => ⟨hc.neg, hc.messageA, hc.prov, hc.peer⟩, fun _ => hc.peer⟩
  rcases ht with ht | ht
  · exact .same ht
  · rcases hk with ⟨rfl, rfl⟩ | ⟨rfl, rfl⟩
    · exact .keyExchange rfl ht
    · exact .pskExchange rfl ht

/-- an exchange response was sent, or not. -/
theorem exch_sent {est : Bool} {c c1 c' : Ctx} (h : Exch est c c1) (hs : Sent c1 c' ∨ ∃ pkt, c' = withState c1.rt.state (withSent pkt c1)) :
    Exch est c c' := by
  have hs : Sent c1 c' := by
    rcases hs with hs | ⟨pkt, rfl⟩
    · exact hs
    · exact .inr ⟨pkt, rfl⟩
  obtain ⟨hc, ht⟩ := h
  obtain ⟨h1, h2, h3, h4, h5, h6, h7⟩ := hs.rel
  refine ⟨⟨h1.trans hc.config, by rw [h5]; exact hc.neg, by rw [h3]; exact hc.state, by rw [h3]; exact hc.messageA, h6.trans hc.prov, h7.trans hc.peer,
    hc.sent.trans h2⟩, ?_⟩
  rcases ht with ht | ⟨a, b, s1, l, g1, g2, g3, g4, g5, g6⟩
  · exact .inl (h4.trans ht)
  · exact .inr ⟨a, b, s1, l, g1, g2, g3, g4, g5, by rw [h4]; exact g6⟩

theorem exchange_step {k r : UInt8} {est : Bool} {x : M Status Ctx Bytes} (hp : Post (Starts r) x) (hr : r = 0x64 ∨ r = 0x66) (c : Ctx)
    (hx : x.wp c (fun _ => Exch est c) (fun _ => Exch est c)) (hk : k = 0xE4 ∧ est = false ∨ k = 0xE6 ∧ est = c.cc.pskNoContext) :
    (do let b ← x; sendMessage e b).wp c (fun _ => PlainStep k c) (fun _ => PlainStep k c) := by
  rw [M.wp_bind]
  refine (hx.and (hp c)).mono ?_ fun _ c' h => exch_step h.1 hk
  rintro b c1 ⟨h1, hb⟩
  have hr65 : r ≠ 0x65 := by rcases hr with rfl | rfl <;> decide
  have ha : ∀ st, afterState r st = st := by intro st; rcases hr with rfl | rfl <;> rfl
  refine (sendMessage_any hb hr65 c1).mono ?_ ?_
  · rintro _ c' h
    rw [ha] at h
    exact exch_step (exch_sent h1 h) hk
  · rintro _ c' h
    exact exch_step (exch_sent h1 (.inl h)) hk

/-! ### FINISH in the clear -/

/-- only sessions with id `sid` changed, and they kept their id. -/
def FinTable (sid : UInt32) (l m : List Session) : Prop := All2 (fun s s' => s' = s ∨ (s.id = sid ∧ s'.id = sid)) l m

theorem FinTable.of_frame {sid : UInt32} {k : Bool} {c c' : Ctx} (h : Frame k (some sid) c c') : FinTable sid c.sessions c'.sessions := by
  refine All2.imp ?_ h.sessions
  rintro a b (rfl | ⟨h1, h2⟩)
  · exact .inl rfl
  · have : a.id = sid := by simpa using h1.symm
    exact .inr ⟨this, by rw [h2.1, this]⟩

theorem FinTable.refl (sid : UInt32) (l : List Session) : FinTable sid l l := All2.refl (fun _ => .inl rfl) l
theorem FinTable.trans {sid : UInt32} {l m n : List Session} (h : FinTable sid l m) (h' : FinTable sid m n) : FinTable sid l n := by
  refine All2.trans ?_ h h'
  rintro a b c (rfl | ⟨h1, h2⟩) (rfl | ⟨h3, h4⟩)
  · exact .inl rfl
  · exact .inr ⟨h3, h4⟩
  · exact .inr ⟨h1, h2⟩
  · exact .inr ⟨h1, h4⟩

theorem finTable_upd {sid : UInt32} {f : Session → Session} (l : List Session) (h : ∀ s, s.id = sid → (f s).id = sid) :
    FinTable sid l (Ctx.updFirst (·.id = sid) f l) := by
  induction l with
  | nil => exact .nil
  | cons a l ih =>
    unfold Ctx.updFirst
    by_cases hp : a.id = sid
    · simp only [hp, decide_true, if_true]
      exact .cons (.inr ⟨hp, h a hp⟩) (All2.refl (fun _ => .inl rfl) _)
    · simp only [hp, decide_false]
      exact .cons (.inl rfl) ih

/-- what sending a plain FINISH_RSP does. -/
def FinSent (sid : UInt32) (c c' : Ctx) : Prop :=
  Sent c c' ∨ ∃ pkt s, c.session? sid = some s ∧
    c' = { c with sent := c.sent ++ [pkt], rt := { c.rt with lastSession := none }, sessions := Ctx.updFirst (·.id = sid) (fun _ => { s with state := .established }) c.sessions }

theorem sendPlain_finish_wp {b : Bytes} (hb : Starts 0x65 b) (c : Ctx) (sid : UInt32) (hl : c.rt.lastSession = some sid) :
    (sendPlain e b).wp c (fun _ => FinSent sid c) (fun _ => Sent c) := by
  unfold sendPlain
  rw [M.wp_bind]
  cases hp : Ctx.encap e b with
  | ok pkt =>
    rw [M.wp]
    simp only [Res.lift]
    rw [M.wp_bind]
    unfold Ctx.devSend
    simp only [M.wp_bind, M.wp_get, M.wp_set]
    cases hs : e.send c.sent.length pkt with
    | some st => exact .inr ⟨pkt, rfl⟩
    | none =>
      simp only [M.wp_pure, hb.get]
      show M.wp (afterSend 0x65) _ _ _
      unfold afterSend
      rw [if_neg (by decide), if_neg (by decide), if_neg (by decide), if_neg (by decide), if_neg (by decide), if_neg (by decide), if_pos (by decide)]
      rw [M.wp_bind, M.wp_get, M.wp_bind, M.wp_unwrap]
      intro i hi
      have : i = sid := by rw [hl] at hi; exact (Option.some.inj hi).symm
      subst this
      rw [M.wp_bind]
      unfold Ctx.onSession
      simp only [M.wp_bind, M.wp_get]
      split
      · trivial
      · rename_i s hs
        exact .inr ⟨pkt, s, hs, rfl⟩
  | err st => exact .inl rfl
  | panic => trivial

theorem sendMessage_finish_wp {b : Bytes} (hb : Starts 0x65 b) (c : Ctx) (sid : UInt32) (hl : c.rt.lastSession = some sid) :
    (sendMessage e b).wp c (fun _ => FinSent sid c) (fun _ => Sent c) := by
  unfold sendMessage
  rw [M.wp_bind, M.wp_get, M.wp_ite]
  refine ⟨fun _ => ?_, fun _ => sendPlain_finish_wp hb c sid hl⟩
  rw [writeError_nil c { code := .responseTooLarge } rfl, M.wp_bind, M.wp_unwrap]
  intro a ha
  cases ha
  rw [M.wp_ite]
  refine ⟨fun _ => trivial, fun _ => ?_⟩
  refine (sendPlain_wp (starts_error _ _ _) (by decide) c).mono ?_ ?_
  · rintro _ c' ⟨pkt, _, _, rfl⟩
    exact .inl (.inr ⟨pkt, rfl⟩)
  · rintro _ c' (rfl | ⟨pkt, _, rfl⟩)
    · exact .inl rfl
    · exact .inr ⟨pkt, rfl⟩

/-- handling FINISH in the clear. -/
theorem handleFinish_clear_wp (sid : UInt32) (bytes : Bytes) (c : Ctx) (hc : c.cc.inClear = true) (hl : c.rt.lastSession = some sid) :
    (handleFinish e sid bytes).wp c (fun _ c' => ∃ c1, Frame true (some sid) c c1 ∧ FinSent sid c1 c')
      (fun _ c' => ∃ c1, Frame true (some sid) c c1 ∧ Sent c1 c') := by
  unfold handleFinish
  rw [M.wp_bind, M.wp_get, M.wp_bind]
  refine ((rel_finishRsp (e := e) (sid := sid) bytes c).and (post_finishRsp (e := e) sid bytes c)).mono ?_ fun _ c' h => ⟨c', h.1, .inl rfl⟩
  rintro b c1 ⟨h1, hb⟩
  rw [if_pos hc]
  refine (sendMessage_finish_wp hb c1 sid (by rw [h1.last, hl])).mono (fun _ c' h => ⟨c1, h1, h⟩) fun _ c' h => ⟨c1, h1, h⟩

theorem finish_step {sid : UInt32} {s : Session} {c c1 c' : Ctx} (hc : c.cc.inClear = true) (hl : c.rt.lastSession = some sid)
    (hs : c.session? sid = some s) (hst : s.state = .handshaking) (h1 : Frame true (some sid) c c1) (h : FinSent sid c1 c') :
    PlainStep 0xE5 c c' := by
  have ht := FinTable.of_frame h1
  rcases h with h | ⟨pkt, s1, hs1, rfl⟩
  · obtain ⟨g1, g2, g3, g4, g5, g6, g7⟩ := h.rel
    exact ⟨g1.trans h1.config, h1.sent.trans g2, by rw [g3, h1.state]; exact .stay _, .finish sid s rfl hc hl hs hst (by rw [g4]; exact ht),
      fun _ _ _ => ⟨⟨c.neg.terminationPolicy, by rw [g5, h1.neg rfl]⟩, by rw [g3, h1.messageA rfl], g6.trans (h1.prov rfl), g7.trans h1.peer⟩,
      fun _ => g7.trans h1.peer⟩
  · have hid := session?_id hs1
    refine ⟨h1.config, h1.sent.trans (List.prefix_append _ _), ?_, .finish sid s rfl hc hl hs hst (ht.trans (finTable_upd _ fun _ _ => hid)),
      fun _ _ _ => ⟨⟨c.neg.terminationPolicy, by rw [← h1.neg rfl]⟩, h1.messageA rfl, h1.prov rfl, h1.peer⟩, fun _ => h1.peer⟩
    show Spec.Moves _ _ c1.rt.state
    rw [h1.state]; exact .stay _

/-! ### The dispatcher outside a session -/

theorem code_of {k : UInt8} {r : ReqRespCode} (h : ReqRespCode.ofCode k = r) : k = r.get := by
  rw [← h, ReqRespCode.get_ofCode]

theorem dispatch_cons (v k : UInt8) (t : Bytes) (c : Ctx) :
    dispatch e (v :: k :: t) c = dispatchCode e (ReqRespCode.ofCode k) (v :: k :: t) c := by
  unfold dispatch
  simp only [Res.read, header_read, Res.lift, M.bind_apply]

theorem handleError_step {k : UInt8} (code : ErrorCode) (bytes : Bytes) (c : Ctx) :
    (handleError e code none bytes).wp c (fun _ => PlainStep k c) (fun _ => PlainStep k c) := by
  have h1 := rel_reply (rel_errorResponse (k := true) (sid := none) code bytes) c
  have h2 := reply_wp ((codes_errorResponse code bytes).mono (Q' := Starts 0x7F) (fun _ h => h.elim)) c
  unfold handleError send
  rw [M.wp_bind]
  refine (h1.and h2).mono ?_ (fun _ _ h => h.2.elim)
  rintro b c1 ⟨hf, hb⟩
  have hb : Starts 0x7F b := by
    rcases hb with hb | ⟨_, _, rfl⟩
    · exact hb
    · exact starts_error _ _ _
  have : Spec.Moves k c.rt.state (afterState 0x7F c.rt.state) := .stay _
  refine (sendMessage_error_any hb c1).mono ?_ ?_ <;>
    (rintro _ c' h; exact Answered.step (kk := true) (r := 0x7F) ⟨c1, hf, .inl h⟩ (.inl rfl) this)

theorem handleVersion_step (v : UInt8) (t : Bytes) (c : Ctx) :
    (handleVersion e (v :: 0x84 :: t)).wp c (fun _ => PlainStep 0x84 c) (fun _ => PlainStep 0x84 c) := by
  by_cases h : v = 0x10 ∧ 2 ≤ t.length
  · obtain ⟨rfl, ht⟩ := h
    match t, ht with
    | p1 :: p2 :: t, _ =>
      rw [M.wp, handleVersion_ok]
      refine (sendPlain_version_wp (e := e) _ c.config).mono ?_ ?_
      · rintro _ c' ⟨pkt, rfl⟩
        exact ⟨rfl, List.prefix_append _ _, .version _ rfl, .cleared rfl rfl, fun h => absurd rfl h, fun h => absurd rfl h⟩
      · rintro _ c' h
        obtain ⟨g1, g2, g3, g4, g5, g6, g7⟩ := h.rel
        exact ⟨g1, g2, by rw [g3]; exact .versionUnsent _ rfl, .cleared rfl (by rw [g4]; rfl), fun h => absurd rfl h, fun h => absurd rfl h⟩
  · obtain ⟨code, c1, hf, hx⟩ := versionRsp_bad v t c h
    unfold handleVersion
    rw [M.wp_bind]
    have : reply (versionRsp (v :: 0x84 :: t)) c = .ok (errorBytes c1.neg.version code 0) c1 := by
      simp only [reply, hx, writeError_nil c1 { code := code } rfl]
    rw [M.wp, this]
    refine (sendMessage_error_any (starts_error _ _ _) c1).mono ?_ ?_ <;>
      (rintro _ c' h; exact Answered.step (kk := true) (r := 0x7F) ⟨c1, hf, .inl h⟩ (.inl rfl) (.stay _))

/-- effect of one message received outside a session. -/
theorem dispatch_step (hl : HashLaw e) (v k : UInt8) (t : Bytes) (c : Ctx) :
    (dispatch e (v :: k :: t)).wp c (fun _ => PlainStep k c) (fun _ => PlainStep k c) := by
  rw [M.wp, dispatch_cons]
  show (dispatchCode e (ReqRespCode.ofCode k) (v :: k :: t)).wp c (fun _ => PlainStep k c) (fun _ => PlainStep k c)
  unfold dispatchCode
  have herr := fun code => handleError_step (e := e) (k := k) code (v :: k :: t) c
  split
  · rename_i h; obtain rfl := code_of h; exact handleVersion_step v t c
  · rename_i h; obtain rfl := code_of h
    by_cases hs : c.rt.state = .afterVersion
    · exact plain_step (rel_capabilityRsp _) (codes_capabilityRsp _) (by decide) (.inr (.inl rfl)) c (by rw [hs]; exact .capabilities rfl)
    · exact refused_step (capabilityRsp_early hs)
  · rename_i h; obtain rfl := code_of h
    by_cases hs : c.rt.state = .afterCapabilities
    · exact plain_step (rel_algorithmRsp _) (codes_algorithmRsp _) (by decide) (.inr (.inr rfl)) c (by rw [hs]; exact .algorithms rfl)
    · exact refused_step (algorithmRsp_early hs)
  · rename_i h; obtain rfl := code_of h
    cases hs : Spec.ready c.rt.state
    · exact refused_step (digestRsp_early hs)
    · refine plain_step (kk := true) (rel_digestRsp _) (codes_digestRsp hl _ _) (by decide) (.inl rfl) c ?_
      simp only [afterState, if_true, show ¬ ((1 : UInt8) = 0x04) by decide, show ¬ ((1 : UInt8) = 0x61) by decide, show ¬ ((1 : UInt8) = 0x63) by decide, if_false]
      split
      · exact .digests _ rfl hs
      · exact .stay _
  · rename_i h; obtain rfl := code_of h
    cases hs : Spec.ready c.rt.state
    · exact refused_step (certificateRsp_early hs)
    · refine plain_step (kk := true) (rel_certificateRsp _) (codes_certificateRsp _ _) (by decide) (.inl rfl) c ?_
      simp only [afterState, if_true, show ¬ ((2 : UInt8) = 0x04) by decide, show ¬ ((2 : UInt8) = 0x61) by decide, show ¬ ((2 : UInt8) = 0x63) by decide,
        show ¬ ((2 : UInt8) = 0x01) by decide, if_false]
      split
      · exact .certificate _ rfl hs
      · exact .stay _
  · rename_i h; obtain rfl := code_of h
    cases hs : Spec.ready c.rt.state
    · exact refused_step (challengeRsp_early hs)
    · exact plain_step (kk := true) (rel_challengeRsp _) (codes_challengeRsp _) (by decide) (.inl rfl) c (.challenge _ rfl hs)
  · rename_i h; obtain rfl := code_of h
    cases hs : Spec.ready c.rt.state
    · exact refused_step (measurementRsp_early hs)
    · exact plain_step (kk := true) (rel_measurementRsp _) (codes_measurementRsp _ _) (by decide) (.inl rfl) c (.stay _)
  · rename_i h; obtain rfl := code_of h
    exact exchange_step (post_keyExchangeRsp _) (.inl rfl) c (keyExchangeRsp_wp _ c) (.inl ⟨rfl, rfl⟩)
  · rename_i h; obtain rfl := code_of h
    exact exchange_step (post_pskExchangeRsp _) (.inr rfl) c (pskExchangeRsp_wp _ c) (.inr ⟨rfl, rfl⟩)
  · exact plain_step (kk := true) (rel_vendorRsp _) (codes_vendorRsp _ _) (by decide) (.inl rfl) c (.stay _)
  · rename_i h; obtain rfl := code_of h
    unfold plainFinish
    rw [M.wp_bind, M.wp_get]
    cases hc : c.cc.inClear
    · simp only [Bool.false_eq_true, if_false]
      exact herr _
    · simp only [if_true]
      cases hlast : c.rt.lastSession with
      | none => exact herr _
      | some sid =>
        simp only
        cases hs : c.session? sid with
        | none => exact herr _
        | some s =>
          simp only
          by_cases hst : s.state = .handshaking
          · rw [if_pos hst]
            refine (handleFinish_clear_wp sid _ c hc hlast).mono ?_ ?_
            · rintro _ c' ⟨c1, h1, h2⟩; exact finish_step hc hlast hs hst h1 h2
            · rintro _ c' ⟨c1, h1, h2⟩; exact finish_step hc hlast hs hst h1 (.inl h2)
          · rw [if_neg hst]; exact herr _
  all_goals first | exact herr _ | exact (Sent.step (.inl rfl))

theorem dispatch_short {bytes : Bytes} (h : bytes.length < 2) (c : Ctx) : dispatch e bytes c = .err .unsupportedCap c := by
  obtain ⟨r, hr⟩ := header_read_short h
  unfold dispatch
  simp [Res.read, hr, Res.lift]

end Rsp
end Verif
