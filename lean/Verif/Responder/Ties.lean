/-
A property of every session in the table, kept by all the code that runs on a connection with given algorithms.
-/
import Verif.Responder.Secured
import Verif.Responder.Exchange
import Verif.Responder.Process

namespace Verif
namespace Rsp

variable {e : Env}

/-- `D` is a property of free slots, and of sessions as they are set up: it does not depend on the phase, the keys or the transcripts.
`N` is a property of the negotiated parameters but the termination policy. -/
class Tied (N : Neg → Prop) (D : Session → Prop) : Prop where
  policy : ∀ n p, N n → N { n with terminationPolicy := p }
  free : ∀ s : Session, D s.setDefault
  keep : ∀ s s' : Session, s'.id = s.id → s'.usePsk = s.usePsk → s'.setting = s.setting → D s → D s'

/-- a connection with parameters `N` keeps them, and every session is kept as `D` says. -/
def Tie (N : Neg → Prop) (D : Session → Prop) (c c' : Ctx) : Prop := N c.neg → N c'.neg ∧ ((∀ s ∈ c.sessions, D s) → ∀ s ∈ c'.sessions, D s)

variable {N : Neg → Prop} {D : Session → Prop}

instance (N : Neg → Prop) (D : Session → Prop) : M.Pre (Tie N D) where
  refl _ := fun h => ⟨h, id⟩
  trans h h' := fun h0 => ⟨(h' (h h0).1).1, fun ha => (h' (h h0).1).2 ((h h0).2 ha)⟩

theorem mem_updFirst {p : Session → Bool} {f : Session → Session} {l : List Session} {s' : Session} (h : s' ∈ Ctx.updFirst p f l) :
    s' ∈ l ∨ ∃ s, l.find? p = some s ∧ s' = f s := by
  induction l with
  | nil => cases h
  | cons a l ih =>
    unfold Ctx.updFirst at h
    by_cases hp : p a = true
    · rw [if_pos hp] at h
      rcases List.mem_cons.1 h with rfl | h
      · exact .inr ⟨a, by rw [List.find?_cons, hp], rfl⟩
      · exact .inl (List.mem_cons_of_mem _ h)
    · rw [if_neg hp] at h
      rcases List.mem_cons.1 h with rfl | h
      · exact .inl (List.mem_cons_self ..)
      · rcases ih h with h | ⟨s, h1, h2⟩
        · exact .inl (List.mem_cons_of_mem _ h)
        · exact .inr ⟨s, by rw [List.find?_cons]; simp only [hp]; exact h1, h2⟩

variable [Tied N D]

theorem tie_upd (c : Ctx) (sid : UInt32) (f : Session → Session) (h : ∀ s, c.session? sid = some s → D s → D (f s)) :
    Tie N D c (c.updSession sid f) := by
  refine fun hn => ⟨hn, fun hc s' hs' => ?_⟩
  rcases mem_updFirst hs' with h1 | ⟨s, h1, rfl⟩
  · exact hc s' h1
  · exact h s h1 (hc s (List.mem_of_find?_eq_some h1))

omit [Tied N D] in
theorem tie_same {c c' : Ctx} (h : c'.sessions = c.sessions) (hn : c'.neg = c.neg) : Tie N D c c' := fun h0 => ⟨hn ▸ h0, fun hc s hs => hc s (h ▸ hs)⟩

omit [Tied N D] in
theorem tied_keep (N : Neg → Prop) [Tied N D] {s s' : Session} (h : s.Keep s') (hd : D s) : D s' := Tied.keep N s s' h.1 h.2.2.1 h.2.2.2 hd

omit [Tied N D] in
theorem tie_table (N : Neg → Prop) [Tied N D] {o : Option UInt32} {l l' : List Session} (ha : All2 (Loc o) l l') (hl : ∀ s ∈ l, D s) : ∀ s ∈ l', D s := by
  induction ha with
  | nil => exact fun _ h => by cases h
  | cons a _ ih =>
    intro s hs
    rcases List.mem_cons.1 hs with rfl | hs
    · rcases a with rfl | ⟨_, hk⟩
      · exact hl _ (List.mem_cons_self ..)
      · exact tied_keep N hk (hl _ (List.mem_cons_self ..))
    · exact ih (fun s h => hl s (List.mem_cons_of_mem _ h)) s hs

theorem tie_frame {o : Option UInt32} {c c' : Ctx} (h : Frame true o c c') : Tie N D c c' := fun hn => ⟨h.neg rfl ▸ hn, tie_table N h.sessions⟩

theorem tie {o : Option UInt32} {ε α : Type} {x : M ε Ctx α} (h : M.Rel (Frame true o) x) : M.Rel (Tie N D) x := h.mono fun _ _ h => tie_frame h

theorem tie_onSession {α : Type} (sid : UInt32) {missing : M Status Ctx α} {x : M Status Session α} (hm : M.Rel (Tie N D) missing)
    (hx : ∀ s, s.id = sid → D s → x.wp s (fun _ s' => D s') (fun _ s' => D s')) : M.Rel (Tie N D) (Ctx.onSession sid missing x) := by
  intro c
  unfold Ctx.onSession
  simp only [M.wp_bind, M.wp_get]
  split
  · exact hm c
  · rename_i s hs
    have hx := hx s (session?_id hs)
    unfold M.wp at hx
    split
    · rename_i a s' hxs
      rw [hxs] at hx
      simp only [M.wp_bind, M.wp_set, M.wp_pure]
      exact tie_upd c sid _ fun s1 h1 h2 => by rw [hs] at h1; cases h1; exact hx h2
    · rename_i a s' hxs
      rw [hxs] at hx
      simp only [M.wp_bind, M.wp_set, M.wp_fail]
      exact tie_upd c sid _ fun s1 h1 h2 => by rw [hs] at h1; cases h1; exact hx h2
    · trivial

theorem tie_teardown (sid : UInt32) : M.Rel (Tie N D) (Ctx.onSession sid M.panic (Session.teardown sid)) := by
  refine tie_onSession sid M.Rel.panic fun s hs _ => ?_
  unfold Session.teardown
  rw [M.wp_bind, M.wp_get, M.wp_ite]
  exact ⟨fun _ => Tied.free N s, fun _ => trivial⟩

theorem tie_modify (sid : UInt32) {f : Session → Session} (h : ∀ s, (f s).id = s.id ∧ (f s).usePsk = s.usePsk ∧ (f s).setting = s.setting) :
    M.Rel (Tie N D) (Ctx.onSession sid M.panic (M.modify f)) :=
  tie_onSession sid M.Rel.panic fun s _ hd => Tied.keep N s (f s) (h s).1 (h s).2.1 (h s).2.2 hd

omit [Tied N D] in
theorem tie_rt {ε : Type} {f : Ctx → Ctx} (h : ∀ c, (f c).sessions = c.sessions ∧ (f c).neg = c.neg) : M.Rel (Tie N D) (M.modify f : M ε Ctx Unit) :=
  M.Rel.modify fun c => tie_same (h c).1 (h c).2

theorem tie_policy {ε : Type} {f : Ctx → Ctx} (h : ∀ c, (f c).sessions = c.sessions ∧ ∃ p, (f c).neg = { c.neg with terminationPolicy := p }) :
    M.Rel (Tie N D) (M.modify f : M ε Ctx Unit) := by
  refine M.Rel.modify fun c hn => ?_
  obtain ⟨h1, p, h2⟩ := h c
  exact ⟨by rw [h2]; exact Tied.policy D c.neg p hn, fun hc s hs => hc s (h1 ▸ hs)⟩

omit [Tied N D] in
/-- code that reads the context knows that its parameters are `N`. -/
theorem tie_get {ε α : Type} {f : Ctx → M ε Ctx α} (h : ∀ c, N c.neg → M.Rel (Tie N D) (f c)) : M.Rel (Tie N D) (M.get >>= f) := by
  intro c
  rw [M.wp_bind, M.wp_get]
  by_cases hn : N c.neg
  · exact h c hn c
  · have : ∀ c', Tie N D c c' := fun c' h0 => absurd h0 hn
    unfold M.wp
    cases f c c <;> first | trivial | exact this _

/-! ### Sending -/

theorem tie_devSend (pkt : Bytes) : M.Rel (Tie N D) (Ctx.devSend e pkt) := tie (Ctx.rel_devSend (k := true) (sid := none) _)

theorem tie_afterSecured (sid : UInt32) (op : UInt8) : M.Rel (Tie N D) (afterSecured sid op) := by
  unfold afterSecured
  exact M.Rel.ite (fun _ => tie_teardown sid) fun _ => M.Rel.ite (fun _ => tie_modify sid fun _ => ⟨rfl, rfl, rfl⟩) fun _ => M.Rel.pure _

theorem tie_sendSecuredPlain (sid : UInt32) (msg : Bytes) (isApp : Bool) : M.Rel (Tie N D) (sendSecuredPlain e sid msg isApp) := by
  unfold sendSecuredPlain
  exact M.Rel.bind (tie (Ctx.rel_encodeSecured (k := true) _ _ _ _)) fun _ => M.Rel.bind (tie_devSend _) fun _ => M.Rel.bind (M.Rel.unwrap _) fun _ => tie_afterSecured _ _

theorem tie_sendSecured (sid : UInt32) (msg : Bytes) (isApp : Bool) : M.Rel (Tie N D) (sendSecured e sid msg isApp) := by
  unfold sendSecured
  have := fun b => tie_sendSecuredPlain (e := e) (N := N) (D := D) sid b isApp
  rel <;> exact this _

theorem tie_setState {ε : Type} (st : ConnState) : M.Rel (Tie N D) (setState st : M ε Ctx Unit) := tie_rt fun _ => ⟨rfl, rfl⟩

theorem tie_afterSend (op : UInt8) : M.Rel (Tie N D) (afterSend op) := by
  unfold afterSend
  rel
  all_goals first | exact tie_setState _ | exact tie_modify _ fun _ => ⟨rfl, rfl, rfl⟩ | exact tie_rt fun _ => ⟨rfl, rfl⟩

theorem tie_sendPlain (msg : Bytes) : M.Rel (Tie N D) (sendPlain e msg) := by
  unfold sendPlain
  exact M.Rel.bind (M.Rel.lift _) fun _ => M.Rel.bind (tie_devSend _) fun _ => M.Rel.bind (M.Rel.unwrap _) fun _ => tie_afterSend _

theorem tie_sendMessage (msg : Bytes) : M.Rel (Tie N D) (sendMessage e msg) := by
  unfold sendMessage
  have := fun b => tie_sendPlain (e := e) (N := N) (D := D) b
  rel <;> exact this _

theorem tie_send (sid : Option UInt32) (msg : Bytes) : M.Rel (Tie N D) (send e sid msg) := by
  unfold send
  cases sid
  · exact tie_sendMessage _
  · exact tie_sendSecured _ _ _

theorem tie_reply {x : H Bytes} (h : M.Rel (Tie N D) x) : M.Rel (Tie N D) (reply x) := rel_reply h

/-! ### KEY_EXCHANGE and PSK_EXCHANGE -/

theorem tie_orTeardown {α : Type} (sid : UInt32) {x : M Status Ctx α} (h : M.Rel (Tie N D) x) : M.Rel (Tie N D) (orTeardown sid x) := by
  unfold orTeardown
  refine M.Rel.bind (M.Rel.try' h) fun r => ?_
  cases r
  · exact M.Rel.bind (tie_teardown sid) fun _ => M.Rel.fail _
  · exact M.Rel.pure _

theorem tie_thOf (sid : UInt32) : M.Rel (Tie N D) (thOf e sid) := tie (rel_thOf (k := true) (o := none) _)

theorem tie_responseHmac (sid : UInt32) : M.Rel (Tie N D) (responseHmac e sid) := by
  unfold responseHmac
  exact M.Rel.bind (tie_thOf _) fun _ => M.Rel.bind M.Rel.get fun _ => M.Rel.bind (M.Rel.unwrap _) fun _ =>
    M.Rel.bind (tie_orTeardown _ (M.Rel.lift _)) fun _ => M.Rel.bind (tie_orTeardown _ (tie (rel_appendK _))) fun _ => M.Rel.pure _

theorem tie_genHandshake (sid : UInt32) (v : SpdmVersion) (th : Bytes) : M.Rel (Tie N D) (Ctx.onSession sid M.panic (Session.genHandshake e.crypto v th)) :=
  tie (Ctx.rel_onSession _ _ _ M.Rel.panic (Session.keep_genHandshake _ _ _))

omit [Tied N D] in
theorem tied_pick (o : Bytes) (s : Session) : (pickSecureVersion o s).id = s.id ∧ (pickSecureVersion o s).usePsk = s.usePsk ∧ (pickSecureVersion o s).setting = s.setting := by
  unfold pickSecureVersion
  split <;> exact ⟨rfl, rfl, rfl⟩

theorem tie_keyExchangePatch (sid : UInt32) (inClear : Bool) (asym hs : Nat) (sig rsp : Bytes) :
    M.Rel (Tie N D) (keyExchangePatch e sid inClear asym hs sig rsp) := by
  unfold keyExchangePatch
  have := tie_responseHmac (e := e) (N := N) (D := D) sid
  rel

theorem tie_keyExchangeSig (sid : UInt32) : M.Rel (Tie N D) (keyExchangeSig e sid) := by
  unfold keyExchangeSig
  have := tie_thOf (e := e) (N := N) (D := D) sid
  rel

theorem tie_rememberSession (inClear : Bool) (sid : UInt32) : M.Rel (Tie N D) (rememberSession inClear sid) := by
  unfold rememberSession
  exact M.Rel.ite (fun _ => tie_rt fun _ => ⟨rfl, rfl⟩) fun _ => M.Rel.pure _

theorem tie_keyExchangeBody (k : KeyEx) (req : Bytes) (sid : UInt32) (rspId : UInt16) (exchange sum opaq : Bytes) :
    M.Rel (Tie N D) (keyExchangeBody e k req sid rspId exchange sum opaq) := by
  unfold keyExchangeBody
  refine M.Rel.bind (M.Rel.ofOption _ _) fun random => M.Rel.bind M.Rel.get fun c => M.Rel.bind (M.Rel.unwrap _) fun asym =>
    M.Rel.bind (M.Rel.unwrap _) fun hs => M.Rel.bind (tie (rel_encodeMsgRsp (sid := sid) _ _)) fun rsp => M.Rel.bind (M.Rel.lift _) fun body =>
    M.Rel.bind (tie (rel_addK _)) fun _ => M.Rel.bind (tie (rel_addK _)) fun _ => M.Rel.bind (tie_keyExchangeSig _) fun sig =>
    M.Rel.bind (tie (rel_addK _)) fun _ => M.Rel.bind (tie_thOf _) fun th1 => M.Rel.bind (tie_genHandshake _ _ _) fun _ =>
    M.Rel.bind (tie_keyExchangePatch _ _ _ _ _ _) fun rsp => M.Rel.bind (tie_modify _ fun s => ?_) fun _ =>
    M.Rel.bind (tie_rememberSession _ _) fun _ => M.Rel.pure _
  exact tied_pick opaq { s with heartbeat := c.config.heartbeat }

theorem tie_pskEstablish (nc : Bool) (sid : UInt32) : M.Rel (Tie N D) (pskEstablish e nc sid) := by
  unfold pskEstablish
  refine M.Rel.ite (fun _ => M.Rel.pure _) fun hnc => M.Rel.bind (tie_thOf _) fun th => ?_
  intro c
  rw [M.wp_bind, M.wp_get, M.wp_bind, M.wp_unwrap]
  intro s hs
  split
  · rename_i u s' hg
    have hk := (Session.keep_genData _ _ _).ok hg
    refine tie_upd c _ _ fun t ht hd => ?_
    rw [hs] at ht; cases ht
    exact Tied.keep N s _ hk.1 hk.2.2.1 hk.2.2.2 hd
  · trivial

theorem tie_pskExchangeBody (req : Bytes) (sid : UInt32) (rspId : UInt16) (context sum opaq : Bytes) :
    M.Rel (Tie N D) (pskExchangeBody e req sid rspId context sum opaq) := by
  unfold pskExchangeBody
  refine M.Rel.bind M.Rel.get fun c => M.Rel.bind (M.Rel.unwrap _) fun hs => M.Rel.bind (tie (rel_encodeMsgRsp (sid := sid) _ _)) fun rsp => M.Rel.bind (M.Rel.lift _) fun body =>
    M.Rel.bind (tie (rel_addK _)) fun _ => M.Rel.bind (tie (rel_addK _)) fun _ => M.Rel.bind (tie_thOf _) fun th1 =>
    M.Rel.bind (tie_genHandshake _ _ _) fun _ => M.Rel.bind (tie_responseHmac _) fun mac => M.Rel.bind (M.Rel.lift _) fun rsp =>
    M.Rel.bind (tie_modify _ fun s => ⟨rfl, rfl, rfl⟩) fun _ =>
    M.Rel.bind (tie_pskEstablish _ _) fun _ => M.Rel.bind (tie_modify _ fun s => ?_) fun _ => M.Rel.pure _
  exact tied_pick opaq { s with heartbeat := c.config.heartbeat }

theorem tie_openDhe (c : Ctx) (sid : UInt32) (slot : UInt8) (certHash final : Bytes)
    (hD : ∀ s : Session, s.usePsk = false → s.setting = (e.mutAuth, c.neg.baseHash, c.neg.aead, none) → D s) :
    M.Rel (Tie N D) (Ctx.onSession 0 (M.fail .invalidStateLocal) (openDhe e c sid slot certHash final)) := by
  refine tie_onSession 0 (M.Rel.fail _) fun s hs _ => ?_
  unfold openDhe Session.setup
  simp only [M.wp_bind, M.wp_get, hs, if_true, M.wp_set, M.wp_modify]
  rw [M.wp_try]
  refine (Session.keep_setDheSecret e.crypto c.neg.version final _).mono ?_ ?_
  · rintro _ s' ⟨-, -, h3, h4⟩
    simp only [M.wp_modify]
    exact hD _ h3 h4
  · rintro st s' ⟨h1, -⟩
    simp only [M.wp_bind, Session.teardown, M.wp_get]
    have : s'.id = sid := h1
    simp only [this, if_true, M.wp_set, M.wp_fail]
    exact Tied.free N s'

theorem tie_openPsk (c : Ctx) (sid : UInt32) (hint : Bytes)
    (hD : ∀ s : Session, s.usePsk = true → s.setting = (0, c.neg.baseHash, c.neg.aead, some hint) → D s) :
    M.Rel (Tie N D) (Ctx.onSession 0 (M.fail .invalidStateLocal) (openPsk e c sid hint)) := by
  refine tie_onSession 0 (M.Rel.fail _) fun s hs _ => ?_
  unfold openPsk Session.setup
  simp only [M.wp_bind, M.wp_get, hs, if_true, M.wp_set, M.wp_modify]
  exact hD _ rfl rfl

theorem tie_readMsg {α : Type} (x : Cc → Rd α) (bytes : Bytes) (r : Reader) : M.Rel (Tie N D) (readMsg x bytes r) := by
  unfold readMsg; rel

/-- sessions opened on a connection with parameters `N` are as `D` says. -/
structure Opening (e : Env) (N : Neg → Prop) (D : Session → Prop) : Prop where
  dhe : ∀ (n : Neg) (s : Session), N n → s.usePsk = false → s.setting = (e.mutAuth, n.baseHash, n.aead, none) → D s
  psk : ∀ (n : Neg) (s : Session) (hint : Bytes), N n → s.usePsk = true → s.setting = (0, n.baseHash, n.aead, some hint) → D s

theorem tie_keyExchangeRsp (hO : Opening e N D) (bytes : Bytes) : M.Rel (Tie N D) (keyExchangeRsp e bytes) := by
  unfold keyExchangeRsp
  refine M.Rel.bind (tie (rel_exchangeStart _)) fun r => M.Rel.bind (tie (o := none) (Ctx.rel_resetBuffers _)) fun _ => M.Rel.bind (tie_readMsg _ _ _) fun ⟨m, req⟩ =>
    M.Rel.bind (tie (o := none) (rel_summaryHash _)) fun sum => M.Rel.bind (M.Rel.ofOption _ _) fun sum =>
    M.Rel.bind (tie_policy fun c => ⟨rfl, _, rfl⟩) fun _ => tie_get fun c hc => M.Rel.bind (M.Rel.lift _) fun opaq => M.Rel.bind (M.Rel.ofOption _ _) fun _ =>
    M.Rel.bind (tie_rt fun _ => ⟨rfl, rfl⟩) fun _ => M.Rel.bind (M.Rel.unwrap _) fun ⟨exchange, final⟩ => M.Rel.bind (M.Rel.ofOption _ _) fun final =>
    M.Rel.bind (M.Rel.mapErr _ (M.Rel.lift _)) fun rspId => M.Rel.bind (M.Rel.ofOption _ _) fun certHash => ?_
  exact M.Rel.bind (tie_openDhe _ _ _ _ _ fun s => hO.dhe c.neg s hc) fun _ => tie_keyExchangeBody _ _ _ _ _ _ _

theorem tie_pskExchangeRsp (hO : Opening e N D) (bytes : Bytes) : M.Rel (Tie N D) (pskExchangeRsp e bytes) := by
  unfold pskExchangeRsp
  refine M.Rel.bind (tie (rel_exchangeStart _)) fun r => M.Rel.bind (tie (o := none) (Ctx.rel_resetBuffers _)) fun _ => M.Rel.bind (tie_readMsg _ _ _) fun ⟨m, req⟩ =>
    M.Rel.bind (tie (o := none) (rel_summaryHash _)) fun sum => M.Rel.bind (M.Rel.ofOption _ _) fun sum =>
    tie_get fun c hc => M.Rel.bind (M.Rel.lift _) fun opaq => M.Rel.bind ?_ fun context =>
    M.Rel.bind (M.Rel.mapErr _ (M.Rel.lift _)) fun rspId => ?_
  · unfold pskContext; rel
  · exact M.Rel.bind (tie_openPsk _ _ _ fun s => hO.psk c.neg s m.hint hc) fun _ => tie_pskExchangeBody _ _ _ _ _ _

/-! ### Dispatch -/

theorem tie_reset {ε : Type} (hN : ∀ n, N n) : M.Rel (Tie N D) (M.modify Ctx.reset : M ε Ctx Unit) := by
  refine M.Rel.modify fun c _ => ⟨hN _, fun _ s hs => ?_⟩
  obtain ⟨t, _, rfl⟩ := List.mem_map.1 hs
  exact Tied.free N t

omit [Tied N D] in
theorem tie_encodeVersion : M.Rel (Tie N D) encodeVersion := by
  intro c
  rw [M.wp, encodeVersion_ok]
  exact M.Pre.refl (R := Tie N D) c

omit [Tied N D] in
theorem tie_appendA (msg : Bytes) : M.Rel (Tie N D) (Ctx.appendA msg) := by
  intro c
  unfold Ctx.appendA
  simp only [M.wp_bind, M.wp_get]
  split
  · exact (tie_same rfl rfl : Tie N D c _)
  · exact (M.Pre.refl c : Tie N D c c)

theorem tie_versionRsp (hN : ∀ n, N n) (bytes : Bytes) : M.Rel (Tie N D) (versionRsp bytes) := by
  unfold versionRsp
  exact M.Rel.bind (tie (o := none) (rel_header _)) fun _ => M.Rel.ite (fun _ => M.Rel.fail _) fun _ =>
    M.Rel.bind (tie (o := none) (Ctx.rel_resetBuffers _)) fun _ => M.Rel.bind (tie (o := none) (rel_readReq _ _ _)) fun _ =>
    M.Rel.bind (tie_reset hN) fun _ => M.Rel.bind (M.Rel.mapErr _ (tie_appendA _)) fun _ => M.Rel.bind tie_encodeVersion fun _ =>
    M.Rel.bind (M.Rel.mapErr _ (tie_appendA _)) fun _ => M.Rel.pure _

theorem tie_any (hN : ∀ n, N n) {k : Bool} {o : Option UInt32} {ε α : Type} {x : M ε Ctx α} (h : M.Rel (Frame k o) x) : M.Rel (Tie N D) x :=
  h.mono fun _ _ h _ => ⟨hN _, tie_table N h.sessions⟩

theorem tie_answer {o : Option UInt32} {x : H Bytes} (h : M.Rel (Frame true o) x) (sid : Option UInt32) :
    M.Rel (Tie N D) (do let b ← reply x; send e sid b) := M.Rel.bind (tie_reply (tie h)) fun _ => tie_send _ _

theorem tie_plain {o : Option UInt32} {x : H Bytes} (h : M.Rel (Frame true o) x) :
    M.Rel (Tie N D) (do let b ← reply x; sendMessage e b) := M.Rel.bind (tie_reply (tie h)) fun _ => tie_sendMessage _

theorem tie_sealed {o : Option UInt32} {x : H Bytes} (h : M.Rel (Frame true o) x) (sid : UInt32) :
    M.Rel (Tie N D) (do let b ← reply x; sendSecured e sid b false) := M.Rel.bind (tie_reply (tie h)) fun _ => tie_sendSecured _ _ _

theorem tie_handleError (code : ErrorCode) (sid : Option UInt32) (bytes : Bytes) : M.Rel (Tie N D) (handleError e code sid bytes) :=
  tie_answer (rel_errorResponse (k := true) (sid := none) code bytes) sid

theorem tie_handleFinish (sid : UInt32) (bytes : Bytes) : M.Rel (Tie N D) (handleFinish e sid bytes) := by
  unfold handleFinish
  exact M.Rel.bind M.Rel.get fun _ => M.Rel.bind (tie (rel_finishRsp _)) fun _ => M.Rel.ite (fun _ => tie_sendMessage _) fun _ => tie_sendSecured _ _ _

theorem tie_plainFinish (bytes : Bytes) : M.Rel (Tie N D) (plainFinish e bytes) := by
  unfold plainFinish
  refine M.Rel.bind M.Rel.get fun c => ?_
  split
  · exact tie_handleError _ _ _
  · split
    · exact tie_handleError _ _ _
    · exact M.Rel.ite (fun _ => tie_handleFinish _ _) fun _ => tie_handleError _ _ _

/-- requests that set the parameters of the connection. -/
def Negotiates (k : ReqRespCode) : Prop := k = .reqGetVersion ∨ k = .reqGetCapabilities ∨ k = .reqNegotiateAlgorithms

theorem tie_dispatchCode (hO : Opening e N D) (k : ReqRespCode) (hk : Negotiates k → ∀ n, N n) (bytes : Bytes) : M.Rel (Tie N D) (dispatchCode e k bytes) := by
  unfold dispatchCode
  split
  · exact M.Rel.bind (tie_reply (tie_versionRsp (hk (.inl rfl)) _)) fun _ => tie_sendMessage _
  · exact M.Rel.bind (tie_reply (tie_any (hk (.inr (.inl rfl))) (rel_capabilityRsp _))) fun _ => tie_sendMessage _
  · exact M.Rel.bind (tie_reply (tie_any (hk (.inr (.inr rfl))) (rel_algorithmRsp _))) fun _ => tie_sendMessage _
  · exact tie_answer (rel_digestRsp (sid := none) bytes) _
  · exact tie_answer (rel_certificateRsp (sid := none) bytes) _
  · exact tie_plain (rel_challengeRsp _)
  · exact tie_answer (rel_measurementRsp (sid := none) bytes) _
  · exact M.Rel.bind (tie_keyExchangeRsp hO _) fun _ => tie_sendMessage _
  · exact M.Rel.bind (tie_pskExchangeRsp hO _) fun _ => tie_sendMessage _
  · exact tie_answer (rel_vendorRsp (sid := none) bytes) _
  · exact tie_plainFinish _
  all_goals first | exact tie_handleError _ _ _ | exact M.Rel.fail _

theorem tie_dispatch (hO : Opening e N D) (hN : ∀ n, N n) (bytes : Bytes) : M.Rel (Tie N D) (dispatch e bytes) := by
  unfold dispatch
  exact M.Rel.bind (M.Rel.lift _) fun _ => tie_dispatchCode hO _ (fun _ => hN) _

theorem tie_dispatchHandshake (sid : UInt32) (bytes : Bytes) : M.Rel (Tie N D) (dispatchHandshake e sid bytes) := by
  unfold dispatchHandshake
  refine M.Rel.bind M.Rel.get fun c => M.Rel.ite (fun _ => M.Rel.fail _) fun _ => M.Rel.bind (M.Rel.lift _) fun ⟨h, r⟩ => ?_
  dsimp only
  split
  · exact tie_handleFinish _ _
  · exact M.Rel.bind (tie (rel_pskFinishRsp _)) fun _ => tie_sendSecured _ _ _
  · exact tie_answer (rel_vendorRsp (sid := some sid) bytes) _
  all_goals first | exact tie_handleError _ _ _ | exact M.Rel.fail _

theorem tie_dispatchApplication (sid : UInt32) (bytes : Bytes) : M.Rel (Tie N D) (dispatchApplication e sid bytes) := by
  unfold dispatchApplication
  refine M.Rel.bind (M.Rel.lift _) fun ⟨h, r⟩ => ?_
  dsimp only
  split
  · exact tie_answer (rel_digestRsp (sid := some sid) bytes) _
  · exact tie_answer (rel_certificateRsp (sid := some sid) bytes) _
  · exact tie_answer (rel_measurementRsp (sid := some sid) bytes) _
  · exact tie_sealed (rel_heartbeatRsp _ _) _
  · exact tie_sealed (rel_keyUpdateRsp _ _) _
  · exact tie_sealed (rel_endSessionRsp _ _) _
  · exact tie_answer (rel_vendorRsp (sid := some sid) bytes) _
  all_goals first | exact tie_handleError _ _ _ | exact M.Rel.fail _

theorem tie_dispatchSecured (sid : UInt32) (bytes : Bytes) : M.Rel (Tie N D) (dispatchSecured e sid bytes) := by
  unfold dispatchSecured
  refine M.Rel.bind M.Rel.get fun c => ?_
  split
  · exact M.Rel.fail _
  · split
    · exact tie_dispatchHandshake _ _
    · exact tie_dispatchApplication _ _
    · exact M.Rel.fail _

theorem tie_dispatchApp (sid : UInt32) (bytes : Bytes) : M.Rel (Tie N D) (dispatchApp e sid bytes) := by
  unfold dispatchApp
  exact M.Rel.bind (M.Rel.unwrap _) fun _ => tie_sendSecured _ _ _

theorem tie_openSecured (pkt : Bytes) : M.Rel (Tie N D) (openSecured e pkt) := by
  unfold openSecured
  refine M.Rel.bind (M.Rel.mapErr _ (M.Rel.lift _)) fun ⟨sid, r⟩ => M.Rel.bind (M.Rel.mapErr _ (tie
    (Ctx.rel_onSession _ _ _ (M.Rel.fail _) (Session.keep_decodeSecured _ _ _ _)))) fun _ => M.Rel.bind (M.Rel.mapErr _ (M.Rel.lift _)) fun _ => M.Rel.pure _

/-- processing a packet keeps the property, if it does not depend on the negotiated parameters. -/
theorem tie_processMessage (hO : Opening e N D) (hN : ∀ n, N n) (rx : Bytes) : M.Rel (Tie N D) (processMessage e rx) := by
  unfold processMessage
  refine M.Rel.bind (M.Rel.mapErr _ (M.Rel.lift _)) fun ⟨pkt, sec⟩ => M.Rel.ite (fun _ => M.Rel.bind (tie_openSecured _) fun ⟨sid, msg, isApp⟩ => ?_)
    fun _ => rel_isOk (tie_dispatch hO hN _)
  exact M.Rel.ite (fun _ => rel_isOk (tie_dispatchApp _ _)) fun _ => rel_isOk (tie_dispatchSecured _ _)

end Rsp
end Verif
