/-
What the responder's response writers leave alone: a frame relation between the context before and after.
-/
import Verif.Responder.Dispatch
import Verif.Session.DirLemmas
import Verif.Msg.Ext

namespace Verif

/-! ### Sessions -/

/-- what a session is set up with: whether it asks for mutual authentication, its algorithms and its PSK hint. -/
def Session.setting (s : Session) : UInt8 × BaseHash × Aead × Option Bytes := (s.mutAuth, s.hash, s.aead, s.pskHint)

/-- same session id, phase, kind (how it was opened) and setting. -/
def Session.Keep (s s' : Session) : Prop := s'.id = s.id ∧ s'.state = s.state ∧ s'.usePsk = s.usePsk ∧ s'.setting = s.setting

instance : M.Pre Session.Keep where
  refl _ := ⟨rfl, rfl, rfl, rfl⟩
  trans h h' := ⟨h'.1.trans h.1, h'.2.1.trans h.2.1, h'.2.2.1.trans h.2.2.1, h'.2.2.2.trans h.2.2.2⟩

theorem M.Rel.lift {σ α : Type} {R : σ → σ → Prop} [M.Pre R] (x : Res α) : M.Rel R (x.lift : M Status σ α) := by
  intro s
  cases x
  · exact M.Pre.refl s
  · exact M.Pre.refl s
  · trivial

/-- prove `M.Rel` by following the structure of a `do` block; unsolved leaves remain. -/
macro "rel" : tactic => `(tactic|
  repeat' (first
    | with_reducible assumption
    | with_reducible first
      | exact M.Rel.pure _ | exact M.Rel.panic | exact M.Rel.fail _ | exact M.Rel.unwrap _ | exact M.Rel.ofOption _ _
      | exact M.Rel.get | exact M.Rel.lift _
      | apply M.Rel.mapErr | apply M.Rel.try' | apply M.Rel.ite | apply M.Rel.bind
      | intro _))

namespace Session

theorem bump_kind (s : Session) (r : Bool) : (s.bump r).usePsk = s.usePsk ∧ (s.bump r).setting = s.setting := by
  unfold bump; cases s.state <;> cases r <;> exact ⟨rfl, rfl⟩

theorem keep_dispatchDir (x : Session → SecretParam → Res Bytes) (isReq : Bool) : M.Rel Keep (dispatchDir x isReq) := by
  intro s
  by_cases h : s.state = .notStarted
  · rw [M.wp, dispatchDir_notStarted _ _ _ h]
    exact ⟨rfl, rfl, rfl, rfl⟩
  · rw [M.wp, dispatchDir_eq _ _ _ h]
    cases x s (s.dir isReq) <;> simp [Keep, bump_kind]

theorem keep_encodeSecured (c : Crypto) (app : Bytes) (cap : Nat) (r : Bool) : M.Rel Keep (encodeSecured c app cap r) :=
  keep_dispatchDir _ _
theorem keep_decodeSecured (c : Crypto) (sec : Bytes) (cap : Nat) (r : Bool) : M.Rel Keep (decodeSecured c sec cap r) :=
  keep_dispatchDir _ _
theorem keep_modify {ε : Type} {f : Session → Session} (h : ∀ s, Keep s (f s)) : M.Rel Keep (M.modify f : M ε Session Unit) :=
  M.Rel.modify h

theorem keep_setDheSecret (c : Crypto) (v : SpdmVersion) (d : Bytes) : M.Rel Keep (setDheSecret c v d) := by
  unfold setDheSecret
  rel <;> exact keep_modify fun _ => ⟨rfl, rfl, rfl, rfl⟩
theorem keep_genHandshake (c : Crypto) (v : SpdmVersion) (d : Bytes) : M.Rel Keep (genHandshake c v d) := by
  unfold genHandshake
  rel <;> exact keep_modify fun _ => ⟨rfl, rfl, rfl, rfl⟩
theorem keep_genData (c : Crypto) (v : SpdmVersion) (d : Bytes) : M.Rel Keep (genData c v d) := by
  unfold genData
  rel <;> exact keep_modify fun _ => ⟨rfl, rfl, rfl, rfl⟩
theorem keep_createReq (c : Crypto) (v : SpdmVersion) : M.Rel Keep (createReq c v) := by
  unfold createReq
  rel <;> exact keep_modify fun _ => ⟨rfl, rfl, rfl, rfl⟩
theorem keep_createRsp (c : Crypto) (v : SpdmVersion) : M.Rel Keep (createRsp c v) := by
  unfold createRsp
  rel <;> exact keep_modify fun _ => ⟨rfl, rfl, rfl, rfl⟩
theorem keep_createUpdate (c : Crypto) (v : SpdmVersion) (req rsp : Bool) : M.Rel Keep (createUpdate c v req rsp) := by
  unfold createUpdate
  have := keep_createReq c v
  have := keep_createRsp c v
  rel
theorem keep_activateUpdate (req rsp new : Bool) (s : Session) : Keep s (activateUpdate req rsp new s) := by
  unfold activateUpdate
  cases req <;> cases rsp <;> cases new <;> exact ⟨rfl, rfl, rfl, rfl⟩

end Session

/-! ### Session tables -/

/-- a session is unchanged unless it is the one with id `sid`, which keeps its id and phase. -/
def Loc (sid : Option UInt32) (s s' : Session) : Prop := s' = s ∨ (sid = some s.id ∧ s.Keep s')

theorem Loc.refl (sid : Option UInt32) (s : Session) : Loc sid s s := .inl rfl
theorem Loc.trans {sid : Option UInt32} {a b c : Session} (h : Loc sid a b) (h' : Loc sid b c) : Loc sid a c := by
  rcases h with rfl | ⟨h1, h2⟩
  · exact h'
  · rcases h' with rfl | ⟨h3, h4⟩
    · exact .inr ⟨h1, h2⟩
    · exact .inr ⟨h1, M.Pre.trans h2 h4⟩

/-- two lists of the same length, related position by position. -/
inductive All2 {α β : Type} (R : α → β → Prop) : List α → List β → Prop
  | nil : All2 R [] []
  | cons {a b l m} : R a b → All2 R l m → All2 R (a :: l) (b :: m)

namespace All2
variable {α β : Type}
theorem refl {R : α → α → Prop} (h : ∀ a, R a a) : ∀ l, All2 R l l
  | [] => .nil
  | a :: l => .cons (h a) (refl h l)
theorem trans {R : α → α → Prop} (h : ∀ a b c, R a b → R b c → R a c) :
    ∀ {l m n : List α}, All2 R l m → All2 R m n → All2 R l n
  | _, _, _, .nil, .nil => .nil
  | _, _, _, .cons a as, .cons b bs => .cons (h _ _ _ a b) (trans h as bs)
theorem imp {R S : α → β → Prop} (h : ∀ a b, R a b → S a b) : ∀ {l m}, All2 R l m → All2 S l m
  | _, _, .nil => .nil
  | _, _, .cons a as => .cons (h _ _ a) (imp h as)
theorem length_eq {R : α → β → Prop} : ∀ {l m}, All2 R l m → m.length = l.length
  | _, _, .nil => rfl
  | _, _, .cons _ as => by simp [length_eq as]
theorem get {R : α → β → Prop} : ∀ {l m}, All2 R l m → ∀ (i : Nat) (h : i < l.length) (h' : i < m.length), R l[i] m[i]
  | _, _, .nil, _, h, _ => by simp at h
  | _, _, .cons a _, 0, _, _ => a
  | _, _, .cons _ as, i + 1, h, h' => by
    simp only [List.getElem_cons_succ]
    exact get as i (by simpa using h) (by simpa using h')
end All2

/-- updating the first session with that id is local to it. -/
theorem loc_updFirst {sid : UInt32} {f : Session → Session} (l : List Session)
    (h : ∀ s, l.find? (·.id = sid) = some s → s.Keep (f s)) :
    All2 (Loc (some sid)) l (Ctx.updFirst (·.id = sid) f l) := by
  induction l with
  | nil => exact .nil
  | cons a l ih =>
    unfold Ctx.updFirst
    by_cases hp : a.id = sid
    · simp only [hp, decide_true, if_true]
      refine .cons (.inr ⟨by rw [hp], ?_⟩) (All2.refl (Loc.refl _) _)
      exact h a (by simp [hp])
    · simp only [hp, decide_false]
      exact .cons (.inl rfl) (ih fun s hs => h s (by simp [hp, hs]))

/-! ### The frame relation -/

/-- connection state, last session and configuration are kept, sessions other than `sid` are unchanged, session `sid`
keeps its id and phase, packets are only added; with `k` the negotiated parameters, message A, provisioning and peer
information are kept too. -/
structure Frame (k : Bool) (sid : Option UInt32) (c c' : Ctx) : Prop where
  config : c'.config = c.config
  state : c'.rt.state = c.rt.state
  last : c'.rt.lastSession = c.rt.lastSession
  sessions : All2 (Loc sid) c.sessions c'.sessions
  sent : c.sent <+: c'.sent
  neg : k = true → c'.neg = c.neg
  messageA : k = true → c'.rt.messageA = c.rt.messageA
  prov : k = true → c'.prov = c.prov
  peer : c'.peer = c.peer

instance (k : Bool) (sid : Option UInt32) : M.Pre (Frame k sid) where
  refl c := ⟨rfl, rfl, rfl, All2.refl (Loc.refl _) _, List.prefix_refl _, fun _ => rfl, fun _ => rfl, fun _ => rfl, rfl⟩
  trans h h' := ⟨h'.config.trans h.config, h'.state.trans h.state, h'.last.trans h.last,
    All2.trans (R := Loc _) (fun _ _ _ g g' => Loc.trans g g') h.sessions h'.sessions, h.sent.trans h'.sent,
    fun k => (h'.neg k).trans (h.neg k), fun k => (h'.messageA k).trans (h.messageA k), fun k => (h'.prov k).trans (h.prov k),
    h'.peer.trans h.peer⟩

theorem Frame.weaken {k : Bool} {sid : Option UInt32} {c c' : Ctx} (h : Frame true sid c c') : Frame k sid c c' :=
  ⟨h.config, h.state, h.last, h.sessions, h.sent, fun _ => h.neg rfl, fun _ => h.messageA rfl, fun _ => h.prov rfl, h.peer⟩

theorem Frame.ofNone {k : Bool} {sid : Option UInt32} {c c' : Ctx} (h : Frame k none c c') : Frame k sid c c' :=
  ⟨h.config, h.state, h.last, All2.imp (fun _ _ hl => .inl (hl.resolve_right (by simp))) h.sessions, h.sent, h.neg, h.messageA, h.prov, h.peer⟩

namespace Ctx

variable {k : Bool} {sid : Option UInt32} {e : Env}

/-- the context with only runtime transcript fields changed. -/
theorem frame_rt (c : Ctx) (r : Runtime) (h : r.state = c.rt.state) (h' : r.lastSession = c.rt.lastSession)
    (h'' : r.messageA = c.rt.messageA) : Frame k sid c { c with rt := r } :=
  ⟨rfl, h, h', All2.refl (Loc.refl _) _, List.prefix_refl _, fun _ => rfl, fun _ => h'', fun _ => rfl, rfl⟩

theorem frame_updSession (c : Ctx) (i : UInt32) (f : Session → Session) (h : ∀ s, c.session? i = some s → s.Keep (f s)) :
    Frame k (some i) c (c.updSession i f) :=
  ⟨rfl, rfl, rfl, loc_updFirst _ h, List.prefix_refl _, fun _ => rfl, fun _ => rfl, fun _ => rfl, rfl⟩

theorem frame_resetM (c : Ctx) : Frame k sid c (resetM sid c) := by
  cases sid with
  | none => exact frame_rt c _ rfl rfl rfl
  | some i => exact frame_updSession c i _ fun _ _ => ⟨rfl, rfl, rfl, rfl⟩

theorem frame_resetM1M2 (c : Ctx) : Frame k sid c c.resetM1M2 := frame_rt c _ rfl rfl rfl

theorem frame_resetBuffers (r : ReqRespCode) (c : Ctx) : Frame k sid c (resetBuffers r sid c) := by
  unfold resetBuffers
  refine M.Pre.trans (b := if r ≠ .reqGetMeasurements then resetM sid c else c) ?_ ?_
  · split
    · exact frame_resetM c
    · exact M.Pre.refl c
  · generalize (if r ≠ .reqGetMeasurements then resetM sid c else c) = d
    simp only
    split <;> first | exact M.Pre.refl _ | exact frame_resetM1M2 _ | skip
    all_goals (split <;> first | exact M.Pre.refl _ | exact frame_resetM1M2 _)

theorem rel_resetBuffers {ε : Type} (r : ReqRespCode) : M.Rel (Frame k sid) (M.modify (resetBuffers r sid) : M ε Ctx Unit) :=
  M.Rel.modify fun c => frame_resetBuffers r c

theorem rel_appendM1M2 (st : Status) (msg : Bytes) : M.Rel (Frame k sid) (appendM1M2 e st msg) := by
  intro c
  unfold appendM1M2
  simp only [M.wp_bind, M.wp_get]
  split
  · exact frame_rt c _ rfl rfl rfl
  · split
    · exact M.Pre.refl c
    · exact frame_rt c _ rfl rfl rfl
theorem rel_appendB (msg : Bytes) : M.Rel (Frame k sid) (appendB e msg) := rel_appendM1M2 _ _
theorem rel_appendC (msg : Bytes) : M.Rel (Frame k sid) (appendC e msg) := rel_appendM1M2 _ _

theorem rel_appendM (msg : Bytes) : M.Rel (Frame k sid) (appendM e sid msg) := by
  intro c
  unfold appendM
  simp only [M.wp_bind, M.wp_get]
  cases sid with
  | none =>
    simp only
    split
    · exact frame_rt c _ rfl rfl rfl
    · split
      · exact M.Pre.refl c
      · exact frame_rt c _ rfl rfl rfl
  | some i =>
    simp only
    split
    · exact M.Pre.refl c
    · split
      · exact frame_updSession c i _ fun _ _ => ⟨rfl, rfl, rfl, rfl⟩
      · split
        · exact M.Pre.refl c
        · exact frame_updSession c i _ fun _ _ => ⟨rfl, rfl, rfl, rfl⟩

theorem rel_appendA (msg : Bytes) : M.Rel (Frame false sid) (appendA msg) := by
  intro c
  unfold appendA
  simp only [M.wp_bind, M.wp_get]
  split
  · exact ⟨rfl, rfl, rfl, All2.refl (Loc.refl _) _, List.prefix_refl _, by simp, by simp, by simp, rfl⟩
  · exact M.Pre.refl c

theorem rel_constructSlot (i : Fin 8) : M.Rel (Frame false sid) (constructSlot e i) := by
  intro c
  unfold constructSlot
  simp only [M.wp_bind, M.wp_get]
  split
  · split
    · trivial
    · split
      · split
        · exact ⟨rfl, rfl, rfl, All2.refl (Loc.refl _) _, List.prefix_refl _, by simp, by simp, by simp, rfl⟩
        · exact M.Pre.refl c
      · trivial
  · exact M.Pre.refl c

theorem rel_constructChains : M.Rel (Frame false sid) (constructChains e) := by
  unfold constructChains
  rel <;> exact rel_constructSlot _

/-- running an operation that keeps id and phase on session `i`. -/
theorem rel_onSession {α : Type} (i : UInt32) (missing : M Status Ctx α) (x : M Status Session α)
    (hm : M.Rel (Frame k (some i)) missing) (hx : M.Rel Session.Keep x) : M.Rel (Frame k (some i)) (onSession i missing x) := by
  intro c
  unfold onSession
  simp only [M.wp_bind, M.wp_get]
  split
  · exact hm c
  · rename_i s hs
    split
    · rename_i a s' hxs
      exact frame_updSession c i _ fun t ht => by rw [hs] at ht; cases ht; exact hx.ok hxs
    · rename_i st s' hxs
      exact frame_updSession c i _ fun t ht => by rw [hs] at ht; cases ht; exact hx.err hxs
    · trivial

theorem rel_devSend (pkt : Bytes) : M.Rel (Frame k sid) (devSend e pkt) := by
  intro c
  unfold devSend
  simp only [M.wp_bind, M.wp_get, M.wp_set]
  have h : Frame k sid c { c with sent := c.sent ++ [pkt] } :=
    ⟨rfl, rfl, rfl, All2.refl (Loc.refl _) _, List.prefix_append _ _, fun _ => rfl, fun _ => rfl, fun _ => rfl, rfl⟩
  split <;> exact h

theorem rel_encodeSecured (i : UInt32) (msg : Bytes) (isReq isApp : Bool) :
    M.Rel (Frame k (some i)) (encodeSecured e i msg isReq isApp) := by
  unfold encodeSecured
  rel
  exact rel_onSession _ _ _ (M.Rel.fail _) (Session.keep_encodeSecured _ _ _ _)

end Ctx
end Verif
