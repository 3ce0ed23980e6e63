/-
What the requester's operations leave alone.
-/
import Verif.Requester.Chain
import Verif.Responder.Secured

namespace Verif
namespace Req
open Rsp

variable {e : REnv} {sid : Option UInt32}

/-- a session is unchanged unless it is the one with id `sid`, which keeps its id or is freed; without a `sid`, free slots count. -/
def Touch (sid : Option UInt32) (s s' : Session) : Prop := s' = s ∨ (s.id = sid.getD 0 ∧ (s'.id = s.id ∨ s'.id = 0))

theorem Touch.refl (sid : Option UInt32) (s : Session) : Touch sid s s := .inl rfl
theorem Touch.trans {a b c : Session} (h : Touch sid a b) (h' : Touch sid b c) : Touch sid a c := by
  rcases h with rfl | ⟨h1, h2⟩
  · exact h'
  · rcases h' with rfl | ⟨h3, h4⟩
    · exact .inr ⟨h1, h2⟩
    · refine .inr ⟨h1, ?_⟩
      rcases h4 with h4 | h4
      · rw [h4]; exact h2
      · exact .inr h4

/-- configuration, provisioning, negotiation, message A, certificate chains and other sessions are kept, packets are only added. -/
structure Kept (sid : Option UInt32) (c c' : Ctx) : Prop where
  config : c'.config = c.config
  prov : c'.prov = c.prov
  neg : c'.neg = c.neg
  messageA : c'.rt.messageA = c.rt.messageA
  state : c'.rt.state = c.rt.state
  chain : c'.peer.chain = c.peer.chain
  sent : c.sent <+: c'.sent
  sessions : All2 (Touch sid) c.sessions c'.sessions

instance (sid : Option UInt32) : M.Pre (Kept sid) where
  refl c := ⟨rfl, rfl, rfl, rfl, rfl, rfl, List.prefix_refl _, All2.refl (Touch.refl _) _⟩
  trans h h' := ⟨h'.config.trans h.config, h'.prov.trans h.prov, h'.neg.trans h.neg, h'.messageA.trans h.messageA, h'.state.trans h.state,
    h'.chain.trans h.chain, h.sent.trans h'.sent, All2.trans (R := Touch _) (fun _ _ _ g g' => Touch.trans g g') h.sessions h'.sessions⟩

theorem kept_frame {c c' : Ctx} (h : Frame true sid c c') : Kept sid c c' :=
  ⟨h.config, h.prov rfl, h.neg rfl, h.messageA rfl, h.state, by rw [h.peer], h.sent, All2.imp (fun s s' hl => by
    rcases hl with rfl | ⟨h1, h2⟩
    · exact .inl rfl
    · exact .inr ⟨by rw [h1]; rfl, .inl h2.1⟩) h.sessions⟩

theorem rel_of_frame {α : Type} {x : M Status Ctx α} (h : M.Rel (Frame true sid) x) : M.Rel (Kept sid) x := h.mono fun _ _ => kept_frame

theorem rel_none {α : Type} {x : M Status Ctx α} (h : M.Rel (Frame true none) x) : M.Rel (Kept sid) x :=
  rel_of_frame (h.mono fun _ _ h => h.ofNone)

/-- with a runtime change that keeps message A and the state. -/
theorem kept_rt (c : Ctx) (r : Runtime) (h : r.state = c.rt.state) (h'' : r.messageA = c.rt.messageA) : Kept sid c { c with rt := r } :=
  ⟨rfl, rfl, rfl, h'', h, rfl, List.prefix_refl _, All2.refl (Touch.refl _) _⟩

theorem touch_updFirst {i : UInt32} {f : Session → Session} (hi : sid.getD 0 = i) (l : List Session)
    (h : ∀ s, l.find? (·.id = i) = some s → (f s).id = s.id ∨ (f s).id = 0) :
    All2 (Touch sid) l (Ctx.updFirst (·.id = i) f l) := by
  induction l with
  | nil => exact .nil
  | cons a l ih =>
    unfold Ctx.updFirst
    by_cases hp : a.id = i
    · simp only [hp, decide_true, if_true]
      exact .cons (.inr ⟨by rw [hp, hi], h a (by simp [hp])⟩) (All2.refl (Touch.refl _) _)
    · simp only [hp, decide_false]
      exact .cons (.inl rfl) (ih fun s hs => h s (by simp [hp, hs]))

/-- the session operation keeps the id or frees the slot. -/
def IdKept (s s' : Session) : Prop := s'.id = s.id ∨ s'.id = 0
instance : M.Pre IdKept where
  refl _ := .inl rfl
  trans h h' := by
    unfold IdKept at *
    rcases h' with h' | h'
    · rw [h']; exact h
    · exact .inr h'
theorem idKept_keep {α : Type} {x : M Status Session α} (h : M.Rel Session.Keep x) : M.Rel IdKept x := h.mono fun _ _ h => .inl h.1

theorem rel_onSession {α : Type} (i : UInt32) (missing : M Status Ctx α) (x : M Status Session α) (hi : sid.getD 0 = i)
    (hm : M.Rel (Kept sid) missing) (hx : M.Rel IdKept x) : M.Rel (Kept sid) (Ctx.onSession i missing x) := by
  have hu : ∀ (c : Ctx) (f : Session → Session), (∀ s, c.session? i = some s → IdKept s (f s)) → Kept sid c (c.updSession i f) := fun c f h =>
    ⟨rfl, rfl, rfl, rfl, rfl, rfl, List.prefix_refl _, touch_updFirst hi _ h⟩
  intro c
  unfold Ctx.onSession
  simp only [M.wp_bind, M.wp_get]
  split
  · exact hm c
  · rename_i s hs
    split
    · rename_i a s' hxs
      exact hu c _ fun t ht => by rw [hs] at ht; cases ht; exact hx.ok hxs
    · rename_i st s' hxs
      exact hu c _ fun t ht => by rw [hs] at ht; cases ht; exact hx.err hxs
    · trivial

theorem idKept_teardown (i : UInt32) : M.Rel IdKept (Session.teardown i) := by
  intro s
  unfold Session.teardown
  simp only [M.wp_bind, M.wp_get]
  split
  · exact .inr rfl
  · trivial

theorem rel_decodeSecured (i : UInt32) (p : Bytes) (n : Nat) : M.Rel (Frame true (some i)) (Ctx.decodeSecured e.toEnv i p n) := by
  unfold Ctx.decodeSecured
  rel
  exact Ctx.rel_onSession _ _ _ (M.Rel.fail _) (Session.keep_decodeSecured _ _ _ _)

theorem rel_receive : M.Rel (Frame true sid) (receive e) := by
  unfold receive; rel
theorem rel_sendMessage (msg : Bytes) : M.Rel (Frame true sid) (sendMessage e msg) := by
  unfold sendMessage
  rel
  exact Ctx.rel_devSend _
theorem rel_sendSecured (i : UInt32) (msg : Bytes) (isApp : Bool) : M.Rel (Frame true (some i)) (sendSecured e i msg isApp) := by
  unfold sendSecured
  rel
  · exact Ctx.rel_encodeSecured _ _ _ _
  · exact Ctx.rel_devSend _
theorem rel_receiveMessage : M.Rel (Frame true sid) (receiveMessage e) := by
  unfold receiveMessage
  have := rel_receive (e := e) (sid := sid)
  rel
theorem rel_receiveSecured (i : UInt32) : M.Rel (Frame true (some i)) (receiveSecured e i) := by
  unfold receiveSecured
  have := rel_receive (e := e) (sid := some i)
  rel
  exact rel_decodeSecured _ _ _
theorem rel_transact (msg : Bytes) : M.Rel (Frame true sid) (transact e sid msg) := by
  unfold transact
  cases sid with
  | none => exact M.Rel.bind (rel_sendMessage _) fun _ => rel_receiveMessage
  | some i => exact M.Rel.bind (rel_sendSecured _ _ _) fun _ => rel_receiveSecured _
theorem rel_encodeReq (k : ReqRespCode) (p : Payload) : M.Rel (Frame true sid) (encodeReq k p) := by
  unfold encodeReq
  refine M.Rel.bind M.Rel.get fun c0 c => ?_
  unfold M.wp encodeAs
  cases Msg.encode c.cc ⟨⟨c0.neg.version, k⟩, p⟩ (Writer.init 4096) with
  | panic => trivial
  | err _ _ => exact M.Pre.refl _
  | ok n w =>
    dsimp only
    by_cases hn : n ≤ 4096
    · rw [if_pos hn]; exact M.Pre.refl (R := Frame true sid) c
    · rw [if_neg hn]; trivial

theorem rel_errorPayload {α : Type} (p : UInt8) : M.Rel (Kept sid) (errorPayload sid p : M Status Ctx α) := by
  unfold errorPayload
  apply M.Rel.ite <;> intro _
  · cases sid with
    | none => exact M.Rel.fail _
    | some i => exact M.Rel.bind (rel_onSession _ _ _ rfl (M.Rel.fail _) (idKept_teardown _)) fun _ => M.Rel.fail _
  · unfold simpleError
    rel
    cases sid with
    | none => exact M.Rel.fail _
    | some i => exact M.Rel.bind (rel_onSession _ _ _ rfl (M.Rel.fail _) (M.Rel.modify fun _ => .inl rfl)) fun _ => M.Rel.fail _

theorem rel_handleError {α : Type} (bytes : Bytes) : M.Rel (Kept sid) (handleError sid bytes : M Status Ctx α) := by
  unfold handleError
  rel
  exact rel_errorPayload _

theorem rel_sort (k : ReqRespCode) (bytes : Bytes) (h : Header) (r : Reader) : M.Rel (Kept sid) (sort sid k bytes h r) := by
  unfold sort
  rel
  exact rel_handleError _
theorem rel_expect (k : ReqRespCode) (bytes : Bytes) : M.Rel (Kept sid) (expect sid k bytes) := by
  unfold expect
  rel
  exact rel_sort _ _ _ _
theorem rel_expectAny (k : ReqRespCode) (bytes : Bytes) : M.Rel (Kept sid) (expectAnyVersion sid k bytes) := by
  unfold expectAnyVersion
  rel
  exact rel_sort _ _ _ _
theorem rel_readMsg {α : Type} (x : Cc → Rd α) (bytes : Bytes) (r : Reader) : M.Rel (Frame true sid) (Rsp.readMsg x bytes r) := by
  unfold Rsp.readMsg; rel
theorem rel_appendBBoth (req rsp : Bytes) : M.Rel (Frame true sid) (appendBBoth e sid req rsp) := by
  unfold appendBBoth
  cases sid with
  | none => exact M.Rel.bind (Ctx.rel_appendB _) fun _ => Ctx.rel_appendB _
  | some i => exact M.Rel.pure _

/-- prove that an operation keeps what `Kept` says. -/
macro "kept" : tactic => `(tactic|
  repeat' (first
    | with_reducible assumption
    | with_reducible first
      | exact M.Rel.pure _ | exact M.Rel.panic | exact M.Rel.fail _ | exact M.Rel.unwrap _ | exact M.Rel.ofOption _ _
      | exact M.Rel.get | exact M.Rel.lift _ | exact rel_of_frame (rel_transact _) | exact rel_of_frame (rel_encodeReq _ _)
      | exact rel_of_frame (rel_readMsg _ _ _) | exact rel_of_frame (rel_appendBBoth _ _) | exact rel_of_frame (Ctx.rel_resetBuffers _)
      | exact rel_expect _ _ | exact rel_expectAny _ _ | exact rel_of_frame (Ctx.rel_appendC _) | exact rel_of_frame (Ctx.rel_appendM _)
      | exact rel_of_frame (rel_sendSecured _ _ _) | exact rel_of_frame (rel_receiveSecured _) | exact rel_of_frame (rel_sendMessage _) | exact rel_of_frame rel_receiveMessage
      | apply M.Rel.mapErr | apply M.Rel.try' | apply M.Rel.ite | apply M.Rel.bind
      | intro _))

theorem kept_getDigests : M.Rel (Kept sid) (getDigests e sid) := by
  unfold getDigests handleDigests
  kept

theorem kept_temp (c : Ctx) (t : Option Bytes) : Kept sid c { c with peer := { c.peer with temp := t } } :=
  ⟨rfl, rfl, rfl, rfl, rfl, rfl, List.prefix_refl _, All2.refl (Touch.refl _) _⟩

theorem kept_getCertificatePartial (slot : UInt8) (total offset length : UInt16) : M.Rel (Kept sid) (getCertificatePartial e sid slot total offset length) := by
  unfold getCertificatePartial
  refine .bind (rel_of_frame (rel_encodeReq _ _)) fun req => .bind (rel_of_frame (rel_transact _)) fun bytes => ?_
  unfold handleCertificate
  refine .bind (rel_expect _ _) fun r => .bind (rel_of_frame (rel_readMsg _ _ _)) fun p => ?_
  obtain ⟨m, rsp⟩ := p
  dsimp only
  refine .ite (fun _ => .fail _) fun _ => .ite (fun _ => .fail _) fun _ => ?_
  intro c
  rw [M.wp_bind, M.wp_get, M.wp_bind, M.wp_ofOption]
  cases c.peer.temp with
  | none => exact ⟨fun _ h => by (cases h), fun _ => M.Pre.refl c⟩
  | some temp =>
    refine ⟨fun a _ => ?_, fun h => by cases h⟩
    rw [M.wp_bind, M.wp_set]
    have h1 := kept_temp (sid := sid) c (some (storePortion offset m a))
    have h2 : M.Rel (Kept sid) (do appendBBoth e sid req rsp; pure (m.portion, m.remainder) : M Status Ctx (UInt16 × UInt16)) := by kept
    exact (h2 _).mono (fun _ _ h => M.Pre.trans h1 h) (fun _ _ h => M.Pre.trans h1 h)

theorem kept_certificateLoop (slot : UInt8) (fuel : Nat) (total offset length : UInt16) : M.Rel (Kept sid) (certificateLoop e sid slot fuel total offset length) := by
  induction fuel generalizing total offset length with
  | zero => exact .panic
  | succ fuel ih =>
    unfold certificateLoop
    refine .ite (fun _ => .pure _) fun _ => .bind (kept_getCertificatePartial _ _ _ _) fun p => ?_
    obtain ⟨a, b⟩ := p
    exact ih _ _ _

/-- A GET_CERTIFICATE that fails changes no stored chain. -/
theorem getCertificate_err {fuel : Nat} {slot : UInt8} {c c' : Ctx} {st : Status} (h : getCertificate e fuel sid slot c = .err st c') : Kept sid c c' := by
  have hx : (getCertificate e fuel sid slot).wp c (fun _ _ => True) (fun _ c' => Kept sid c c') := by
    unfold getCertificate
    have key : ∀ {α : Type} (x : M Status Ctx α) (f : α → M Status Ctx Unit), M.Rel (Kept sid) x → ∀ c1, Kept sid c c1 →
        (∀ a c2, Kept sid c c2 → (f a).wp c2 (fun _ _ => True) (fun _ c' => Kept sid c c')) → (x >>= f).wp c1 (fun _ _ => True) (fun _ c' => Kept sid c c') := by
      intro α x f hx c1 h1 hf
      rw [M.wp_bind]
      exact (hx c1).mono (fun a c2 h2 => hf a c2 (M.Pre.trans h1 h2)) (fun _ c2 h2 => M.Pre.trans h1 h2)
    refine key _ _ (.ofOption _ _) c (M.Pre.refl c) fun i c1 h1 => key _ _ (rel_of_frame (Ctx.rel_resetBuffers _)) c1 h1 fun _ c2 h2 =>
      key _ _ (.modify fun c => kept_temp c _) c2 h2 fun _ c3 h3 => key _ _ (kept_certificateLoop _ _ _ _ _) c3 h3 fun total c4 h4 => ?_
    have h5 := M.Pre.trans h4 (kept_temp (sid := sid) c4 none)
    unfold storeChain
    rw [M.wp_bind, M.wp_get]
    rw [M.wp_ite]
    refine ⟨fun _ => ?_, fun _ => ?_⟩
    · rw [M.wp_bind, M.wp_set]; exact h5
    · cases verifyChain e c4 with
      | panic => trivial
      | ok u => trivial
      | err st => dsimp only; rw [M.wp_bind, M.wp_set]; exact h5
  exact hx.err h

end Req
end Verif
