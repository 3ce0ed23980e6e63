/-
The requests that leave the keys of their session alone: GET_DIGESTS, GET_CERTIFICATE, GET_MEASUREMENTS, HEARTBEAT and VENDOR_DEFINED_REQUEST
inside a session change nothing in it but the measurement transcript.
-/
import Verif.Responder.InSession
import Verif.Props.Transcript

namespace Verif
namespace Rsp

variable {e : Env} {i : UInt32}

/-- session `i` is changed in its measurement transcript at most. -/
def OnlyM (i : UInt32) (c c' : Ctx) : Prop := ∀ s, c.session? i = some s → ∃ x, c'.session? i = some { s with l1l2 := x }

instance : M.Pre (OnlyM i) where
  refl _ s h := ⟨s.l1l2, h⟩
  trans h h' s hs := by
    obtain ⟨x, hx⟩ := h s hs
    obtain ⟨y, hy⟩ := h' _ hx
    exact ⟨y, hy⟩

theorem All2.eq_none {l l' : List Session} (h : All2 (Loc none) l l') : l' = l := by
  induction h with
  | nil => rfl
  | cons h _ ih =>
    rcases h with rfl | ⟨h, _⟩
    · rw [ih]
    · cases h

theorem frame_onlyM {c c' : Ctx} {k : Bool} (h : Frame k none c c') : OnlyM i c c' := by
  intro s hs
  have := All2.eq_none h.sessions
  refine ⟨s.l1l2, ?_⟩
  unfold Ctx.session? at *
  rw [this]
  exact hs

theorem om_of {ε α : Type} {x : M ε Ctx α} (h : M.Rel (Frame true none) x) : M.Rel (OnlyM i) x := h.mono fun _ _ h => frame_onlyM h

theorem om_sessions {ε : Type} {f : Ctx → Ctx} (h : ∀ c, (f c).sessions = c.sessions) : M.Rel (OnlyM i) (M.modify f : M ε Ctx Unit) :=
  M.Rel.modify fun c s hs => ⟨s.l1l2, by unfold Ctx.session? at *; rw [h]; exact hs⟩

theorem onlyM_upd {c : Ctx} {x : Session → Option HashCtx} : OnlyM i c (c.updSession i fun s => { s with l1l2 := x s }) := fun s hs =>
  ⟨x s, session?_upd (f := fun s => { s with l1l2 := x s }) hs (show s.id = i from session?_id hs)⟩

theorem onlyM_const {c : Ctx} {s : Session} {x : Option HashCtx} (hs : c.session? i = some s) : OnlyM i c (c.updSession i fun _ => { s with l1l2 := x }) := fun s' hs' => by
  rw [hs] at hs'; cases hs'
  exact ⟨x, session?_upd (f := fun _ => { s with l1l2 := x }) hs (show s.id = i from session?_id hs)⟩

theorem onlyM_resetBuffers (r : ReqRespCode) (c : Ctx) : OnlyM i c (Ctx.resetBuffers r (some i) c) := by
  have h0 : OnlyM i c (Ctx.resetM (some i) c) := onlyM_upd (x := fun _ => none)
  have h1 : ∀ d : Ctx, OnlyM i d d.resetM1M2 := fun d s hs => ⟨s.l1l2, hs⟩
  have h2 : ∀ d : Ctx, OnlyM i d d := fun d => M.Pre.refl (R := OnlyM i) d
  unfold Ctx.resetBuffers
  have h3 : OnlyM i c (if r ≠ .reqGetMeasurements then Ctx.resetM (some i) c else c) := by
    split
    · exact h0
    · exact h2 c
  refine M.Pre.trans h3 ?_
  generalize (if r ≠ .reqGetMeasurements then Ctx.resetM (some i) c else c) = d
  simp only
  split <;> first | exact h2 d | exact h1 d | skip
  all_goals (split; exact h1 d; exact h2 d)

theorem om_resetBuffers {ε : Type} (r : ReqRespCode) : M.Rel (OnlyM i) (M.modify (Ctx.resetBuffers r (some i)) : M ε Ctx Unit) :=
  M.Rel.modify (onlyM_resetBuffers r)

theorem om_appendM (msg : Bytes) : M.Rel (OnlyM i) (Ctx.appendM e (some i) msg) := by
  intro c
  unfold Ctx.appendM
  simp only [M.wp_bind, M.wp_get]
  split
  · exact M.Pre.refl (R := OnlyM i) c
  · rename_i s hs
    split
    · exact onlyM_upd (x := fun _ => some _)
    · split
      · exact M.Pre.refl (R := OnlyM i) c
      · exact onlyM_upd (x := fun _ => some _)

theorem om_appendBPlain (msg : Bytes) : M.Rel (OnlyM i) (appendBPlain e (some i) msg) := M.Rel.pure _
theorem om_orUnspecified {α : Type} {x : M Status Ctx α} (h : M.Rel (OnlyM i) x) : M.Rel (OnlyM i) (orUnspecified x) := M.Rel.mapErr _ h
theorem om_orAppended {α : Type} {b : Bytes} {x : M Status Ctx α} (h : M.Rel (OnlyM i) x) : M.Rel (OnlyM i) (orAppended b x) := M.Rel.mapErr _ h

macro "onlym" : tactic => `(tactic|
  repeat' (first
    | with_reducible assumption
    | with_reducible first
      | exact M.Rel.pure _ | exact M.Rel.panic | exact M.Rel.fail _ | exact M.Rel.unwrap _ | exact M.Rel.ofOption _ _
      | exact M.Rel.get | exact M.Rel.lift _ | exact om_of (rel_header _) | exact om_of (rel_checkVersion _) | exact om_of (rel_readReq _ _ _)
      | exact om_of (rel_liftH _ _) | exact om_of (rel_encodeRsp _ _) | exact om_of (rel_summaryHash _) | exact om_of rel_afterNegotiation
      | exact om_appendBPlain _ | exact om_resetBuffers _ | exact om_appendM _ | exact om_of (rel_sendError _) | exact om_of (rel_measureBlocks _ _)
      | exact om_of (rel_measurementSlot _)
      | apply om_orUnspecified | apply om_orAppended
      | apply M.Rel.mapErr | apply M.Rel.try' | apply M.Rel.ite | apply M.Rel.bind
      | intro _))

theorem om_digestRsp (bytes : Bytes) : M.Rel (OnlyM i) (digestRsp e (some i) bytes) := by
  unfold digestRsp; onlym
theorem om_certificateRsp (bytes : Bytes) : M.Rel (OnlyM i) (certificateRsp e (some i) bytes) := by
  unfold certificateRsp
  refine M.Rel.bind (om_of rel_afterNegotiation) fun _ => M.Rel.bind (om_of (rel_checkVersion _)) fun r => M.Rel.bind (om_resetBuffers _) fun _ =>
    M.Rel.bind (om_of (rel_readReq _ _ _)) fun ⟨m, req⟩ => ?_
  dsimp only
  apply M.Rel.ite <;> intro _
  · exact M.Rel.fail _
  refine M.Rel.bind (om_orUnspecified (om_appendBPlain _)) fun _ => M.Rel.bind M.Rel.get fun c => M.Rel.bind (M.Rel.ofOption _ _) fun chain =>
    M.Rel.bind (M.Rel.ofOption _ _) fun ⟨portion, remainder⟩ => ?_
  dsimp only
  exact M.Rel.bind (om_of (rel_encodeRsp _ _)) fun _ => M.Rel.bind (om_orAppended (om_appendBPlain _)) fun _ => M.Rel.pure _
theorem om_heartbeatRsp (bytes : Bytes) : M.Rel (OnlyM i) (heartbeatRsp i bytes) := by
  unfold heartbeatRsp; onlym
theorem om_vendorRsp (bytes : Bytes) : M.Rel (OnlyM i) (vendorRsp e (some i) bytes) := by
  unfold vendorRsp; onlym
theorem om_finishMeasurement (signed : Bool) (asym : Nat) (rsp : Bytes) : M.Rel (OnlyM i) (finishMeasurement e (some i) signed asym rsp) := by
  unfold finishMeasurement
  apply M.Rel.ite <;> intro _
  · refine M.Rel.bind (om_of (rel_liftH _ _)) fun _ => M.Rel.bind (om_orAppended (om_appendM _)) fun _ => M.Rel.bind M.Rel.get fun c => ?_
    split
    · onlym
    · onlym
    · refine M.Rel.bind (om_of (rel_liftH _ _)) fun _ => M.Rel.bind (M.Rel.modify fun c => ?_) fun _ => M.Rel.pure _
      exact onlyM_upd (x := fun _ => none)
  · onlym
theorem om_measurementRsp (bytes : Bytes) : M.Rel (OnlyM i) (measurementRsp e (some i) bytes) := by
  unfold measurementRsp
  refine M.Rel.bind (om_of rel_afterNegotiation) fun _ => M.Rel.bind (om_of (rel_checkVersion _)) fun r => M.Rel.bind (om_resetBuffers _) fun _ =>
    M.Rel.bind (om_of (rel_readReq _ _ _)) fun ⟨m, req⟩ => ?_
  dsimp only
  refine M.Rel.bind M.Rel.get fun c => M.Rel.bind (M.Rel.unwrap _) fun asym => M.Rel.bind (om_of (rel_measurementSlot _)) fun _ =>
    M.Rel.bind (om_orUnspecified (om_appendM _)) fun _ => M.Rel.bind (om_of (rel_measureBlocks _ _)) fun ⟨number, record⟩ => ?_
  dsimp only
  exact M.Rel.bind (M.Rel.ofOption _ _) fun _ => M.Rel.bind (om_of (rel_encodeRsp _ _)) fun _ => om_finishMeasurement _ _ _

/-! ### Sealed answers -/

theorem sealedBy_same {s s' : Session} {msg pkt : Bytes} (h : SealedBy e s' msg pkt) (hs : ∃ x, s' = { s.bump true with l1l2 := x }) : SealedBy e s msg pkt := by
  obtain ⟨x, rfl⟩ := hs
  obtain ⟨app, rec, h1, h2, h3⟩ := h
  refine ⟨app, rec, h1, ?_, h3⟩
  have hd : Session.dir { s.bump true with l1l2 := x } false = s.dir false := by
    unfold Session.dir Session.bump
    cases hs : s.state <;> simp [hs, Session.updHsReq, Session.updAppReq]
  have he : ∀ p, Session.encodeMsg e.crypto { s.bump true with l1l2 := x } app 4160 p = Session.encodeMsg e.crypto s app 4160 p := by
    intro p
    unfold Session.bump
    cases s.state <;> rfl
  rw [← h2, he, hd]

/-- In session `s` the packet that was sent seals something other than ERROR. -/
def AnsweredIn (e : Env) (s : Session) (c c' : Ctx) : Prop := ∃ pkt, c'.sent = c.sent ++ [pkt] ∧ ∀ b, Props.IsError b → ¬ SealedBy e s b pkt


/-- A request in session `sid` that is answered, by something other than ERROR: the answer is what the handler wrote, sealed with the
session's response keys; the session has advanced by one message in each direction, and its measurement transcript may have changed. -/
theorem secured_positive_of {x : H Bytes} {Q : Bytes → Ctx → Prop} {v k r : UInt8} {t rx : Bytes} {sid : UInt32} {s : Session} {c c0 c' : Ctx}
    (ho : Props.Opens e rx c sid (v :: k :: t) false c0) (hs : c.session? sid = some s)
    (hd : ∀ c', dispatchSecured e sid (v :: k :: t) (c.updSession sid (·.bump true)) = .ok () c' →
      (do let b ← reply x; sendSecured e sid b false) (c.updSession sid (·.bump true)) = .ok () c')
    (hc : Codes r (Starts r) x) (hr : r ≠ 0x6C ∧ r ≠ 0x65 ∧ r ≠ 0x67) (hom : M.Rel (OnlyM sid) x) (hq : Does x (c.updSession sid (·.bump true)) Q)
    (hsent : x.wp (c.updSession sid (·.bump true)) (fun _ c1 => c.sent <+: c1.sent) (fun _ c1 => c.sent <+: c1.sent))
    (h : processMessage e rx c = .ok true c') (ha : AnsweredIn e s c c') :
    ∃ b c1 pkt y, Q b c1 ∧ Starts r b ∧ SealedBy e s b pkt ∧ c1.sent = c.sent ∧ c1.session? sid = some { s.bump true with l1l2 := y } ∧
      c' = withSent pkt (c1.updSession sid fun _ => { (s.bump true).bump false with l1l2 := y }) := by
  rw [process_opened ho, isOk_true] at h
  obtain ⟨_, _, _, _, rfl⟩ := ho.eq
  have hs1 : (c.updSession sid (·.bump true)).session? sid = some (s.bump true) := session?_upd hs (by rw [Session.bump_id]; exact session?_id hs)
  have h := hd _ h
  obtain ⟨b, c1, h1, h2⟩ := M.bind_ok.1 h
  obtain ⟨pkt0, hp1, hp2⟩ := ha
  have hbump : ∀ (y : Option HashCtx), Session.bump { s.bump true with l1l2 := y } false = { (s.bump true).bump false with l1l2 := y } := by
    intro y
    unfold Session.bump
    cases hst : s.state <;> simp [hst, Session.updHsReq, Session.updAppReq, Session.updHsRsp, Session.updAppRsp]
  have hfin : ∀ {b : Bytes} {c1 : Ctx} {code : UInt8}, Starts code b → code ≠ 0x6C ∧ code ≠ 0x65 ∧ code ≠ 0x67 →
      OnlyM sid (c.updSession sid (·.bump true)) c1 → c.sent <+: c1.sent → sendSecured e sid b false c1 = .ok () c' →
      ∃ pkt y, SealedBy e s b pkt ∧ c1.sent = c.sent ∧ c1.session? sid = some { s.bump true with l1l2 := y } ∧ pkt = pkt0 ∧
        c' = withSent pkt (c1.updSession sid fun _ => { (s.bump true).bump false with l1l2 := y }) := by
    intro b c1 code hb hcode hm hpre h2
    obtain ⟨y, hy⟩ := hm _ hs1
    obtain ⟨s2, pkt, k1, k2, k3, rfl⟩ := sendSecured_exact hb hcode.1 hcode.2.1 hcode.2.2 h2
    rw [hy] at k1
    cases k1
    have k3' := sealedBy_same (s := s) k3 ⟨y, rfl⟩
    obtain ⟨l, hl⟩ := hpre
    have hp1 : c1.sent ++ [pkt] = c.sent ++ [pkt0] := hp1
    rw [← hl, List.append_assoc] at hp1
    have hp1 := List.append_cancel_left hp1
    have hl0 : l = [] := by
      have := congrArg List.length hp1
      simp at this
      exact this
    subst hl0
    simp at hp1
    subst hp1
    refine ⟨pkt, y, ?_, by rw [← hl, List.append_nil], hy, rfl, by rw [hbump]⟩
    by_cases hbig : tooLarge c1 b = true
    · exfalso
      have : outgoing c1 b = errorBytes c1.neg.version .responseTooLarge 0 := by unfold outgoing; rw [hbig]; rfl
      rw [this] at k3'
      exact hp2 _ ⟨_, _, rfl⟩ k3'
    · have : outgoing c1 b = b := by unfold outgoing; rw [show tooLarge c1 b = false by simpa using hbig]; rfl
      rw [this] at k3'
      exact k3'
  unfold reply at h1
  cases hx : x (c.updSession sid (·.bump true)) with
  | panic => rw [hx] at h1; cases h1
  | ok a c2 =>
    rw [hx] at h1
    cases h1
    obtain ⟨pkt, y, g1, g2, g3, -, g5⟩ := hfin ((hc _).ok hx) hr ((hom _).ok hx) (hsent.ok hx) h2
    exact ⟨b, c1, pkt, y, hq.ok hx, (hc _).ok hx, g1, g2, g3, g5⟩
  | err rep c2 =>
    rw [hx] at h1
    dsimp only at h1
    have hpre := hq.err hx
    rw [writeError_nil _ _ hpre] at h1
    cases h1
    obtain ⟨pkt, y, g1, -, -, rfl, -⟩ := hfin (starts_error _ _ _) (by decide) ((hom _).err hx) (hsent.err hx) h2
    exact absurd g1 (hp2 _ ⟨_, _, rfl⟩)

/-- `secured_positive_of` in the application phase. -/
theorem secured_positive {x : H Bytes} {Q : Bytes → Ctx → Prop} {v k r : UInt8} {t rx : Bytes} {sid : UInt32} {s : Session} {c c0 c' : Ctx}
    (ho : Props.Opens e rx c sid (v :: k :: t) false c0) (hs : c.session? sid = some s) (hst : s.state = .established)
    (hd : ∀ d, dispatchApplication e sid (v :: k :: t) d = (do let b ← reply x; sendSecured e sid b false) d)
    (hc : Codes r (Starts r) x) (hr : r ≠ 0x6C ∧ r ≠ 0x65 ∧ r ≠ 0x67) (hom : M.Rel (OnlyM sid) x) (hq : Does x (c.updSession sid (·.bump true)) Q)
    (hsent : x.wp (c.updSession sid (·.bump true)) (fun _ c1 => c.sent <+: c1.sent) (fun _ c1 => c.sent <+: c1.sent))
    (h : processMessage e rx c = .ok true c') (ha : AnsweredIn e s c c') :
    ∃ b c1 pkt y, Q b c1 ∧ Starts r b ∧ SealedBy e s b pkt ∧ c1.sent = c.sent ∧ c1.session? sid = some { s.bump true with l1l2 := y } ∧
      c' = withSent pkt (c1.updSession sid fun _ => { (s.bump true).bump false with l1l2 := y }) := by
  refine secured_positive_of ho hs ?_ hc hr hom hq hsent h ha
  intro c' h
  have hs1 : (c.updSession sid (·.bump true)).session? sid = some (s.bump true) := session?_upd hs (by rw [Session.bump_id]; exact session?_id hs)
  have hst1 : (s.bump true).state = .established := by rw [Session.bump_state]; exact hst
  unfold dispatchSecured at h
  simp only [M.bind_apply, M.get_apply, hs1, hst1] at h
  rwa [hd] at h

end Rsp
end Verif
