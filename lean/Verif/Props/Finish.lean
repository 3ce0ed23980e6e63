/-
C26: no session is established without a verified FINISH.
-/
import Verif.Responder.Finish
import Verif.Spec.Finish
import Verif.Props.Table

namespace Verif.Props
open Verif.Rsp

variable {e : Env}

/-- a session enters the application phase only if `q`. -/
def Est (q : Prop) (c c' : Ctx) : Prop := All2 (fun s s' => s'.state = .established → s.state = .established ∨ q) c.sessions c'.sessions

instance (q : Prop) : M.Pre (Est q) where
  refl c := All2.refl (fun _ h => .inl h) c.sessions
  trans h h' := All2.trans (fun a b c g g' hc => by
    rcases g' hc with h | h
    · exact g h
    · exact .inr h) h h'

theorem Est.mono {q q' : Prop} {c c' : Ctx} (h : Est q c c') (hq : q → q') : Est q' c c' :=
  All2.imp (fun _ _ g h => (g h).imp_right hq) h

theorem est_frame {q : Prop} {k : Bool} {o : Option UInt32} {c c' : Ctx} (h : Frame k o c c') : Est q c c' := by
  refine All2.imp ?_ h.sessions
  rintro a b (rfl | ⟨_, h2⟩) hb
  · exact .inl hb
  · exact .inl (h2.2.1.symm.trans hb)

theorem est_rel {q : Prop} {k : Bool} {o : Option UInt32} {ε α : Type} {x : M ε Ctx α} (h : M.Rel (Frame k o) x) : M.Rel (Est q) x :=
  h.mono fun _ _ h => est_frame h

theorem est_upd {q : Prop} (c : Ctx) (sid : UInt32) (f : Session → Session)
    (h : ∀ s, c.session? sid = some s → (f s).state = .established → s.state = .established ∨ q) : Est q c (c.updSession sid f) := by
  unfold Est
  unfold Ctx.session? at h
  unfold Ctx.updSession
  dsimp only
  generalize c.sessions = l at h
  induction l with
  | nil => exact .nil
  | cons a l ih =>
    unfold Ctx.updFirst
    by_cases hp : a.id = sid
    · simp only [hp, decide_true, if_true]
      exact .cons (h a (by simp [hp])) (All2.refl (fun _ h => .inl h) _)
    · simp only [hp, decide_false]
      exact .cons (fun h => .inl h) (ih fun s hs => h s (by simp [hp, hs]))

theorem est_afterSecured (sid : UInt32) (op : UInt8) : M.Rel (Est (op = 0x65 ∨ op = 0x67)) (afterSecured sid op) := by
  unfold afterSecured
  refine M.Rel.ite (fun _ => ?_) fun _ => M.Rel.ite (fun h => ?_) fun _ => M.Rel.pure _
  · intro c
    unfold Ctx.onSession
    simp only [M.wp_bind, M.wp_get]
    split
    · trivial
    · rename_i s hs
      simp only [Session.teardown, M.bind_apply, M.get_apply, session?_id hs, if_true, M.set_apply]
      exact est_upd c _ _ fun _ _ h => by simp [Session.setDefault, Session.new] at h
  · intro c
    unfold Ctx.onSession
    simp only [M.wp_bind, M.wp_get]
    split
    · trivial
    · simp only [M.modify_apply]
      exact est_upd c _ _ fun _ _ _ => .inr h

/-- the message is FINISH_RSP or PSK_FINISH_RSP by its second byte. -/
def IsFinishRsp (msg : Bytes) : Prop := msg[1]? = some 0x65 ∨ msg[1]? = some 0x67

theorem est_sendSecuredPlain (sid : UInt32) (msg : Bytes) (isApp : Bool) : M.Rel (Est (IsFinishRsp msg)) (sendSecuredPlain e sid msg isApp) := by
  unfold sendSecuredPlain
  refine M.Rel.bind (est_rel (Ctx.rel_encodeSecured (k := true) _ _ _ _)) fun pkt =>
    M.Rel.bind (est_rel (Ctx.rel_devSend (k := true) (sid := none) _)) fun _ => ?_
  intro c
  rw [M.wp_bind, M.wp_unwrap]
  intro op hop
  have := est_afterSecured sid op c
  refine this.mono (fun _ _ h => h.mono ?_) fun _ _ h => h.mono ?_ <;>
  · rintro (rfl | rfl)
    · exact .inl hop
    · exact .inr hop

theorem est_sendSecured (sid : UInt32) (msg : Bytes) (isApp : Bool) : M.Rel (Est (IsFinishRsp msg)) (sendSecured e sid msg isApp) := by
  intro c
  unfold sendSecured
  rw [M.wp_bind, M.wp_get, M.wp_ite]
  refine ⟨fun _ => ?_, fun _ => est_sendSecuredPlain sid msg isApp c⟩
  rw [writeError_nil c { code := .responseTooLarge } rfl, M.wp_bind, M.wp_unwrap]
  intro a ha
  cases ha
  rw [M.wp_ite]
  refine ⟨fun _ => trivial, fun _ => ?_⟩
  have hno : ¬ IsFinishRsp (errorBytes c.neg.version .responseTooLarge 0) := by
    rintro (h | h) <;> simp [errorBytes] at h
  refine (est_sendSecuredPlain sid _ isApp c).mono (fun _ _ h => h.mono fun h => absurd h hno) fun _ _ h => h.mono fun h => absurd h hno

theorem Starts.notFinish {k : UInt8} {b : Bytes} (h : Starts k b) (hk : k ≠ 0x65 ∧ k ≠ 0x67) : ¬ IsFinishRsp b := by
  rintro (h1 | h1) <;> rw [h.get] at h1 <;> cases h1
  · exact hk.1 rfl
  · exact hk.2 rfl

/-- answers of handlers other than FINISH and PSK_FINISH establish nothing. -/
theorem est_answer {k : UInt8} {o : Option UInt32} {x : H Bytes} (sid : UInt32) (hf : M.Rel (Frame true o) x) (hc : Codes k (Starts k) x)
    (hk : k ≠ 0x65 ∧ k ≠ 0x67) : M.Rel (Est False) (do let b ← reply x; sendSecured e sid b false) := by
  intro c
  rw [M.wp_bind]
  refine ((rel_reply hf c).and (reply_wp hc c)).mono ?_ fun _ _ h => h.2.elim
  rintro b c1 ⟨h1, hb⟩
  have hno : ¬ IsFinishRsp b := by
    rcases hb with hb | ⟨_, _, rfl⟩
    · exact Starts.notFinish hb hk
    · exact Starts.notFinish (starts_error _ _ _) (by decide)
  refine (est_sendSecured sid b false c1).mono (fun _ _ h => M.Pre.trans (est_frame h1) (h.mono fun h => absurd h hno))
    fun _ _ h => M.Pre.trans (est_frame h1) (h.mono fun h => absurd h hno)

theorem est_error (sid : UInt32) (code : ErrorCode) (bytes : Bytes) : M.Rel (Est False) (handleError e code (some sid) bytes) :=
  est_answer (k := 0x7F) (o := none) sid (rel_errorResponse code bytes) ((codes_errorResponse code bytes).mono fun _ h => h.elim) (by decide)

theorem est_application (hl : HashLaw e) (sid : UInt32) (bytes : Bytes) : M.Rel (Est False) (dispatchApplication e sid bytes) := by
  unfold dispatchApplication
  refine M.Rel.bind (M.Rel.lift _) fun ⟨h, r⟩ => ?_
  dsimp only
  split
  case h_1 => exact est_answer sid (rel_digestRsp (sid := some sid) bytes) (codes_digestRsp hl _ _) (by decide)
  case h_2 => exact est_answer sid (rel_certificateRsp (sid := some sid) bytes) (codes_certificateRsp _ _) (by decide)
  case h_3 => exact est_answer sid (rel_measurementRsp (sid := some sid) bytes) (codes_measurementRsp _ _) (by decide)
  case h_4 => exact est_answer sid (rel_heartbeatRsp sid bytes) (codes_heartbeatRsp _ _) (by decide)
  case h_5 => exact est_answer sid (rel_keyUpdateRsp sid bytes) (codes_keyUpdateRsp _ _) (by decide)
  case h_6 => exact est_answer sid (rel_endSessionRsp sid bytes) (codes_endSessionRsp _ _) (by decide)
  case h_7 => exact est_answer sid (rel_vendorRsp (sid := some sid) bytes) (codes_vendorRsp _ _) (by decide)
  all_goals first | exact est_error _ _ _ | exact M.Rel.fail _

/-- what a verified FINISH is, for the session with id `sid`. -/
def Verified (e : Env) (c : Ctx) (sid : UInt32) (bytes : Bytes) : Prop :=
  ∃ s, c.session? sid = some s ∧ (Spec.FinishVerified e c s bytes ∨ Spec.PskFinishVerified e c s bytes)

theorem finish_verified {sid : UInt32} {v : UInt8} {t b : Bytes} {c c' : Ctx} (h : finishRsp e sid (v :: 0xE5 :: t) c = .ok b c') :
    ∃ s, c.session? sid = some s ∧ Spec.FinishVerified e c s (v :: 0xE5 :: t) := by
  obtain ⟨v', k, attr, slot, sig, mac, rest, s, x, d, th, rmac, th2, s', h1, h2, h3, h4, h5, h6, h7, h8, h9, _⟩ := finishRsp_ok h
  have hk : v = v' ∧ (0xE5 : UInt8) = k := by
    simp only [List.cons_append, List.cons.injEq] at h1
    exact ⟨h1.1, h1.2.1⟩
  obtain ⟨rfl, rfl⟩ := hk
  exact ⟨s, h4, v, attr, slot, sig, mac, rest, x, d, th, h1, h2, h3, h6, h5, h7.1, h7.2, h8, h9⟩

theorem pskFinish_verified {sid : UInt32} {v : UInt8} {t b : Bytes} {c c' : Ctx} (h : pskFinishRsp e sid (v :: 0xE7 :: t) c = .ok b c') :
    ∃ s, c.session? sid = some s ∧ Spec.PskFinishVerified e c s (v :: 0xE7 :: t) := by
  obtain ⟨v', k, p, q, mac, rest, s, x, th, th2, s', h1, h2, h3, h4, h5, h6, h7, h8, _⟩ := pskFinishRsp_ok h
  have hk : v = v' ∧ (0xE7 : UInt8) = k := by
    simp only [List.cons_append, List.cons.injEq] at h1
    exact ⟨h1.1, h1.2.1⟩
  obtain ⟨rfl, rfl⟩ := hk
  exact ⟨s, h4, v, p, q, mac, rest, x, th, h1, h2, h3, h6, h5, h7, h8⟩

theorem est_handshake (sid : UInt32) (bytes : Bytes) (c : Ctx) :
    (dispatchHandshake e sid bytes).wp c (fun _ => Est (c.cc.inClear = false ∧ Verified e c sid bytes) c)
      (fun _ => Est (c.cc.inClear = false ∧ Verified e c sid bytes) c) := by
  unfold dispatchHandshake
  rw [M.wp_bind, M.wp_get, M.wp_ite]
  refine ⟨fun _ => by rw [M.wp_fail]; exact M.Pre.refl c, fun hclear => ?_⟩
  have hclear' : c.cc.inClear = false := by simpa using hclear
  rw [M.wp_bind]
  match bytes with
  | [] =>
    obtain ⟨r, h1⟩ := header_read_short (b := []) (by simp)
    simp only [Res.read, h1]; show Est _ c c; exact M.Pre.refl c
  | [a] =>
    obtain ⟨r, h1⟩ := header_read_short (b := [a]) (by simp)
    simp only [Res.read, h1]; show Est _ c c; exact M.Pre.refl c
  | v :: k :: t =>
    rw [M.wp]
    simp only [Res.read, header_read, Res.lift]
    show M.wp _ c _ _
    have hno : ∀ {x : M Status Ctx Unit}, M.Rel (Est False) x → ∀ q, x.wp c (fun _ => Est q c) (fun _ => Est q c) :=
      fun h q => (h c).mono (fun _ _ h => h.mono False.elim) fun _ _ h => h.mono False.elim
    split
    · rename_i hk
      obtain rfl := code_of hk
      unfold handleFinish
      rw [M.wp_bind, M.wp_get, M.wp_bind, M.wp_def]
      refine ⟨fun b c1 hx => ?_, fun st c1 hx => est_frame ((rel_finishRsp _ c).err hx)⟩
      rw [if_neg hclear]
      have hq : c.cc.inClear = false ∧ Verified e c sid (v :: 0xE5 :: t) := by
        obtain ⟨s, h1, h2⟩ := finish_verified hx
        exact ⟨hclear', s, h1, .inl h2⟩
      have hf := est_frame (q := c.cc.inClear = false ∧ Verified e c sid (v :: 0xE5 :: t)) ((rel_finishRsp _ c).ok hx)
      exact (est_sendSecured sid b false c1).mono (fun _ _ h => M.Pre.trans hf (h.mono fun _ => hq)) fun _ _ h => M.Pre.trans hf (h.mono fun _ => hq)
    · rename_i hk
      obtain rfl := code_of hk
      unfold handlePskFinish
      rw [M.wp_bind, M.wp_def]
      refine ⟨fun b c1 hx => ?_, fun st c1 hx => est_frame ((rel_pskFinishRsp _ c).err hx)⟩
      have hq : c.cc.inClear = false ∧ Verified e c sid (v :: 0xE7 :: t) := by
        obtain ⟨s, h1, h2⟩ := pskFinish_verified hx
        exact ⟨hclear', s, h1, .inr h2⟩
      have hf := est_frame (q := c.cc.inClear = false ∧ Verified e c sid (v :: 0xE7 :: t)) ((rel_pskFinishRsp _ c).ok hx)
      exact (est_sendSecured sid b false c1).mono (fun _ _ h => M.Pre.trans hf (h.mono fun _ => hq)) fun _ _ h => M.Pre.trans hf (h.mono fun _ => hq)
    · exact hno (est_answer sid (rel_vendorRsp (sid := some sid) _) (codes_vendorRsp _ _) (by decide)) _
    all_goals first | exact hno (est_error _ _ _) _ | exact (show Est _ c c from M.Pre.refl c)

theorem est_secured (hl : HashLaw e) (sid : UInt32) (bytes : Bytes) (c : Ctx) :
    (dispatchSecured e sid bytes).wp c
      (fun _ => Est (c.cc.inClear = false ∧ ∃ s, c.session? sid = some s ∧ s.state = .handshaking ∧ (Spec.FinishVerified e c s bytes ∨ Spec.PskFinishVerified e c s bytes)) c)
      (fun _ => Est (c.cc.inClear = false ∧ ∃ s, c.session? sid = some s ∧ s.state = .handshaking ∧ (Spec.FinishVerified e c s bytes ∨ Spec.PskFinishVerified e c s bytes)) c) := by
  unfold dispatchSecured
  rw [M.wp_bind, M.wp_get]
  split
  · rw [M.wp_fail]; exact M.Pre.refl c
  · rename_i s hs
    split
    · rename_i hst
      have : c.cc.inClear = false ∧ Verified e c sid bytes → c.cc.inClear = false ∧ ∃ s', c.session? sid = some s' ∧ s'.state = .handshaking ∧
          (Spec.FinishVerified e c s' bytes ∨ Spec.PskFinishVerified e c s' bytes) := by
        rintro ⟨h1, s', h2, h3⟩
        rw [hs] at h2; cases h2
        exact ⟨h1, s, hs, hst, h3⟩
      exact (est_handshake sid bytes c).mono (fun _ _ h => h.mono this) fun _ _ h => h.mono this
    · exact (est_application hl sid bytes c).mono (fun _ _ h => h.mono False.elim) fun _ _ h => h.mono False.elim
    · rw [M.wp_fail]; exact M.Pre.refl c

theorem est_app (sid : UInt32) (msg : Bytes) : M.Rel (Est (∃ b, e.app sid msg = some b ∧ IsFinishRsp b)) (dispatchApp e sid msg) := by
  intro c
  unfold dispatchApp
  rw [M.wp_bind, M.wp_unwrap]
  intro b hb
  exact (est_sendSecured sid b true c).mono (fun _ _ h => h.mono fun h => ⟨b, hb, h⟩) fun _ _ h => h.mono fun h => ⟨b, hb, h⟩

theorem finishVerified_bump {c c1 : Ctx} {s : Session} {b : Bytes} (hc : c1.neg = c.neg) (hp : c1.peer = c.peer) (hr : c1.rt = c.rt) (r : Bool) (h : Spec.FinishVerified e c1 (s.bump r) b) :
    Spec.FinishVerified e c s b := by
  unfold Spec.FinishVerified Spec.PeerSigned at *
  rw [hc, hp, hr] at h
  cases hs : s.state <;> cases r <;> simp only [Session.bump, hs, Session.updHsReq, Session.updHsRsp, Session.updAppReq, Session.updAppRsp] at h <;> exact h

theorem pskFinishVerified_bump {c c1 : Ctx} {s : Session} {b : Bytes} (hc : c1.neg = c.neg) (r : Bool) (h : Spec.PskFinishVerified e c1 (s.bump r) b) :
    Spec.PskFinishVerified e c s b := by
  unfold Spec.PskFinishVerified at *
  rw [hc] at h
  cases hs : s.state <;> cases r <;> simp only [Session.bump, hs, Session.updHsReq, Session.updHsRsp, Session.updAppReq, Session.updAppRsp] at h <;> exact h

/-- the ways session `s` can enter its application phase when packet `rx` arrives. -/
inductive EstablishedBy (e : Env) (rx : Bytes) (c : Ctx) (s : Session) : Prop
  /-- a FINISH that verifies, protected by the session's handshake keys -/
  | finish (bytes : Bytes) (c1 : Ctx) : Opens e rx c s.id bytes false c1 → s.state = .handshaking → c.cc.inClear = false →
      Spec.FinishVerified e c s bytes → EstablishedBy e rx c s
  /-- a PSK_FINISH that verifies, protected by the session's handshake keys -/
  | pskFinish (bytes : Bytes) (c1 : Ctx) : Opens e rx c s.id bytes false c1 → s.state = .handshaking → c.cc.inClear = false →
      Spec.PskFinishVerified e c s bytes → EstablishedBy e rx c s
  /-- with HANDSHAKE_IN_THE_CLEAR, a plain FINISH that verifies for the session opened last -/
  | finishInClear (bytes : Bytes) : Plain e rx bytes → c.cc.inClear = true → c.rt.lastSession = some s.id → s.state = .handshaking →
      Spec.FinishVerified e c s bytes → EstablishedBy e rx c s
  /-- a PSK_EXCHANGE that opens a session in a free slot, on a connection whose PSK sessions have no PSK_FINISH -/
  | pskExchange (v : UInt8) (t : Bytes) : Plain e rx (v :: 0xE6 :: t) → c.cc.pskNoContext = true → s.id = 0 → EstablishedBy e rx c s
  /-- application data in the session whose answer, given by the application, looks like FINISH_RSP or PSK_FINISH_RSP -/
  | application (msg b : Bytes) (c1 : Ctx) : Opens e rx c s.id msg true c1 → e.app s.id msg = some b → IsFinishRsp b → EstablishedBy e rx c s

/-- an ERROR outside a session establishes nothing. -/
theorem est_plainError (code : ErrorCode) (bytes : Bytes) : M.Rel (Est False) (handleError e code none bytes) := by
  intro c
  have h1 := rel_reply (rel_errorResponse (k := true) (sid := none) code bytes) c
  have h2 := reply_wp ((codes_errorResponse code bytes).mono (Q' := Starts 0x7F) (fun _ h => h.elim)) c
  unfold handleError send
  rw [M.wp_bind]
  refine (h1.and h2).mono ?_ (fun _ _ h => h.2.elim)
  rintro b c1 ⟨hf, hb⟩
  have hb : Starts 0x7F b := by
    rcases hb with hb | ⟨_, _, rfl⟩
    · exact hb
    · exact starts_error _ _ _
  refine (sendMessage_error_any hb c1).mono ?_ ?_ <;>
  · rintro _ c' h
    refine M.Pre.trans (est_frame hf) ?_
    unfold Est
    rw [h.rel.2.2.2.1]
    exact All2.refl (fun _ h => .inl h) _

/-- a plain FINISH. -/
theorem est_plainFinish (v : UInt8) (t : Bytes) (c : Ctx) :
    (plainFinish e (v :: 0xE5 :: t)).wp c
      (fun _ => Est (c.cc.inClear = true ∧ ∃ s sid, c.rt.lastSession = some sid ∧ c.session? sid = some s ∧ s.state = .handshaking ∧ Spec.FinishVerified e c s (v :: 0xE5 :: t)) c)
      (fun _ => Est (c.cc.inClear = true ∧ ∃ s sid, c.rt.lastSession = some sid ∧ c.session? sid = some s ∧ s.state = .handshaking ∧ Spec.FinishVerified e c s (v :: 0xE5 :: t)) c) := by
  have herr : ∀ q code, (handleError e code none (v :: 0xE5 :: t)).wp c (fun _ => Est q c) (fun _ => Est q c) := fun q code =>
    (est_plainError code _ c).mono (fun _ _ h => h.mono False.elim) fun _ _ h => h.mono False.elim
  unfold plainFinish
  rw [M.wp_bind, M.wp_get]
  cases hc : c.cc.inClear
  · simp only [Bool.false_eq_true, if_false]
    exact herr _ _
  · simp only [if_true]
    cases hlast : c.rt.lastSession with
    | none => exact herr _ _
    | some sid =>
      simp only
      cases hs : c.session? sid with
      | none => exact herr _ _
      | some s =>
        simp only
        by_cases hst : s.state = .handshaking
        · rw [if_pos hst]
          unfold handleFinish
          rw [M.wp_bind, M.wp_get, M.wp_bind, M.wp_def]
          refine ⟨fun b c1 hx => ?_, fun st c1 hx => est_frame ((rel_finishRsp _ c).err hx)⟩
          obtain ⟨s1, g1, g2⟩ := finish_verified hx
          rw [hs] at g1; cases g1
          have hf := (rel_finishRsp _ c).ok hx
          have hb := (post_finishRsp sid _ c).ok hx
          rw [if_pos hc]
          have hsame : ∀ c', Sent c1 c' → Est False c1 c' := fun c' h => by
            unfold Est
            rw [h.rel.2.2.2.1]
            exact All2.refl (fun _ h => .inl h) _
          refine (sendMessage_finish_wp hb c1 sid (by rw [hf.last, hlast])).mono ?_ fun _ c' h => M.Pre.trans (est_frame hf) ((hsame _ h).mono False.elim)
          rintro _ c' (h | ⟨pkt, s2, hs2, rfl⟩)
          · exact M.Pre.trans (est_frame hf) ((hsame _ h).mono False.elim)
          · exact M.Pre.trans (est_frame hf) (est_upd c1 sid _ fun _ _ _ => .inr ⟨trivial, s, sid, rfl, hs, hst, g2⟩)
        · rw [if_neg hst]; exact herr _ _

/-- what is needed to go from `Est` on the table to a slot. -/
theorem Est.slot {q : Prop} {c c' : Ctx} (h : Est q c c') {i : Nat} {s s' : Session} (hi : c.sessions[i]? = some s) (hi' : c'.sessions[i]? = some s')
    (hne : s.state ≠ .established) (he : s'.state = .established) : q := by
  obtain ⟨b, hb, hR⟩ := All2.get? h hi
  rw [hi'] at hb; cases hb
  exact (hR he).resolve_left hne

/-- a slot that enters the application phase, for any well formed table. -/
theorem established_by (n : Nat) (hn : n < 0xFFFD) (hl : HashLaw e) (c c' : Ctx) (hreach : Tabled n c) (rx : Bytes)
    (hr : (∃ b, processMessage e rx c = .ok b c') ∨ processMessage e rx c = .err () c') (i : Nat) (s s' : Session)
    (hi : c.sessions[i]? = some s) (hi' : c'.sessions[i]? = some s') (hne : s.state ≠ .established) (he : s'.state = .established) :
    EstablishedBy e rx c s := by
  have hsame : c' ≠ c := by
    rintro rfl
    rw [hi] at hi'; cases hi'
    exact hne he
  have hstep : Step e rx c c' := by
    rcases hr with ⟨b, hr⟩ | hr
    · exact (process_step hl rx c).ok hr
    · exact (process_step hl rx c).err hr
  have hin : ∀ sid, SecOnly sid c c' → s.id = sid ∧ (sid ≠ 0 → c.session? sid = some s) := by
    intro sid h
    obtain ⟨b, hb, hR⟩ := All2.get? h.sessions hi
    rw [hi'] at hb; cases hb
    have hid : s.id = sid := by
      rcases hR with rfl | ⟨g, _⟩
      · exact absurd he hne
      · exact g
    exact ⟨hid, fun h0 => (tabled_lookup n hn c hreach sid h0 s).2 ⟨hid, i, hi⟩⟩
  rcases hstep with h | ⟨v, k, t, hp, hps⟩ | ⟨sid, hfor, huse, hsec⟩
  · exact absurd h hsame
  · have h0 : k ≠ 0xE5 → k ≠ 0x84 → s.id = 0 := by
      intro h1 h2
      by_cases h0 : s.id = 0
      · exact h0
      · have := tabled_open_others n hn hl c c' hreach rx v k t hp ⟨h2, h1⟩ hr i s hi h0
        rw [hi'] at this; cases this
        exact absurd he hne
    have hopen : ∀ est, k ≠ 0xE5 → k ≠ 0x84 → OpenedIn est c c' → est = true := by
      rintro est g1 g2 ⟨r, q, s1, l, h1, h2, h3, _, rfl, h6⟩
      cases est with
      | true => rfl
      | false =>
        exfalso
        have hlt := getElem?_lt hi
        obtain ⟨a, ha⟩ : ∃ a, (Ctx.updFirst (·.id = 0) (fun _ => s1) c.sessions)[i]? = some a := by
          have hlen : (Ctx.updFirst (·.id = 0) (fun _ => s1) c.sessions).length = c.sessions.length := by
            generalize c.sessions = l
            induction l with
            | nil => rfl
            | cons x l ih => unfold Ctx.updFirst; split <;> simp [ih]
          exact ⟨_, List.getElem?_eq_getElem (by rw [hlen]; exact hlt)⟩
        have hst : a.state ≠ .established := by
          have : ∀ (l : List Session) (i : Nat), l[i]? = some s → (Ctx.updFirst (·.id = 0) (fun _ => s1) l)[i]? = some a → a = s ∨ a = s1 := by
            intro l
            induction l with
            | nil => intro i h; simp at h
            | cons x l ih =>
              intro i h h'
              unfold Ctx.updFirst at h'
              split at h'
              · cases i with
                | zero => simp at h'; exact .inr h'.symm
                | succ i => simp at h h'; rw [h] at h'; cases h'; exact .inl rfl
              · cases i with
                | zero => simp at h h'; left; rw [← h, ← h']
                | succ i => simp at h h'; exact ih i h h'
          rcases this _ i hi ha with rfl | rfl
          · exact hne
          · rw [h3]; decide
        obtain ⟨b, hb, hR⟩ := All2.get? h6 ha
        rw [hi'] at hb; cases hb
        rcases hR with rfl | ⟨_, _, hR⟩
        · exact hst he
        · exact hst (hR rfl he)
    rcases hps.table with h | ⟨_, h⟩ | ⟨rfl, h⟩ | ⟨rfl, h⟩ | ⟨_, _, rfl, _, _, _, _, _⟩
    · rw [h, hi] at hi'; cases hi'
      exact absurd he hne
    · rw [h, List.getElem?_map, hi] at hi'
      simp only [Option.map_some, Option.some.injEq] at hi'
      subst hi'
      simp [Session.setDefault, Session.new] at he
    · exact absurd (hopen false (by decide) (by decide) h) (by decide)
    · exact .pskExchange v t hp (hopen _ (by decide) (by decide) h) (h0 (by decide) (by decide))
    · have hw := est_plainFinish (e := e) v t c
      rw [process_plain rx hp] at hr
      unfold isOk at hr
      have hd : dispatch e (v :: 0xE5 :: t) c = plainFinish e (v :: 0xE5 :: t) c := by rw [dispatch_cons]; rfl
      rw [hd] at hr
      have hest : Est (c.cc.inClear = true ∧ ∃ s sid, c.rt.lastSession = some sid ∧ c.session? sid = some s ∧ s.state = .handshaking ∧
          Spec.FinishVerified e c s (v :: 0xE5 :: t)) c c' := by
        split at hr <;> rename_i hx
        · rcases hr with ⟨b, hr⟩ | hr <;> cases hr; exact hw.ok hx
        · rcases hr with ⟨b, hr⟩ | hr <;> cases hr; exact hw.err hx
        · rcases hr with ⟨b, hr⟩ | hr <;> cases hr
      obtain ⟨g1, s2, sid, g2, g3, g4, g5⟩ := hest.slot hi hi' hne he
      -- the slot that changed is the one of the session being finished
      have hid : s2 = s := by
        have hns : s2.state ≠ .notStarted := by rw [g4]; decide
        rcases hps.table with h | ⟨h, _⟩ | ⟨h, _⟩ | ⟨h, _⟩ | ⟨sid', s3, _, _, g6, g7, _, hall⟩
        · rw [h, hi] at hi'; cases hi'; exact absurd he hne
        · exact absurd h (by decide)
        · exact absurd h (by decide)
        · exact absurd h (by decide)
        · rw [g2] at g6; cases g6
          obtain ⟨b, hb, hR⟩ := All2.get? hall hi
          rw [hi'] at hb; cases hb
          rcases hR with rfl | ⟨g8, _⟩
          · exact absurd he hne
          · obtain ⟨j, hj, hjs⟩ := List.mem_iff_getElem.1 (List.mem_of_find?_eq_some g3)
            have hj' : c.sessions[j]? = some s2 := by rw [List.getElem?_eq_getElem hj, hjs]
            have h0' := tabled_nonzero n hn c hreach j s2 hj' hns
            have hid2 := session?_id g3
            have := (tabled_lookup n hn c hreach sid (hid2 ▸ h0') s).2 ⟨g8, i, hi⟩
            rw [g3] at this; cases this; rfl
      subst hid
      exact .finishInClear _ hp g1 (by rw [session?_id g3]; exact g2) g4 g5
  · obtain ⟨hid, hfind⟩ := hin sid hsec
    have h0 : sid ≠ 0 := by
      obtain ⟨s3, g1, g2⟩ := huse
      obtain ⟨j, hj, hjs⟩ := List.mem_iff_getElem.1 (List.mem_of_find?_eq_some g1)
      have hj' : c.sessions[j]? = some s3 := by rw [List.getElem?_eq_getElem hj, hjs]
      have := tabled_nonzero n hn c hreach j s3 hj' g2
      rwa [session?_id g1] at this
    have hs := hfind h0
    obtain ⟨a1, b1, c1', d1, t1, hrec, _⟩ := hfor
    have hd : Ctx.intoBuf2 (e.tr.decap rx) 4160 = .ok (a1 :: b1 :: c1' :: d1 :: t1, true) := by
      unfold received at hrec
      split at hrec
      · rename_i p hp; cases hrec; exact hp
      · simp at hrec
    cases ho : openSecured e (a1 :: b1 :: c1' :: d1 :: t1) c with
    | panic =>
      unfold processMessage at hr
      simp [hd, Res.lift, M.mapErr, ho] at hr
    | err u c1 =>
      have hp : processMessage e rx c = .err u c1 := by unfold processMessage; simp [hd, Res.lift, M.mapErr, ho]
      rw [hp] at hr
      have hc : c' = c1 := by rcases hr with ⟨b, hr⟩ | hr <;> cases hr; rfl
      subst hc
      rcases (openSecured_wp rx _ hrec c).err ho with rfl | ⟨_, _, _, hf⟩
      · exact absurd rfl hsame
      · exact absurd ((est_frame (q := False) hf).slot hi hi' hne he) id
    | ok r c1 =>
      obtain ⟨sid', msg, isApp⟩ := r
      have hop : Opens e rx c sid' msg isApp c1 := ⟨_, hrec, ho⟩
      obtain ⟨hfor', s3, hs3, _, hc1⟩ := hop.eq
      have : sid' = sid := hfor'.unique ⟨a1, b1, c1', d1, t1, hrec, ‹_›⟩
      subst this
      rw [hs] at hs3; cases hs3
      have hf1 : Est False c c1 := by
        rw [hc1]
        exact est_upd c sid' _ fun s _ h => .inl (by rwa [Session.bump_state] at h)
      have hs1 : c1.session? sid' = some (s.bump true) := by
        rw [hc1]
        have := find_updFirst (sid := sid') (f := (·.bump true)) (fun s => Session.bump_id s true) c.sessions
        unfold Ctx.session? Ctx.updSession at *
        rw [this, hs]; rfl
      have hneg : c1.neg = c.neg := by rw [hc1]; rfl
      have hcc : c1.cc = c.cc := by rw [hc1]; rfl
      subst hid
      cases isApp with
      | true =>
        have hp : processMessage e rx c = isOk (dispatchApp e s.id msg) c1 := by
          unfold processMessage
          simp [hd, Res.lift, M.mapErr, ho]
        rw [hp] at hr
        have hw := est_app (e := e) s.id msg c1
        unfold isOk at hr
        have hest : Est (∃ b, e.app s.id msg = some b ∧ IsFinishRsp b) c1 c' := by
          split at hr <;> rename_i hx
          · rcases hr with ⟨b, hr⟩ | hr <;> cases hr; exact hw.ok hx
          · rcases hr with ⟨b, hr⟩ | hr <;> cases hr; exact hw.err hx
          · rcases hr with ⟨b, hr⟩ | hr <;> cases hr
        obtain ⟨b, g1, g2⟩ := (M.Pre.trans (hf1.mono False.elim) hest : Est _ c c').slot hi hi' hne he
        exact .application msg b c1 hop g1 g2
      | false =>
        rw [hop.process] at hr
        have hw := est_secured (e := e) hl s.id msg c1
        unfold isOk at hr
        have hest : Est (c1.cc.inClear = false ∧ ∃ s2, c1.session? s.id = some s2 ∧ s2.state = .handshaking ∧
            (Spec.FinishVerified e c1 s2 msg ∨ Spec.PskFinishVerified e c1 s2 msg)) c1 c' := by
          split at hr <;> rename_i hx
          · rcases hr with ⟨b, hr⟩ | hr <;> cases hr; exact hw.ok hx
          · rcases hr with ⟨b, hr⟩ | hr <;> cases hr; exact hw.err hx
          · rcases hr with ⟨b, hr⟩ | hr <;> cases hr
        obtain ⟨g1, s2, g2, g3, g4⟩ := (M.Pre.trans (hf1.mono False.elim) hest : Est _ c c').slot hi hi' hne he
        rw [hs1] at g2; cases g2
        rw [Session.bump_state] at g3
        rw [hcc] at g1
        rcases g4 with g4 | g4
        · exact .finish msg c1 hop g3 g1 (finishVerified_bump hneg (by rw [hc1]; rfl) (by rw [hc1]; rfl) _ g4)
        · exact .pskFinish msg c1 hop g3 g1 (pskFinishVerified_bump hneg _ g4)

/-- No session is established without a FINISH (or PSK_FINISH) that verifies: whenever a slot of the table goes to the
application phase when a packet arrives, that packet was a FINISH or PSK_FINISH whose HMAC verified over the session's transcript,
or a PSK_EXCHANGE on a connection whose PSK sessions need no finish.
Missing from the full property: the `application` case, which the code allows (`C26_application_violated`). -/
theorem C26_established_partial (n : Nat) (hn : n < 0xFFFD) (hl : HashLaw e) (c c' : Ctx) (hreach : Reachable n c) (rx : Bytes)
    (hr : (∃ b, processMessage e rx c = .ok b c') ∨ processMessage e rx c = .err () c') (i : Nat) (s s' : Session)
    (hi : c.sessions[i]? = some s) (hi' : c'.sessions[i]? = some s') (hne : s.state ≠ .established) (he : s'.state = .established) :
    EstablishedBy e rx c s :=
  established_by n hn hl c c' (hreach.table hn) rx hr i s s' hi hi' hne he

/-- after `l`, the phase of the session in slot 0 before and after the packet `rx`. -/
def phaseAfter (e : Env) (c : Ctx) (rx : Bytes) : Option (SessState × SessState) :=
  match processMessage e rx c with
  | .ok _ c' => some ((Toy.slot 0 c).state, (Toy.slot 0 c').state)
  | _ => none

/-- The right FINISH establishes the session; with one bit of the HMAC, of the attributes or of the version changed it does not. -/
example : phaseAfter Toy.env Toy.exchanged (Toy.finishPacket 0 Toy.exchanged) = some (.handshaking, .established) := by decide +kernel
example : phaseAfter Toy.env Toy.exchanged (Toy.sealIn 0 Toy.exchanged ([8, 0x12, 0xE5, 0, 0] ++ (Toy.finishMac 0 Toy.exchanged [0x12, 0xE5, 0, 0]).map (· ^^^ 1)))
    = some (.handshaking, .handshaking) := by decide +kernel
example : phaseAfter Toy.env Toy.exchanged (Toy.sealIn 0 Toy.exchanged ([8, 0x11, 0xE5, 0, 0] ++ Toy.finishMac 0 Toy.exchanged [0x11, 0xE5, 0, 0]))
    = some (.handshaking, .handshaking) := by decide +kernel
example : phaseAfter Toy.env Toy.exchanged (Toy.sealIn 0 Toy.exchanged ([8, 0x12, 0xE5, 1, 0] ++ Toy.finishMac 0 Toy.exchanged [0x12, 0xE5, 1, 0]))
    = some (.handshaking, .handshaking) := by decide +kernel

/-- The hypotheses of `C26_established_partial` are met by that run. -/
example : ∃ (c c' : Ctx) (b : Bool) (rx : Bytes) (s s' : Session), Reachable 2 c ∧ processMessage Toy.env rx c = .ok b c' ∧ c.sessions[0]? = some s ∧
    c'.sessions[0]? = some s' ∧ s.state ≠ .established ∧ s'.state = .established := by
  have hp : phaseAfter Toy.env (toyRun [Toy.version, Toy.capabilities, Toy.algorithms, Toy.keyExchange]) (Toy.finishPacket 0 Toy.exchanged) =
    some (.handshaking, .established) := by decide +kernel
  have h0 : (toyRun [Toy.version, Toy.capabilities, Toy.algorithms, Toy.keyExchange]).sessions[0]?.isSome = true := by decide +kernel
  have hr := toyRun_reachable [Toy.version, Toy.capabilities, Toy.algorithms, Toy.keyExchange] (by decide +kernel)
  generalize toyRun [Toy.version, Toy.capabilities, Toy.algorithms, Toy.keyExchange] = c at *
  generalize Toy.finishPacket 0 Toy.exchanged = rx at *
  obtain ⟨s, hs⟩ := Option.isSome_iff_exists.1 h0
  unfold phaseAfter at hp
  split at hp
  · rename_i b c' hx
    simp only [Toy.slot, hs, Option.getD_some, Option.some.injEq, Prod.mk.injEq] at hp
    cases hs' : c'.sessions[0]? with
    | none => rw [hs'] at hp; exact absurd hp.2 (by decide)
    | some s' =>
      rw [hs'] at hp
      exact ⟨c, c', b, rx, s, s', hr, hx, hs, hs', by rw [hp.1]; decide, hp.2⟩
  · cases hp

/-- The full property fails: a session whose handshake was never finished is established when the application answers data of
that session with bytes of which the second is 0x65 (the code of FINISH_RSP). -/
theorem C26_application_violated : ∃ (c : Ctx) (rx : Bytes), Reachable 2 c ∧
    phaseAfter (withApp Toy.env fun _ _ => some [0x41, 0x65, 0x66]) c rx = some (.handshaking, .established) ∧
    rx = Toy.sealIn 0 c [9, 0x68, 0x69] :=
  ⟨toyRun [Toy.version, Toy.capabilities, Toy.algorithms, Toy.keyExchange], _, toyRun_reachable _ (by decide +kernel), by decide +kernel, rfl⟩

end Verif.Props
