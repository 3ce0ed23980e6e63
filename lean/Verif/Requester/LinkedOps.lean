/-
The remaining operations of a session over a link: PSK_FINISH, HEARTBEAT, KEY_UPDATE and END_SESSION leave both ends in step.
-/
import Verif.Requester.LinkedSec
import Verif.Props.Table
import Verif.Props.KeyUpdate

namespace Verif
namespace Req

open Rsp
open Props (SameChannel Opens)

variable {e : REnv} {f : Env} {r0 : Ctx}

/-- PSK_FINISH at the responder. -/
theorem pskFinishRsp_plain {sid : UInt32} {v : UInt8} {mac b : Bytes} {c c' : Ctx} {s : Session} {x : HashCtx} (hs : c.session? sid = some s) (hx : s.th = some x)
    (hmac : c.cc.DigestOk mac) (h : pskFinishRsp f sid ([v, 0xE7, 0, 0] ++ mac) c = .ok b c') :
    ∃ th2 s', s.usePsk = true ∧ b = [c.neg.version.get, 0x67, 0, 0] ∧
      f.crypto.hash x.algo (x.data ++ [v, 0xE7, 0, 0] ++ mac ++ b) = some th2 ∧
      Session.genData f.crypto c.neg.version th2 { s with l1l2 := none, fInit := true, th := some ⟨x.algo, x.data ++ [v, 0xE7, 0, 0] ++ mac ++ b⟩ } = .ok () s' ∧
      c'.session? sid = some s' := by
  obtain ⟨v', k, p, q, mac', rest, s0, x0, th, th2, s', a1, a2, a3, a4, a5, a6, a8, a9, a10, a12, a13, a14, -⟩ := pskFinishRsp_ok h
  rw [hs] at a4
  cases a4
  rw [hx] at a5
  cases a5
  have h1 : mac.length = mac'.length := by
    unfold Cc.DigestOk at hmac a3
    rw [hmac] at a3
    exact Option.some.inj a3
  have h2 : rest = [] := by
    have := congrArg List.length a1
    simp only [List.length_append, List.length_cons, List.length_nil] at this
    exact List.eq_nil_of_length_eq_zero (by omega)
  subst h2
  simp only [List.append_nil, List.cons_append, List.nil_append, List.cons.injEq] at a1
  obtain ⟨rfl, rfl, rfl, rfl, rfl⟩ := a1
  exact ⟨th2, s', a6, a10, a12, a13, a14⟩

/-- PSK_FINISH over the link: both ends are in the application phase of the same session. -/
theorem linked_pskFinish (hl : Linked e f r0) (hp : Peers e.toEnv f) (hc : f.crypto.AeadLaws) (ht : CarriesSealed f.tr) {c c' rc : Ctx} {sid : UInt32}
    {s s' : Session} (hrun : Toy.runAll f r0 c.sent = some rc) (hset : Settled rc c) (hs : c.session? sid = some s) (hs' : rc.session? sid = some s') (hsame : SameSession s s')
    (hm : s.mutAuth = 0) (hh : s.hash = c.neg.baseHash) (h : pskFinish e sid c = .ok () c') :
    ∃ rc' t t', Toy.runAll f r0 c'.sent = some rc' ∧ c'.session? sid = some t ∧ rc'.session? sid = some t' ∧ SameSession t t' ∧ s.state = .handshaking ∧
      t.state = .established ∧ t.usePsk = true ∧ t.mutAuth = 0 ∧ t.hash = s.hash ∧ SecOnly sid rc rc' := by
  obtain ⟨x, th, mac, bytes, p, q, tl, th2, s1, s2, c0, c1, a2, a3, a4, a5, a6, a7, a8, a9, a12, -, a14, a15, a16, a18, s3, a19, a20⟩ := pskFinish_ok hs (.inl hm) h
  obtain ⟨pkt, pk, b1, sx, b2, b3, b4, b5, b6⟩ := a8
  rw [a5] at b2
  cases b2
  have hsid := session?_id hs
  have hsid' := session?_id hs'
  obtain ⟨x0, y0, rfl⟩ := hsame.out
  have hst : s'.state ≠ .notStarted := b3
  rw [a6] at b1
  obtain ⟨rc', g1, g2, g3, g4⟩ := linked_opens hl hp hc ht b1 b4 hsid hs' ⟨rfl, hst, rfl, rfl, rfl, rfl⟩ hrun
  have hopen : (rc.updSession sid (·.bump true)).session? sid = some (s'.bump true) := session?_upd hs' (by rw [Session.bump_id]; exact hsid')
  have hsent : rc'.sent = (rc.updSession sid (·.bump true)).sent ++ [pk] := g2
  have hcc : ∀ (F : Neg → Bool), (∀ n b, F { n with terminationPolicy := b } = F n) → F rc.neg = F c.neg := fun F hF => hset.same F hF
  have hb : bytes = c.neg.version.get :: 0x67 :: (p :: q :: tl) := by rw [a9]; rfl
  cases hstate : s'.state with
  | notStarted => exact absurd hstate hst
  | established =>
    exfalso
    have := dispatch_application hopen (by rw [Session.bump_state]; exact hstate) g1
    have hal : Alike s' { s' with slotId := x0, secureVersion := y0, l1l2 := none, fInit := true, th := some ⟨x.algo, x.data ++ [c.neg.version.get, 0xE7, 0, 0] ++ mac⟩ } :=
      ⟨rfl, rfl, rfl, rfl, fun _ => rfl, fun _ => rfl⟩
    exact error_answer hp hc ht hopen ((hal.bump true).channel (by rw [Session.bump_state]; exact hst) false) this hsent b5 hb (by decide)
  | handshaking =>
    obtain ⟨-, hd⟩ := dispatch_handshake hopen (by rw [Session.bump_state]; exact hstate) g1
    have hd : (do let b ← pskFinishRsp f sid ([c.neg.version.get, 0xE7, 0, 0] ++ mac); Rsp.sendSecured f sid b false : M Status Ctx Unit) (rc.updSession sid (·.bump true)) = .ok () rc' := by
      change Rsp.handlePskFinish f sid _ _ = _ at hd
      unfold Rsp.handlePskFinish at hd
      exact hd
    have hth : (s'.bump true).th = some x := by obtain ⟨k, hk⟩ := bump_handshaking hstate true; rw [hk]; exact a2
    have hmac : (rc.updSession sid (·.bump true)).cc.DigestOk mac := by
      have h1 : (rc.updSession sid (·.bump true)).cc.hashSize? = c.cc.hashSize? := hset.same (fun n => (Cc.mk n false false).hashSize?) fun _ _ => rfl
      unfold Cc.DigestOk
      rw [h1]
      have := hp.hmac s'.hash s'.hs.reqFinished th mac (by rw [← hp.crypto]; exact a4)
      rw [← this, show s'.hash = c.neg.baseHash from hh]
      rfl
    have hfin : ∀ b c2, pskFinishRsp f sid ([c.neg.version.get, 0xE7, 0, 0] ++ mac) (rc.updSession sid (·.bump true)) = .ok b c2 → _ :=
      fun b c2 h => pskFinishRsp_plain hopen hth hmac h
    have hans := secured_answer (r := 0x67) (t := _) hp hc ht (X := pskFinishRsp f sid ([c.neg.version.get, 0xE7, 0, 0] ++ mac)) ?_ ?_ ?_ hd hsent b5 hb (by decide)
    · obtain ⟨-, c2, t2, k1, k2, k3, rfl⟩ := hans
      obtain ⟨th', u', l1, l2, l3, l4, l5⟩ := hfin _ _ k1
      rw [k2] at l5
      cases l5
      have hver : (rc.updSession sid (·.bump true)).neg.version = c.neg.version := hset.same (fun n => n.version) fun _ _ => rfl
      rw [hver] at l2 l4
      have hpq : tl = [] ∧ [c.neg.version.get, 0x67, p, q] = [c.neg.version.get, 0x67, 0, 0] := by
        rw [a9] at l2
        simp only [List.append_nil, List.cons_append, List.nil_append, List.cons.injEq] at l2
        obtain ⟨-, -, rfl, rfl, rfl⟩ := l2
        exact ⟨rfl, rfl⟩
      obtain ⟨rfl, hrsp⟩ := hpq
      rw [l2, ← hp.crypto] at l3
      simp only [hrsp, List.append_nil] at a12 a14 a20
      rw [a12] at l3
      cases l3
      rw [l2, ← hp.crypto] at l4
      have hs3 := said_session a5 b6
      rw [a19] at hs3
      rw [Option.some.inj hs3] at a20
      rw [a20] at a14
      obtain ⟨e1, e2, e3, e4⟩ := data_agree hstate a14 l4
      refine ⟨_, _, _, ?_, a15, ?_, e1, rfl, rfl, ?_, ?_, e4, g4⟩
      · rw [a18, b6, show ∀ g, (withSent pkt (c0.updSession sid g)).sent = c0.sent ++ [pkt] from fun _ => rfl, a6]; exact g3
      · exact session?_const k2 (by show (Session.bump _ false).id = sid; rw [Session.bump_id]; exact session?_id k2)
      · exact e2.trans (by obtain ⟨k, hk⟩ := bump_handshaking hstate true; rw [hk] at l1; exact l1)
      · exact e3.trans hm
    · intro b c2 h
      exact .inl ((post_pskFinishRsp (e := f) sid _ _).ok h)
    · intro b c2 h
      exact ((ns_pskFinishRsp (e := f) (i := sid) _ _).ok h).symm
    · intro b c2 t2 h h2
      obtain ⟨th', u', k1, k2, k3, k4, k5⟩ := hfin b c2 h
      rw [k5] at h2
      cases h2
      obtain ⟨_, _, _, _, _, -, -, -, -, -, rfl⟩ := Session.genData_ok.1 k4
      refine Alike.channel (Alike.trans (t := s'.bump true) ?_ (Alike.bump (s := s') ?_ true)) ?_ false
      · exact ⟨rfl, rfl, rfl, rfl, fun _ => rfl, fun h => absurd h (by rw [show Session.state _ = (s'.bump true).state from rfl, Session.bump_state, hstate]; decide)⟩
      · exact ⟨rfl, rfl, rfl, rfl, fun _ => rfl, fun _ => rfl⟩
      · rw [show Session.state _ = (s'.bump true).state from rfl, Session.bump_state]; exact hst


/-! ### The application phase -/

/-- these requests are answered in the application phase only. -/
theorem application_only (hp : Peers e.toEnv f) (hc : f.crypto.AeadLaws) (ht : CarriesSealed f.tr) {rc1 rc' : Ctx} {sid : UInt32} {s1 t : Session}
    {p bytes t' msg : Bytes} {v w k r : UInt8} (hs : rc1.session? sid = some s1) (hst : s1.state ≠ .notStarted) (hch : s1.state = .handshaking → SameChannel s1 t false)
    (hk : k = 0xE8 ∨ k = 0xE9 ∨ k = 0xEC ∨ k = 0x81 ∨ k = 0x82 ∨ k = 0xE0) (hd : dispatchSecured f sid (w :: k :: msg) rc1 = .ok () rc')
    (hsent : rc'.sent = rc1.sent ++ [p]) (hin : RecordIn e t p bytes) (hb : bytes = v :: r :: t') (hr : r ≠ 0x7F) : s1.state = .established := by
  cases hstate : s1.state with
  | notStarted => exact absurd hstate hst
  | established => rfl
  | handshaking =>
    have h1 := (dispatch_handshake hs hstate hd).2
    exfalso
    rcases hk with rfl | rfl | rfl | rfl | rfl | rfl
    all_goals exact error_answer hp hc ht hs (hch hstate) h1 hsent hin hb hr

theorem bump_quiet (s : Session) (b : Bool) : Session.bump { s with l1l2 := none } b = { s.bump b with l1l2 := none } := by
  cases s with
  | mk i p m st => cases st <;> cases b <;> rfl

/-- what a writer does, when its answer is not an ERROR. -/
theorem reply_does {x : H Bytes} {c c' : Ctx} {b : Bytes} {k : UInt8} {Q : Bytes → Ctx → Prop} (hx : Does x c Q) (h : reply x c = .ok b c') (hb : Starts k b) (hk : k ≠ 0x7F) :
    Q b c' := by
  unfold reply at h
  unfold Does M.wp at hx
  cases hr : x c with
  | ok b1 c1 => rw [hr] at h hx; cases h; exact hx
  | panic => rw [hr] at h; cases h
  | err r c1 =>
    rw [hr] at h hx
    dsimp only at h hx
    rw [writeError_nil _ _ hx] at h
    cases h
    obtain ⟨v, t, ht⟩ := hb
    cases ht
    exact absurd rfl hk

theorem heartbeat_does (sid : UInt32) (bytes : Bytes) (c : Ctx) :
    Does (heartbeatRsp sid bytes) c fun b c' => b = [c.neg.version.get, 0x68, 0, 0] ∧ c' = Ctx.resetBuffers .reqHeartbeat (some sid) c := by
  unfold heartbeatRsp
  refine (does_version _ _).bind fun r c1 h1 => (does_modify _ _).bind fun _ c2 h2 => (does_read _ _ _ _).bind fun _ c3 h3 => ?_
  obtain ⟨rfl, -⟩ := h1
  obtain ⟨rfl, -⟩ := h3
  subst h2
  refine (does_encode (p := .heartbeatAck) (w := [0, 0]) encNoParams_writes (by decide)).mono fun b c4 h4 => ?_
  obtain ⟨rfl, rfl⟩ := h4
  refine ⟨?_, rfl⟩
  rw [show (Ctx.resetBuffers .reqHeartbeat (some sid) c1).neg = c1.neg from congrArg Cc.neg (resetBuffers_cc .reqHeartbeat c1 (some sid))]
  rfl

theorem endSession_does (sid : UInt32) (bytes : Bytes) (c : Ctx) :
    Does (endSessionRsp sid bytes) c fun b c' => b = [c.neg.version.get, 0x6C, 0, 0] ∧ c' = Ctx.resetBuffers .reqEndSession (some sid) c := by
  unfold endSessionRsp
  refine (does_version _ _).bind fun r c1 h1 => (does_read _ _ _ _).bind fun _ c3 h3 => (does_modify _ _).bind fun _ c2 h2 => ?_
  obtain ⟨rfl, -⟩ := h1
  obtain ⟨rfl, -⟩ := h3
  subst h2
  refine (does_encode (p := .endSessionAck) (w := [0, 0]) encNoParams_writes (by decide)).mono fun b c4 h4 => ?_
  obtain ⟨rfl, rfl⟩ := h4
  refine ⟨?_, rfl⟩
  rw [show (Ctx.resetBuffers .reqEndSession (some sid) c3).neg = c3.neg from congrArg Cc.neg (resetBuffers_cc .reqEndSession c3 (some sid))]
  rfl

theorem resetBuffers_neg' (k : ReqRespCode) (c : Ctx) (sid : Option UInt32) : (Ctx.resetBuffers k sid c).neg = c.neg := congrArg Cc.neg (resetBuffers_cc k c sid)

theorem heartbeat_ok {c c' : Ctx} {sid : UInt32} {u : Unit} (h : heartbeat e sid c = .ok u c') :
    ∃ bytes t, Said e (some sid) (Ctx.resetBuffers .reqHeartbeat (some sid) c) [c.neg.version.get, 0xE8, 0, 0] bytes c' ∧ bytes = c.neg.version.get :: 0x68 :: t := by
  unfold heartbeat at h
  obtain ⟨_, c1, h1, z1⟩ := M.bind_ok.1 h
  cases h1
  obtain ⟨req, c2, h2, z2⟩ := M.bind_ok.1 z1
  obtain ⟨rfl, rfl⟩ := encodeReq_ok (p := .heartbeat) (w := [0, 0]) encNoParams_writes h2
  obtain ⟨rsp, c3, h3, z3⟩ := M.bind_ok.1 z2
  have hs := transact_ok h3
  unfold handleHeartbeat at z3
  obtain ⟨r, c4, h4, z4⟩ := M.bind_ok.1 z3
  obtain ⟨rfl, v, t, rfl, hv, rfl⟩ := expect_ok h4
  obtain ⟨⟨_, rsp⟩, c5, h5, z5⟩ := M.bind_ok.1 z4
  obtain ⟨rfl, r', h6, rfl⟩ := readMsg_ok' h5
  cases z5
  rw [hs.fields.1, resetBuffers_neg'] at hv
  rw [resetBuffers_neg'] at hs
  exact ⟨_, _, hs, by rw [version_byte hv]; rfl⟩

theorem endSession_ok {c c' : Ctx} {sid : UInt32} {u : Unit} (h : endSession e sid c = .ok u c') :
    ∃ bytes t c1 s1, Said e (some sid) (Ctx.resetBuffers .reqEndSession (some sid) c) [c.neg.version.get, 0xEC, 0, 0] bytes c1 ∧
      bytes = c.neg.version.get :: 0x6C :: t ∧ c1.session? sid = some s1 ∧ c' = c1.updSession sid fun _ => s1.setDefault := by
  unfold endSession at h
  obtain ⟨_, c1, h1, z1⟩ := M.bind_ok.1 h
  cases h1
  obtain ⟨req, c2, h2, z2⟩ := M.bind_ok.1 z1
  obtain ⟨rfl, rfl⟩ := encodeReq_ok (p := .endSession 0) (encEndSession_writes 0) h2
  obtain ⟨rsp, c3, h3, z3⟩ := M.bind_ok.1 z2
  have hs := transact_ok h3
  unfold handleEndSession at z3
  obtain ⟨r, c4, h4, z4⟩ := M.bind_ok.1 z3
  obtain ⟨rfl, v, t, rfl, hv, rfl⟩ := expect_ok h4
  obtain ⟨⟨_, rsp⟩, c5, h5, z5⟩ := M.bind_ok.1 z4
  obtain ⟨rfl, r', h6, rfl⟩ := readMsg_ok' h5
  rw [hs.fields.1, resetBuffers_neg'] at hv
  rw [resetBuffers_neg'] at hs
  have hx : ∃ s1, c5.session? sid = some s1 := by
    obtain ⟨_, _, _, s, g1, _, _, _, g2⟩ := hs
    exact ⟨_, said_session g1 g2⟩
  obtain ⟨s1, hx⟩ := hx
  rw [teardown_ok hx] at z5
  cases z5
  exact ⟨_, _, _, s1, hs, by rw [version_byte hv]; rfl, hx, rfl⟩

/-- the session with its measurement transcript cleared. -/
def hushed (s : Session) : Session := { s with l1l2 := none }

theorem hushed_alike (s : Session) (x y : UInt8) : Alike s (hushed { s with slotId := x, secureVersion := y }) := ⟨rfl, rfl, rfl, rfl, fun _ => rfl, fun _ => rfl⟩

theorem hushed_session {k : ReqRespCode} {c : Ctx} {sid : UInt32} {s : Session} (hk : k ≠ .reqGetMeasurements) (h : c.session? sid = some s) :
    (Ctx.resetBuffers k (some sid) c).session? sid = some (hushed s) := by
  rw [resetBuffers_session _ _ _ hk, h]; rfl

theorem hushed_bump (s : Session) (b : Bool) : (hushed s).bump b = hushed (s.bump b) := bump_quiet s b

theorem SameSession.hushed {s s' : Session} (h : SameSession s s') : SameSession (hushed s) (hushed s') := by
  obtain ⟨x, y, rfl⟩ := h.out
  exact .of

theorem answered_session {sid : UInt32} {r : UInt8} {p : Bytes} {c : Ctx} {s : Session} (h : c.session? sid = some s) (h1 : r ≠ 0x6C) (h2 : r ≠ 0x65) (h3 : r ≠ 0x67) :
    (answered sid r p c s).session? sid = some (s.bump false) := by
  unfold answered
  rw [if_neg h1, if_neg (by rintro (h | h) <;> contradiction)]
  exact session?_const h (by rw [Session.bump_id]; exact session?_id h)

/-- a session loses at most its measurement transcript. -/
def Hush (sid : UInt32) (c c' : Ctx) : Prop := (c'.session? sid).map hushed = (c.session? sid).map hushed

instance (sid : UInt32) : M.Pre (Hush sid) where
  refl _ := rfl
  trans h h' := Eq.trans h' h

theorem hush_reset {sid : UInt32} {k : ReqRespCode} (hk : k ≠ .reqGetMeasurements) : M.Rel (Hush sid) (M.modify (Ctx.resetBuffers k (some sid)) : H Unit) :=
  M.Rel.modify fun c => by
    unfold Hush
    rw [resetBuffers_session _ _ _ hk]
    cases c.session? sid <;> rfl

theorem hush_of {sid : UInt32} {α : Type} {x : H α} (h : ∀ c, x.wp c (fun _ c' => c' = c) (fun _ c' => c' = c)) : M.Rel (Hush sid) x := fun c =>
  (h c).mono (fun _ _ h => by rw [h]; rfl) (fun _ _ h => by rw [h]; rfl)

theorem hush_checkVersion {sid : UInt32} (bytes : Bytes) : M.Rel (Hush sid) (checkVersion bytes) := by
  unfold checkVersion
  refine M.Rel.bind (hush_of fun c => ?_) fun p => ?_
  · unfold Rsp.header M.wp
    cases Header.read (Reader.init bytes) <;> first | rfl | trivial
  · obtain ⟨hd, r⟩ := p
    refine M.Rel.bind M.Rel.get fun c => ?_
    split
    · exact M.Rel.fail _
    · exact M.Rel.pure _

theorem hush_readReq {sid : UInt32} {α : Type} (x : Cc → Rd α) (bytes : Bytes) (r : Reader) : M.Rel (Hush sid) (readReq x bytes r) := hush_of fun c => by
  unfold readReq
  rw [M.wp_bind, M.wp_get]
  cases x c.cc r <;> first | rfl | trivial

theorem hush_encodeRsp {sid : UInt32} (r : ReqRespCode) (p : Payload) : M.Rel (Hush sid) (encodeRsp r p) := hush_of fun c =>
  (encodeRsp_wp r p c).mono (fun _ _ h => h.1) (fun _ _ h => h.1)

theorem hush_heartbeat (sid : UInt32) (bytes : Bytes) : M.Rel (Hush sid) (heartbeatRsp sid bytes) := by
  unfold heartbeatRsp
  exact M.Rel.bind (hush_checkVersion _) fun _ => M.Rel.bind (hush_reset (by decide)) fun _ => M.Rel.bind (hush_readReq _ _ _) fun _ => hush_encodeRsp _ _

theorem hush_endSession (sid : UInt32) (bytes : Bytes) : M.Rel (Hush sid) (endSessionRsp sid bytes) := by
  unfold endSessionRsp
  exact M.Rel.bind (hush_checkVersion _) fun _ => M.Rel.bind (hush_readReq _ _ _) fun _ => M.Rel.bind (hush_reset (by decide)) fun _ => hush_encodeRsp _ _

theorem reset_sessions {k : ReqRespCode} {c : Ctx} {sid : UInt32} (hk : k ≠ .reqGetMeasurements) :
    (Ctx.resetBuffers k (some sid) c).sessions = Ctx.updFirst (·.id = sid) hushed c.sessions := by
  have h : (Ctx.resetM (some sid) c).sessions = Ctx.updFirst (·.id = sid) hushed c.sessions := rfl
  unfold Ctx.resetBuffers
  rw [if_pos hk]
  dsimp only
  split
  all_goals first
    | exact h
    | (split <;> exact h)

/-- a request that only clears the measurement transcript. -/
theorem linked_quiet (hl : Linked e f r0) (hp : Peers e.toEnv f) (hc : f.crypto.AeadLaws) (ht : CarriesSealed f.tr) {c c1 rc : Ctx} {sid : UInt32}
    {s s' : Session} (hrun : Toy.runAll f r0 c.sent = some rc) (hs : c.session? sid = some s) (hs' : rc.session? sid = some s') (hsame : SameSession s s')
    {R : ReqRespCode} {k r v w : UInt8} {X : H Bytes} {msg tl bytes : Bytes} (hR : R ≠ .reqGetMeasurements) (hk : k = 0xE8 ∨ k = 0xE9 ∨ k = 0xEC ∨ k = 0x81 ∨ k = 0x82 ∨ k = 0xE0) (hr : r ≠ 0x7F)
    (hsaid : Said e (some sid) (Ctx.resetBuffers R (some sid) c) (w :: k :: msg) bytes c1) (hb : bytes = v :: r :: tl)
    (hX : ∀ c t c', dispatchSecured f sid (w :: k :: msg) c = .ok () c' → c.session? sid = some t → t.state = .established →
      (do let b ← reply X; Rsp.sendSecured f sid b false : M Status Ctx Unit) c = .ok () c')
    (hcodes : Codes r (Starts r) X) (hns : M.Rel Unsent X) (hdoes : ∀ c, Does X c fun _ c' => c' = Ctx.resetBuffers R (some sid) c)
    (hhush : M.Rel (Hush sid) X) :
    ∃ rc' pk, Toy.runAll f r0 c1.sent = some rc' ∧ s.state = .established ∧ c1.session? sid = some (((hushed s).bump true).bump false) ∧
      (Ctx.resetBuffers R (some sid) (rc.updSession sid (·.bump true))).session? sid = some ((hushed s').bump true) ∧
      rc' = answered sid r pk (Ctx.resetBuffers R (some sid) (rc.updSession sid (·.bump true))) ((hushed s').bump true) ∧ SecOnly sid rc rc' := by
  obtain ⟨pkt, pk, b1, sx, b2, b3, b4, b5, b6⟩ := hsaid
  have hsid := session?_id hs
  have hsid' := session?_id hs'
  obtain ⟨x0, y0, rfl⟩ := hsame.out
  have hse := hushed_session hR hs
  rw [hse] at b2
  cases b2
  have hst : s'.state ≠ .notStarted := b3
  rw [resetBuffers_sent] at b1
  have hal := hushed_alike s' x0 y0
  obtain ⟨rc', g1, g2, g3, g4⟩ := linked_opens hl hp hc ht b1 b4 hsid hs' ⟨rfl, hst, rfl, rfl, rfl, rfl⟩ hrun
  have hopen : (rc.updSession sid (·.bump true)).session? sid = some (s'.bump true) := session?_upd hs' (by rw [Session.bump_id]; exact hsid')
  have hch := (hal.bump true).channel (by rw [Session.bump_state]; exact hst) false
  have hest := application_only hp hc ht hopen (by rw [Session.bump_state]; exact hst) (fun _ => hch) hk g1 g2 b5 hb hr
  have hd := hX _ _ _ g1 hopen hest
  have hgo : ∀ b c2, reply X (rc.updSession sid (·.bump true)) = .ok b c2 → Starts r b ∨ Starts 0x7F b := by
    intro b c2 h
    rcases (reply_wp hcodes _).ok h with h | ⟨_, _, rfl⟩
    · exact .inl h
    · exact .inr (starts_error _ _ _)
  have hre := hushed_session hR hopen
  have hans := secured_answer (r := r) (t := _) hp hc ht (X := reply X) hgo (fun b c2 h => ((rel_reply hns _).ok h).symm) ?_ hd g2 b5 hb hr
  · obtain ⟨-, c2, t2, k1, k2, k3, rfl⟩ := hans
    have k4 := reply_does (k := r) (hdoes _) k1 ⟨_, _, hb⟩ hr
    subst k4
    rw [hre] at k2
    cases k2
    refine ⟨_, pk, ?_, ?_, said_session hse b6, by rw [hre, hushed_bump], by rw [hushed_bump], g4⟩
    · rw [b6, show ∀ g, (withSent pkt ((Ctx.resetBuffers R (some sid) c).updSession sid g)).sent = (Ctx.resetBuffers R (some sid) c).sent ++ [pkt] from fun _ => rfl,
        resetBuffers_sent]
      exact g3
    · rw [Session.bump_state] at hest; exact hest
  · intro b c2 t2 h h2
    have h3 := (rel_reply hhush _).ok h
    unfold Hush at h3
    rw [h2, hopen] at h3
    have h3 := Option.some.inj h3
    refine Alike.channel (Alike.trans (t := s'.bump true) ?_ (hal.bump true)) ?_ false
    · exact ⟨(congrArg Session.id h3 :), (congrArg Session.state h3 :), (congrArg Session.aead h3 :), (congrArg Session.seqCount h3 :), fun _ => (congrArg Session.hs h3 :),
        fun _ => (congrArg Session.app h3 :)⟩
    · rw [show t2.state = (s'.bump true).state from (congrArg Session.state h3 :), hest]; decide

/-- HEARTBEAT over the link. -/
theorem linked_heartbeat (hl : Linked e f r0) (hp : Peers e.toEnv f) (hc : f.crypto.AeadLaws) (ht : CarriesSealed f.tr) {c c' rc : Ctx} {sid : UInt32}
    {s s' : Session} (hrun : Toy.runAll f r0 c.sent = some rc) (hs : c.session? sid = some s) (hs' : rc.session? sid = some s') (hsame : SameSession s s')
    (h : heartbeat e sid c = .ok () c') :
    ∃ rc' t t', Toy.runAll f r0 c'.sent = some rc' ∧ c'.session? sid = some t ∧ rc'.session? sid = some t' ∧ SameSession t t' ∧ s.state = .established ∧
      t = ((hushed s).bump true).bump false ∧ SecOnly sid rc rc' := by
  obtain ⟨bytes, tl, hsaid, hb⟩ := heartbeat_ok h
  obtain ⟨rc', pk, h1, h2, h3, h4, rfl, h6⟩ := linked_quiet hl hp hc ht hrun hs hs' hsame (by decide) (.inl rfl) (by decide) hsaid hb
    (fun c t c' h h2 h3 => dispatch_application h2 h3 h) (codes_heartbeatRsp sid _) (ns_heartbeatRsp sid _)
    (fun c => (heartbeat_does sid _ c).mono fun _ _ h => h.2) (hush_heartbeat sid _)
  exact ⟨_, _, _, h1, h3, answered_session h4 (by decide) (by decide) (by decide), (hsame.hushed.bump true).bump false, h2, rfl, h6⟩

/-- END_SESSION over the link: the session is gone at both ends. -/
theorem linked_endSession (hl : Linked e f r0) (hp : Peers e.toEnv f) (hc : f.crypto.AeadLaws) (ht : CarriesSealed f.tr) {c c' rc : Ctx} {sid : UInt32}
    {s s' : Session} (hrun : Toy.runAll f r0 c.sent = some rc) (hs : c.session? sid = some s) (hs' : rc.session? sid = some s') (hsame : SameSession s s')
    (h : endSession e sid c = .ok () c') :
    ∃ (rc' : Ctx) (t t' : Session), Toy.runAll f r0 c'.sent = some rc' ∧ s.state = .established ∧ SecOnly sid rc rc' ∧
      c'.sessions = Ctx.updFirst (·.id = sid) (fun _ => t.setDefault) c.sessions ∧ rc'.sessions = Ctx.updFirst (·.id = sid) (fun _ => t'.setDefault) rc.sessions := by
  obtain ⟨bytes, tl, c1, s1, hsaid, hb, g1, rfl⟩ := endSession_ok h
  have hsaid' := hsaid
  obtain ⟨rc', pk, h1, h2, h3, h4, rfl, h6⟩ := linked_quiet hl hp hc ht hrun hs hs' hsame (by decide) (.inr (.inr (.inl rfl))) (by decide) hsaid hb
    (fun c t c' h h2 h3 => dispatch_application h2 h3 h) (codes_endSessionRsp sid _) (ns_endSessionRsp sid _)
    (fun c => (endSession_does sid _ c).mono fun _ _ h => h.2) (hush_endSession sid _)
  refine ⟨_, s1, ((hushed s').bump true).bump false, h1, h2, h6, ?_, ?_⟩
  · obtain ⟨pkt, _, _, sx, b2, _, _, _, rfl⟩ := hsaid'
    have hid := session?_id b2
    show Ctx.updFirst _ _ (Ctx.updFirst _ _ (Ctx.resetBuffers .reqEndSession (some sid) c).sessions) = _
    rw [Props.updFirst_updFirst (fun s _ => by simp only [Session.bump_id]; exact hid), reset_sessions (by decide), Props.updFirst_updFirst (f := hushed) (fun s h => h)]
  · unfold answered
    rw [if_pos rfl]
    show Ctx.updFirst _ _ (Ctx.resetBuffers .reqEndSession (some sid) (rc.updSession sid (·.bump true))).sessions = _
    rw [reset_sessions (by decide), Props.updFirst_updFirst (f := hushed) (fun s h => h)]
    show Ctx.updFirst _ _ (Ctx.updFirst _ _ rc.sessions) = _
    rw [Props.updFirst_updFirst (fun s h => by rw [Session.bump_id]; exact h)]

/-! ### KEY_UPDATE -/

/-- the responder still keeps the previous request key, the requester has dropped it. -/
def Cleared (s s' : Session) : Prop := SameSession s { s' with backup := { s'.backup with reqSecret := [], req := {} } }

theorem SameSession.backup {s s' : Session} (h : SameSession s s') : s.backup = s'.backup := by obtain ⟨x, y, rfl⟩ := h.out; rfl

/-- equal but for the notes and the previous keys. -/
def SameKeys (s s' : Session) : Prop := ∃ x y B, s = { s' with slotId := x, secureVersion := y, backup := B }

theorem SameSession.keys {s s' : Session} (h : SameSession s s') : SameKeys s s' := by obtain ⟨x, y, rfl⟩ := h.out; exact ⟨_, _, s'.backup, rfl⟩
theorem Cleared.keys {s s' : Session} (h : Cleared s s') : SameKeys s s' := by obtain ⟨x, y, rfl⟩ := SameSession.out h; exact ⟨_, _, _, rfl⟩

theorem SameKeys.alike {s s' : Session} (h : SameKeys s s') : Alike s' s := by
  obtain ⟨x, y, B, rfl⟩ := h
  exact ⟨rfl, rfl, rfl, rfl, fun _ => rfl, fun _ => rfl⟩

theorem createUpdate_frame {p : Crypto} {v : SpdmVersion} {a b : Bool} {s s' : Session} (h : Session.createUpdate p v a b s = .ok () s') :
    s' = { s with app := s'.app, backup := s'.backup } := by
  obtain ⟨s1, h1, h2⟩ := Session.createUpdate_ok.1 h
  cases a <;> cases b
  · simp at h1 h2; subst h2 h1; rfl
  · simp at h1 h2; subst h1
    obtain ⟨_, _, -, -, rfl⟩ := Session.createRsp_ok.1 h2; rfl
  · simp at h1 h2; subst h2
    obtain ⟨_, _, -, -, rfl⟩ := Session.createReq_ok.1 h1; rfl
  · simp at h1 h2
    obtain ⟨_, _, -, -, rfl⟩ := Session.createReq_ok.1 h1
    obtain ⟨_, _, -, -, rfl⟩ := Session.createRsp_ok.1 h2; rfl

theorem createReq_agree {p : Crypto} {v : SpdmVersion} {s s2 : Session} {x y : UInt8} {B : AppSecret} (h : Session.createReq p v { s with slotId := x, secureVersion := y, backup := B } = .ok () s2) :
    ∃ A r q, s2 = { s with slotId := x, secureVersion := y, app := A, backup := { B with reqSecret := r, req := q } } ∧
      Session.createReq p v s = .ok () { s with app := A, backup := { s.backup with reqSecret := r, req := q } } := by
  obtain ⟨a, k, h1, h2, rfl⟩ := Session.createReq_ok.1 h
  exact ⟨_, _, _, rfl, Session.createReq_ok.2 ⟨a, k, h1, h2, rfl⟩⟩

theorem createRsp_agree {p : Crypto} {v : SpdmVersion} {s s2 : Session} {x y : UInt8} {B : AppSecret} (h : Session.createRsp p v { s with slotId := x, secureVersion := y, backup := B } = .ok () s2) :
    ∃ A r q, s2 = { s with slotId := x, secureVersion := y, app := A, backup := { B with rspSecret := r, rsp := q } } ∧
      Session.createRsp p v s = .ok () { s with app := A, backup := { s.backup with rspSecret := r, rsp := q } } := by
  obtain ⟨a, k, h1, h2, rfl⟩ := Session.createRsp_ok.1 h
  exact ⟨_, _, _, rfl, Session.createRsp_ok.2 ⟨a, k, h1, h2, rfl⟩⟩

/-- the two ends of one KEY_UPDATE operation: `w` and `w0` are the sessions after the request was counted. -/
theorem update_agree {v : SpdmVersion} {op : KeyUpdateOp} {w w0 s2 s2' : Session} {known : Bool} (hop : op.known = true) (hst : w.state = .established) (hk : SameKeys w0 w)
    (hcr : e.crypto = f.crypto) (h : Session.createUpdate e.crypto v (updatesReq op) (updatesRsp op) w0 = .ok () s2) (h' : keyUpdateOps f v op w = .ok known s2') :
    known = true ∧ SameKeys s2 s2' ∧ s2'.id = w.id ∧ s2'.state = .established ∧
      (op ≠ .verifyNewKey → SameSession w0 w → Cleared (Session.activateUpdate (updatesReq op) (updatesRsp op) true (s2.bump false)) (s2'.bump false)) ∧
      (op = .updateAllKeys → SameSession w0 w → SameSession (Session.activateUpdate (updatesReq op) (updatesRsp op) true (s2.bump false)) (s2'.bump false)) ∧
      (op = .verifyNewKey → Cleared w0 w → SameSession (Session.activateUpdate (updatesReq op) (updatesRsp op) true (s2.bump false)) (s2'.bump false)) := by
  obtain ⟨x, y, B, rfl⟩ := hk
  rw [hcr] at h
  have hsame : SameSession { w with slotId := x, secureVersion := y, backup := B } w → B = w.backup := fun h => h.backup
  cases op with
  | unknown b => cases hop
  | updateSingleKey =>
    obtain ⟨s1, h1, h2⟩ := Session.createUpdate_ok.1 h
    change Session.createReq _ _ _ = _ at h1
    change s2 = s1 at h2
    subst h2
    obtain ⟨A, r, q, rfl, g⟩ := createReq_agree h1
    have hx : Session.createUpdate f.crypto v true false w = .ok () _ := Session.createUpdate_ok.2 ⟨_, g, rfl⟩
    change (do let _ ← M.try' (Session.createUpdate f.crypto v true false); pure true : M Status Session Bool) w = _ at h'
    rw [M.bind_apply] at h'
    unfold M.try' at h'
    rw [hx] at h'
    cases h'
    refine ⟨rfl, ⟨x, y, _, rfl⟩, rfl, hst, fun _ hs => ?_, fun h => (by cases h), fun h => (by cases h)⟩
    cases hsame hs
    cases w with
    | mk i ps m st => cases hst; rfl
  | updateAllKeys =>
    obtain ⟨s1, h1, h2⟩ := Session.createUpdate_ok.1 h
    change Session.createReq _ _ _ = _ at h1
    change Session.createRsp _ _ _ = _ at h2
    obtain ⟨A, r, q, rfl, g⟩ := createReq_agree h1
    obtain ⟨A2, r2, q2, hs2, g2⟩ := createRsp_agree (s := { w with app := A, backup := { w.backup with reqSecret := r, req := q } }) (x := x) (y := y)
      (B := { B with reqSecret := r, req := q }) h2
    have hx : Session.createUpdate f.crypto v true true w = .ok () _ := Session.createUpdate_ok.2 ⟨_, g, g2⟩
    change (do
      let _ ← M.try' (Session.createUpdate f.crypto v true true)
      M.modify (Session.activateUpdate true true true)
      pure true : M Status Session Bool) w = _ at h'
    rw [M.bind_apply] at h'
    unfold M.try' at h'
    rw [hx] at h'
    cases h'
    subst hs2
    refine ⟨rfl, ⟨x, y, _, rfl⟩, rfl, hst, fun _ hs => ?_, fun _ hs => ?_, fun h => (by cases h)⟩
    all_goals
      cases hsame hs
      cases w with
      | mk i ps m st => cases hst; rfl
  | verifyNewKey =>
    obtain ⟨s1, h1, h2⟩ := Session.createUpdate_ok.1 h
    change s1 = _ at h1
    change s2 = s1 at h2
    subst h2
    subst h1
    cases h'
    refine ⟨rfl, ⟨x, y, _, rfl⟩, rfl, hst, fun h => absurd rfl h, fun h => (by cases h), fun _ hs => ?_⟩
    have : B = { w.backup with reqSecret := [], req := {} } := SameSession.backup hs
    subst this
    cases w with
    | mk i ps m st => cases hst; rfl

theorem handleKeyUpdate_ok {c c' : Ctx} {sid : UInt32} {x y : Bool} {bytes : Bytes} {s : Session} {u : Unit} (hs : c.session? sid = some s) (h : handleKeyUpdate sid x y bytes c = .ok u c') :
    ∃ v t, bytes = v :: 0x69 :: t ∧ SpdmVersion.ofCode v = c.neg.version ∧ c' = c.updSession sid fun _ => Session.activateUpdate x y true s := by
  unfold handleKeyUpdate at h
  obtain ⟨r, c7, h7, z7⟩ := M.bind_ok.1 h
  obtain ⟨rfl, v, t, rfl, hv, rfl⟩ := expect_ok h7
  refine ⟨v, t, rfl, hv, ?_⟩
  have hfin : keyUpdateAck sid x y true c7 = .ok u c' := by
    cases hr : KeyUpd.read ⟨t, 2⟩ with
    | panic => rw [hr] at z7; cases z7
    | ok a r' => rw [hr] at z7; exact z7
    | err a r' =>
      rw [hr] at z7
      dsimp only at z7
      unfold keyUpdateAck at z7
      obtain ⟨_, c9, h9, z9⟩ := M.bind_ok.1 z7
      cases z9
  unfold keyUpdateAck at hfin
  obtain ⟨_, c9, h9, z9⟩ := M.bind_ok.1 hfin
  cases z9
  obtain ⟨s4, k10, rfl⟩ := onSession_ok hs h9
  rw [M.modify_apply] at k10
  injection k10 with _ k10
  subst k10
  rfl

theorem activate_frame (x y z : Bool) (s : Session) : ∃ A B, Session.activateUpdate x y z s = { s with app := A, backup := B } := by
  unfold Session.activateUpdate
  cases x <;> cases y <;> cases z <;> exact ⟨_, _, rfl⟩

theorem bump_frame {s : Session} (h : s.state = .established) (b : Bool) : ∃ A, s.bump b = { s with app := A } := by
  cases s with
  | mk i ps m st => cases h; cases b <;> exact ⟨_, rfl⟩

theorem keyUpdateOp_ok {c c' : Ctx} {sid : UInt32} {op : KeyUpdateOp} {tag : UInt8} {s : Session} {u : Unit} (hs : c.session? sid = some s) (h : keyUpdateOp e sid op tag c = .ok u c') :
    ∃ pkt p s2 bytes t, s.state ≠ .notStarted ∧ RecordOut e (hushed s) [c.neg.version.get, 0xE9, op.get, tag] pkt ∧ e.recv (c.sent ++ [pkt]) = some p ∧
      Session.createUpdate e.crypto c.neg.version (updatesReq op) (updatesRsp op) ((hushed s).bump true) = .ok () s2 ∧ RecordIn e s2 p bytes ∧
      bytes = c.neg.version.get :: 0x69 :: t ∧ c'.sent = c.sent ++ [pkt] ∧ c'.neg = c.neg ∧
      SpdmVersion.ofCode c.neg.version.get = c.neg.version ∧ c'.session? sid = some (Session.activateUpdate (updatesReq op) (updatesRsp op) true (s2.bump false)) := by
  have hsid := session?_id hs
  have hs0 := hushed_session (k := .reqKeyUpdate) (by decide) hs
  have hsent0 := resetBuffers_sent .reqKeyUpdate c (some sid)
  have hneg0 := resetBuffers_neg' .reqKeyUpdate c (some sid)
  unfold keyUpdateOp at h
  obtain ⟨_, c1, h1, z1⟩ := M.bind_ok.1 h
  rw [M.modify_apply] at h1
  injection h1 with _ h1
  rw [h1] at hs0 hsent0 hneg0
  obtain ⟨req, c2, h2, z2⟩ := M.bind_ok.1 z1
  obtain ⟨rfl, rfl⟩ := encodeReq_ok (p := .keyUpdate ⟨op, tag⟩) (KeyUpd.encode_writes _) h2
  obtain ⟨_, c3, h3, z3⟩ := M.bind_ok.1 z2
  obtain ⟨pkt, sx, k1, k2, k3, rfl⟩ := sendSecured_ok h3
  rw [hs0] at k1
  cases k1
  obtain ⟨cg, c4, h4, z4⟩ := M.bind_ok.1 z3
  cases h4
  have hs1 : (withSent pkt (c2.updSession sid fun _ => (hushed s).bump true)).session? sid = some ((hushed s).bump true) :=
    session?_const hs0 (by rw [Session.bump_id]; exact hsid)
  obtain ⟨_, c5, h5, z5⟩ := M.bind_ok.1 z4
  obtain ⟨s2, k4, rfl⟩ := onSession_ok hs1 h5
  have hid2 : s2.id = sid := by
    rw [createUpdate_frame k4]
    show ((hushed s).bump true).id = sid
    rw [Session.bump_id]; exact hsid
  have hs2 := session?_const (s' := s2) hs1 hid2
  obtain ⟨rsp, c6, h6, z6⟩ := M.bind_ok.1 z5
  obtain ⟨p, k5, k6⟩ := receiveSecured_ok h6
  obtain ⟨s3, k7, k8, k9, rfl⟩ := decodeSecured_ok k6
  rw [hs2] at k7
  cases k7
  have hs3 := session?_const (s' := s2.bump false) hs2 (by rw [Session.bump_id]; exact hid2)
  obtain ⟨v, t, rfl, hv, rfl⟩ := handleKeyUpdate_ok hs3 z6
  have hv' : SpdmVersion.ofCode v = c.neg.version := hv.trans (congrArg Neg.version hneg0)
  rw [hneg0] at k3
  have k4' : Session.createUpdate e.crypto c2.neg.version (updatesReq op) (updatesRsp op) ((hushed s).bump true) = .ok () s2 := k4
  rw [hneg0] at k4'
  refine ⟨pkt, p, s2, _, t, k2, k3, ?_, k4', k9, by rw [version_byte hv'], ?_, hneg0, by rw [← version_byte hv']; exact hv', session?_const hs3 ?_⟩
  · rw [← hsent0]; exact k5
  · rw [← hsent0]; rfl
  · unfold Session.activateUpdate
    have : (s2.bump false).id = sid := by rw [Session.bump_id]; exact hid2
    cases updatesReq op <;> cases updatesRsp op <;> exact this

/-- One KEY_UPDATE operation over the link. -/
theorem linked_keyUpdateOp (hl : Linked e f r0) (hp : Peers e.toEnv f) (hc : f.crypto.AeadLaws) (ht : CarriesSealed f.tr) {c c' rc : Ctx} {sid : UInt32} {op : KeyUpdateOp} {tag : UInt8}
    {s s' : Session} (hrun : Toy.runAll f r0 c.sent = some rc) (hset : Settled rc c) (hs : c.session? sid = some s) (hs' : rc.session? sid = some s') (hkeys : SameKeys s s')
    (hop : op.known = true) (h : keyUpdateOp e sid op tag c = .ok () c') :
    ∃ rc' t t', Toy.runAll f r0 c'.sent = some rc' ∧ c'.session? sid = some t ∧ rc'.session? sid = some t' ∧ s.state = .established ∧ SecOnly sid rc rc' ∧
      c'.neg = c.neg ∧ t = { s with app := t.app, backup := t.backup, l1l2 := none } ∧
      (op ≠ .verifyNewKey → SameSession s s' → Cleared t t') ∧ (op = .updateAllKeys → SameSession s s' → SameSession t t') ∧
      (op = .verifyNewKey → Cleared s s' → SameSession t t') := by
  obtain ⟨pkt, p, s2, bytes, tl, b1, b2, b3, b4, b5, b6, b7, b8, bv, b9⟩ := keyUpdateOp_ok hs h
  have hsid := session?_id hs
  have hsid' := session?_id hs'
  have hal : Alike s' (hushed s) := hkeys.alike.trans ⟨rfl, rfl, rfl, rfl, fun _ => rfl, fun _ => rfl⟩
  have hst : s'.state ≠ .notStarted := by rw [hal.state]; exact b1
  have hfr := createUpdate_frame b4
  have hal' : Alike (hushed s) s' := ⟨hal.id.symm, hal.state.symm, hal.aead.symm, hal.seqCount.symm, fun g => (hal.hs (hal.state.trans g)).symm, fun g => (hal.app (hal.state.trans g)).symm⟩
  obtain ⟨rc', g1, g2, g3, g4⟩ := linked_opens hl hp hc ht b3 b2 hsid hs' (hal'.channel b1 true) hrun
  have hopen : (rc.updSession sid (·.bump true)).session? sid = some (s'.bump true) := session?_upd hs' (by rw [Session.bump_id]; exact hsid')
  have hst1 : (s'.bump true).state ≠ .notStarted := by rw [Session.bump_state]; exact hst
  have hch : (s'.bump true).state = .handshaking → SameChannel (s'.bump true) s2 false := fun hh => by
    refine Alike.channel (Alike.trans (hal.bump true) ?_) hst1 false
    rw [hfr]
    exact ⟨rfl, rfl, rfl, rfl, fun _ => rfl, fun h => by rw [← (hal.bump true).state, hh] at h; cases h⟩
  have hest := application_only hp hc ht hopen hst1 hch (.inr (.inl rfl)) g1 g2 b5 b6 (by decide)
  have hd := dispatch_application hopen hest g1
  have hd : (do let b ← reply (keyUpdateRsp f sid [c.neg.version.get, 0xE9, op.get, tag]); Rsp.sendSecured f sid b false : M Status Ctx Unit) (rc.updSession sid (·.bump true)) = .ok () rc' := hd
  have hver : (rc.updSession sid (·.bump true)).neg.version = c.neg.version := hset.same (fun n => n.version) fun _ _ => rfl
  have hw : SameKeys ((hushed s).bump true) (hushed (s'.bump true)) := by
    obtain ⟨x, y, B, rfl⟩ := hkeys
    refine ⟨x, y, B, ?_⟩
    cases s' with
    | mk i ps m st => cases st <;> rfl
  have hans : ∀ b c2, reply (keyUpdateRsp f sid [c.neg.version.get, 0xE9, op.get, tag]) (rc.updSession sid (·.bump true)) = .ok b c2 →
      Starts 0x69 b ∧ ∃ s2', c2.session? sid = some s2' ∧ SameKeys s2 s2' ∧ s2'.state = .established ∧ keyUpdateOps f c.neg.version op (hushed (s'.bump true)) = .ok true s2' := by
    intro b c2 h
    have hop' : KeyUpdateOp.ofCode op.get = op := by cases op <;> first | rfl | cases hop
    obtain ⟨known, s2', m1, m2⟩ := Props.keyUpdateRsp_ok hopen (by rw [hver]; exact bv) (by rw [hop']; exact hop) h
    rw [hop', hver] at m1
    obtain ⟨rfl, n2, n3, n4, -⟩ := update_agree (w := hushed (s'.bump true)) hop hest hw hp.crypto b4 m1
    obtain ⟨rfl, rfl⟩ := m2 rfl
    exact ⟨⟨_, _, rfl⟩, s2', session?_const (hushed_session (by decide) hopen) (by rw [n3]; exact (session?_id hopen :)), n2, n4, m1⟩
  have hfinal := secured_answer (r := 0x69) (t := _) hp hc ht (X := reply (keyUpdateRsp f sid [c.neg.version.get, 0xE9, op.get, tag])) (fun b c2 h => .inl (hans b c2 h).1)
    (fun b c2 h => ((rel_reply (ns_keyUpdateRsp sid _) _).ok h).symm) ?_ hd g2 b5 b6 (by decide)
  · obtain ⟨-, c2, t2, k1, k2, k3, rfl⟩ := hfinal
    obtain ⟨-, s2', n1, n2, n3, n4⟩ := hans _ _ k1
    rw [n1] at k2
    cases k2
    obtain ⟨-, -, -, -, u1, u2, u3⟩ := update_agree (w := hushed (s'.bump true)) hop hest hw hp.crypto b4 n4
    refine ⟨_, _, _, ?_, b9, answered_session n1 (by decide) (by decide) (by decide), ?_, g4, b8, ?_, ?_, ?_, ?_⟩
    · rw [b7]; exact g3
    · rw [Session.bump_state] at hest; rw [← hest]; exact hal.state.symm
    · obtain ⟨A, B, q1⟩ := activate_frame (updatesReq op) (updatesRsp op) true (s2.bump false)
      rw [q1]
      have hse : s.state = .established := by rw [Session.bump_state] at hest; rw [← hest]; exact hal.state.symm
      obtain ⟨A1, q2⟩ := bump_frame (s := hushed s) hse true
      have hs2e : s2.state = .established := by rw [hfr, q2]; exact hse
      obtain ⟨A2, q3⟩ := bump_frame hs2e false
      rw [q3, hfr, q2]
      rfl
    · intro h1 h2
      exact u1 h1 (by rw [← hushed_bump]; exact h2.hushed.bump true)
    · intro h1 h2
      exact u2 h1 (by rw [← hushed_bump]; exact h2.hushed.bump true)
    · intro h1 h2
      refine u3 h1 ?_
      have hc2 := h2.hushed.bump true
      unfold Cleared
      have : hushed (s'.bump true) = (hushed s').bump true := (hushed_bump _ _).symm
      rw [this]
      refine (?_ : SameSession _ _)
      have q : ({ (hushed s').bump true with backup := { ((hushed s').bump true).backup with reqSecret := [], req := {} } } : Session) =
          (hushed { s' with backup := { s'.backup with reqSecret := [], req := {} } }).bump true := by
        cases s' with
        | mk i ps m st => cases st <;> rfl
      rw [q]
      exact hc2
  · intro b c2 t2 h h2
    obtain ⟨-, s2', n1, n2, n3, n4⟩ := hans _ _ h
    rw [n1] at h2
    cases h2
    exact n2.alike.channel (by rw [n3]; decide) false

/-- what the two ends settled stays settled through the operations on one session. -/
theorem Settled.keep {rc c rc' c' : Ctx} {sid : UInt32} {o : Option UInt32} (h : Settled rc c) (hr : SecOnly sid rc rc') (hq : Kept o c c') : Settled rc' c' :=
  ⟨by rw [hr.neg, hq.neg]; exact h.neg, by rw [hr.messageA, hq.messageA]; exact h.transcript⟩

/-- KEY_UPDATE over the link: both ends leave the exchange with the same, replaced keys. -/
theorem linked_keyUpdate (hl : Linked e f r0) (hp : Peers e.toEnv f) (hc : f.crypto.AeadLaws) (ht : CarriesSealed f.tr) {c c' rc : Ctx} {sid : UInt32} {op : KeyUpdateOp}
    {s s' : Session} (hrun : Toy.runAll f r0 c.sent = some rc) (hset : Settled rc c) (hs : c.session? sid = some s) (hs' : rc.session? sid = some s') (hsame : SameSession s s')
    (h : keyUpdate e sid op c = .ok () c') :
    ∃ rc' t t', Toy.runAll f r0 c'.sent = some rc' ∧ c'.session? sid = some t ∧ rc'.session? sid = some t' ∧ SameSession t t' ∧ s.state = .established ∧
      t = { s with app := t.app, backup := t.backup, l1l2 := none } ∧ SecOnly sid rc rc' := by
  unfold keyUpdate at h
  by_cases hop : op ≠ .updateAllKeys ∧ op ≠ .updateSingleKey
  · rw [if_pos hop] at h; cases h
  rw [if_neg hop] at h
  have hk : op.known = true ∧ op ≠ .verifyNewKey := by
    cases op with
    | updateAllKeys => exact ⟨rfl, by decide⟩
    | updateSingleKey => exact ⟨rfl, by decide⟩
    | verifyNewKey => exact absurd ⟨by decide, by decide⟩ hop
    | unknown b => exact absurd ⟨(by intro h; cases h), (by intro h; cases h)⟩ hop
  obtain ⟨u, c1, h1, h2⟩ := M.bind_ok.1 h
  obtain ⟨rc1, t1, t1', a1, a2, a3, a4, a5, a6, a7, a8, -, -⟩ := linked_keyUpdateOp hl hp hc ht hrun hset hs hs' hsame.keys hk.1 h1
  have hset1 : Settled rc1 c1 := hset.keep a5 ((kept_keyUpdateOp (e := e) sid op 1 c).ok h1)
  have hcl := a8 hk.2 hsame
  obtain ⟨rc2, t2, t2', b1, b2, b3, b4, b5, b6, b7, -, -, b8⟩ := linked_keyUpdateOp hl hp hc ht a1 hset1 a2 a3 hcl.keys rfl h2
  refine ⟨rc2, t2, t2', b1, b2, b3, b8 rfl hcl, a4, ?_, M.Pre.trans (R := SecOnly sid) a5 b5⟩
  rw [b7]
  rw [a7]

end Req
end Verif
