/-
C61: what KEY_UPDATE does at the requester.
-/
import Verif.Props.AgreeSession
import Verif.Requester.Goes
import Verif.Requester.Sizes

namespace Verif.Props
open Verif Req

variable {e : REnv}

/-- `s'` is `s` with the next secret of the request direction (`req`), of the response direction (`rsp`), and otherwise the same keys; new keys
start at sequence number zero. -/
def NextKeys (c : Crypto) (v : SpdmVersion) (req rsp : Bool) (s s' : Session) : Prop :=
  (if req then Updated c s v s.app.reqSecret s'.app.reqSecret s'.app.req
    else s'.app.reqSecret = s.app.reqSecret ∧ s'.app.req = s.app.req) ∧
  (if rsp then Updated c s v s.app.rspSecret s'.app.rspSecret s'.app.rsp
    else s'.app.rspSecret = s.app.rspSecret ∧ s'.app.rsp = s.app.rsp) ∧
  s' = { s with app := s'.app, backup := s'.backup }

/-- session `s` after one more message in the request direction, or in the response direction. -/
def usedReq (s : Session) : Session := { s with app := { s.app with req := { s.app.req with seq := s.app.req.seq + 1 } } }
def usedRsp (s : Session) : Session := { s with app := { s.app with rsp := { s.app.rsp with seq := s.app.rsp.seq + 1 } } }

theorem bump_req {s : Session} (h : s.state = .established) : s.bump true = usedReq s := by
  unfold Session.bump; rw [h]; rfl
theorem bump_rsp {s : Session} (h : s.state = .established) : s.bump false = usedRsp s := by
  unfold Session.bump; rw [h]; rfl

/-- **C61**: a KEY_UPDATE request (operation 1 UpdateKey, 2 UpdateAllKeys, 3 VerifyNewKey) that succeeds in an established session.  One packet
leaves: the request, sealed with the keys in force before.  The packet that comes back is a KEY_UPDATE_ACK that opens with the keys after the
update: the next request secret for 1 and 2, the next response secret for 2, nothing new for 3.  Those keys stay, the saved old ones of the
updated directions are erased, and nothing else of the session changes but its measurement transcript. -/
theorem C61_update (c c' : Ctx) (sid : UInt32) (s : Session) (op tag : UInt8) (hop : op = 1 ∨ op = 2 ∨ op = 3)
    (hs : c.session? sid = some s) (hst : s.state = .established) (h : keyUpdateOp e sid (KeyUpdateOp.ofCode op) tag c = .ok () c') :
    ∃ pkt p s2 s' t, RecordOut e s [c.neg.version.get, 0xE9, op, tag] pkt ∧ c'.sent = c.sent ++ [pkt] ∧ e.recv c'.sent = some p ∧
      NextKeys e.crypto c.neg.version (op = 1 ∨ op = 2) (op = 2) (usedReq s) { s2 with l1l2 := s.l1l2 } ∧ RecordIn e s2 p (c.neg.version.get :: 0x69 :: t) ∧
      c'.session? sid = some s' ∧ s'.app = (usedRsp s2).app ∧ (op = 1 ∨ op = 2 → s'.backup.reqSecret = [] ∧ s'.backup.req = {}) ∧
      (op = 2 → s'.backup.rspSecret = [] ∧ s'.backup.rsp = {}) ∧ s' = { s with app := s'.app, backup := s'.backup, l1l2 := none } ∧ c'.neg = c.neg := by
  obtain ⟨pkt, p, s2, bytes, t, h1, h2, h3, h4, h5, rfl, h6, h7, h8, h9⟩ := keyUpdateOp_ok hs h
  have hget : (KeyUpdateOp.ofCode op).get = op := KeyUpdateOp.get_ofCode op
  rw [hget] at h2
  have hreq : updatesReq (KeyUpdateOp.ofCode op) = decide (op = 1 ∨ op = 2) := by rcases hop with rfl | rfl | rfl <;> rfl
  have hrsp : updatesRsp (KeyUpdateOp.ofCode op) = decide (op = 2) := by rcases hop with rfl | rfl | rfl <;> rfl
  rw [hreq, hrsp] at h4 h9
  have hst0 : (hushed s).state = .established := hst
  rw [bump_req hst0] at h4
  obtain ⟨k1, k2, -, k4⟩ := C18_effect e.crypto c.neg.version _ _ _ _ h4
  have hst2 : s2.state = .established := by rw [k4]; exact hst
  rw [bump_rsp hst2] at h9
  obtain ⟨j1, j2, j3, j4⟩ := C18_commit (decide (op = 1 ∨ op = 2)) (decide (op = 2)) (usedRsp s2)
  refine ⟨pkt, p, s2, _, t, h2, h6, by rw [h6]; exact h3, ⟨k1, k2, ?_⟩, h5, h9, j1, fun h => j2 (by simpa using h), fun h => j3 (by simpa using h), ?_, h7⟩
  · rw [k4]; rfl
  · rw [j4]
    show _ = _
    have : usedRsp s2 = { s with app := (usedRsp s2).app, backup := (usedRsp s2).backup, l1l2 := none } := by
      show { s2 with app := _ } = _
      rw [k4]
      rfl
    rw [this]

/-- **C61**: a whole key update (UpdateKey or UpdateAllKeys) that succeeds.  Two packets leave: the operation with tag 1 sealed with the old keys, and
VerifyNewKey with tag 2 sealed with the new request key at sequence number zero.  Exactly one step of the key schedule was made for the request
direction, and for the response direction exactly if all keys were to be updated; the sequence numbers count the messages since. -/
theorem C61_whole (c c' : Ctx) (sid : UInt32) (s : Session) (op : UInt8) (hs : c.session? sid = some s) (hst : s.state = .established)
    (h : keyUpdate e sid (KeyUpdateOp.ofCode op) c = .ok () c') :
    ∃ p1 p2 s1 s', (op = 1 ∨ op = 2) ∧ c'.sent = c.sent ++ [p1, p2] ∧ RecordOut e s [c.neg.version.get, 0xE9, op, 1] p1 ∧
      RecordOut e s1 [c.neg.version.get, 0xE9, 3, 2] p2 ∧ c'.session? sid = some s' ∧ s'.state = .established ∧
      s1.app.req = { s'.app.req with seq := 0 } ∧ s'.app.req.seq = 1 ∧
      Updated e.crypto s c.neg.version s.app.reqSecret s'.app.reqSecret { s'.app.req with seq := 0 } ∧
      (if op = 2 then Updated e.crypto s c.neg.version s.app.rspSecret s'.app.rspSecret { s'.app.rsp with seq := 0 } ∧ s'.app.rsp.seq = 2
        else s'.app.rspSecret = s.app.rspSecret ∧ s'.app.rsp = { s.app.rsp with seq := s.app.rsp.seq + 1 + 1 }) := by
  unfold keyUpdate at h
  by_cases hop : op = 1 ∨ op = 2
  · rw [if_neg (by rcases hop with rfl | rfl <;> decide)] at h
    obtain ⟨_, c1, h1, h2⟩ := M.bind_ok.1 h
    obtain ⟨p1, q1, x1, y1, t1, a1, a2, a3, ⟨a4, a5, a6⟩, a7, a8, a9, a10, a11, a12, a13⟩ := C61_update c c1 sid s op 1 (by rcases hop with h | h <;> simp [h]) hs hst h1
    have hst1 : y1.state = .established := by rw [a12]; exact hst
    have h2 : keyUpdateOp e sid (KeyUpdateOp.ofCode 3) 2 c1 = .ok () c' := h2
    obtain ⟨p2, q2, x2, y2, t2, b1, b2, b3, ⟨b4, b5, b6⟩, b7, b8, b9, b10, b11, b12, b13⟩ := C61_update c1 c' sid y1 3 2 (by simp) a8 hst1 h2
    rw [a13] at b1
    rw [if_neg (by decide)] at b4 b5
    rw [if_pos (by simpa using hop)] at a4
    have r1 : y1.app.req = x1.app.req := by rw [a9]; rfl
    have r2 : y1.app.reqSecret = x1.app.reqSecret := by rw [a9]; rfl
    have r3 : y2.app.req = { y1.app.req with seq := y1.app.req.seq + 1 } := by rw [b9]; exact b4.2
    have r4 : y2.app.reqSecret = y1.app.reqSecret := by rw [b9]; exact b4.1
    have r5 : y1.app.rsp = { x1.app.rsp with seq := x1.app.rsp.seq + 1 } := by rw [a9]; rfl
    have r6 : y1.app.rspSecret = x1.app.rspSecret := by rw [a9]; rfl
    have r7 : y2.app.rsp = { y1.app.rsp with seq := y1.app.rsp.seq + 1 } := by
      have := b5.2
      rw [b9]
      have hx : x2.app.rsp = y1.app.rsp := this
      show SecretParam.mk x2.app.rsp.key x2.app.rsp.salt (x2.app.rsp.seq + 1) = _
      rw [hx]
    have r8 : y2.app.rspSecret = y1.app.rspSecret := by rw [b9]; exact b5.1
    have hseq : y1.app.req.seq = 0 := by rw [r1]; exact a4.2.2
    refine ⟨p1, p2, y1, y2, hop, by rw [b2, a2]; simp, a1, b1, b8, by rw [b12]; exact hst1, ?_, ?_, ?_, ?_⟩
    · rw [r3]; show y1.app.req = { y1.app.req with seq := 0 }
      rw [← hseq]
    · rw [r3]; show y1.app.req.seq + 1 = 1
      rw [hseq]; rfl
    · rw [r3, r4, r2]
      have : ({ ({ y1.app.req with seq := y1.app.req.seq + 1 } : SecretParam) with seq := 0 } : SecretParam) = x1.app.req := by
        show { y1.app.req with seq := 0 } = _
        rw [r1, show (0 : UInt64) = x1.app.req.seq from a4.2.2.symm]
      rw [this]
      exact a4
    · by_cases ho : op = 2
      · rw [if_pos (by simpa using ho)] at a5
        rw [if_pos ho, r7, r5, r8, r6]
        refine ⟨?_, ?_⟩
        · have : ({ ({ ({ x1.app.rsp with seq := x1.app.rsp.seq + 1 } : SecretParam) with seq := x1.app.rsp.seq + 1 + 1 } : SecretParam) with seq := 0 } : SecretParam) = x1.app.rsp := by
            show { x1.app.rsp with seq := 0 } = _
            rw [show (0 : UInt64) = x1.app.rsp.seq from a5.2.2.symm]
          rw [this]
          exact a5
        · show x1.app.rsp.seq + 1 + 1 = 2
          rw [show x1.app.rsp.seq = 0 from a5.2.2]
          rfl
      · rw [if_neg (by simpa using ho)] at a5
        rw [if_neg ho, r7, r5, r8, r6]
        refine ⟨a5.1, ?_⟩
        rw [show x1.app.rsp = s.app.rsp from a5.2]
  · exfalso
    have : KeyUpdateOp.ofCode op ≠ .updateAllKeys ∧ KeyUpdateOp.ofCode op ≠ .updateSingleKey := by
      constructor
      · intro hx
        exact hop (.inr (by rw [← KeyUpdateOp.get_ofCode op, hx]; rfl))
      · intro hx
        exact hop (.inl (by rw [← KeyUpdateOp.get_ofCode op, hx]; rfl))
    rw [if_pos this] at h
    cases h

/-- **C61**: any other operation is refused before anything is sent. -/
theorem C61_refused (c : Ctx) (sid : UInt32) (op : UInt8) (h1 : op ≠ 1) (h2 : op ≠ 2) : keyUpdate e sid (KeyUpdateOp.ofCode op) c = .err .invalidMsgField c := by
  have : KeyUpdateOp.ofCode op ≠ .updateAllKeys ∧ KeyUpdateOp.ofCode op ≠ .updateSingleKey := by
    constructor
    · intro hx
      exact h2 (by rw [← KeyUpdateOp.get_ofCode op, hx]; rfl)
    · intro hx
      exact h1 (by rw [← KeyUpdateOp.get_ofCode op, hx]; rfl)
  unfold keyUpdate
  rw [if_pos this]
  rfl

/-! ### Updates that fail -/

/-- the keys of `s'` are those of `s`, whatever the sequence numbers. -/
structure OldKeys (s s' : Session) : Prop where
  req : s'.app.reqSecret = s.app.reqSecret ∧ s'.app.req.key = s.app.req.key ∧ s'.app.req.salt = s.app.req.salt
  rsp : s'.app.rspSecret = s.app.rspSecret ∧ s'.app.rsp.key = s.app.rsp.key ∧ s'.app.rsp.salt = s.app.rsp.salt
  same : s'.state = s.state ∧ s'.id = s.id ∧ s'.hash = s.hash ∧ s'.aead = s.aead

theorem OldKeys.refl (s : Session) : OldKeys s s := ⟨⟨rfl, rfl, rfl⟩, ⟨rfl, rfl, rfl⟩, rfl, rfl, rfl, rfl⟩
theorem OldKeys.trans {a b c : Session} (h : OldKeys a b) (h' : OldKeys b c) : OldKeys a c :=
  ⟨⟨h'.req.1.trans h.req.1, h'.req.2.1.trans h.req.2.1, h'.req.2.2.trans h.req.2.2⟩, ⟨h'.rsp.1.trans h.rsp.1, h'.rsp.2.1.trans h.rsp.2.1, h'.rsp.2.2.trans h.rsp.2.2⟩,
    h'.same.1.trans h.same.1, h'.same.2.1.trans h.same.2.1, h'.same.2.2.1.trans h.same.2.2.1, h'.same.2.2.2.trans h.same.2.2.2⟩
theorem OldKeys.bump (s : Session) (b : Bool) : OldKeys s (s.bump b) := by
  cases s with
  | mk i ps m st => cases st <;> cases b <;> exact ⟨⟨rfl, rfl, rfl⟩, ⟨rfl, rfl, rfl⟩, rfl, rfl, rfl, rfl⟩

/-- session `sid` is there as before, with the same keys. -/
def KeysKept (sid : UInt32) (c c' : Ctx) : Prop := ∀ s, c.session? sid = some s → ∃ s', c'.session? sid = some s' ∧ OldKeys s s'

instance (sid : UInt32) : M.Pre (KeysKept sid) where
  refl _ s h := ⟨s, h, .refl s⟩
  trans h h' s hs := by
    obtain ⟨s1, h1, k1⟩ := h s hs
    obtain ⟨s2, h2, k2⟩ := h' s1 h1
    exact ⟨s2, h2, k1.trans k2⟩

theorem kept_sealing (x : Session → SecretParam → Res Bytes) (sid : UInt32) (b : Bool) :
    M.Rel (KeysKept sid) (Ctx.onSession sid (M.fail .invalidParameter) (Session.dispatchDir x b)) := by
  intro c
  unfold M.wp Ctx.onSession
  simp only [M.bind_apply, M.get_apply]
  cases hs : c.session? sid with
  | none => exact M.Pre.refl (R := KeysKept sid) c
  | some s =>
    dsimp only
    have hk : ∀ s', OldKeys s s' → KeysKept sid c (c.updSession sid fun _ => s') := by
      intro s' ho t ht
      rw [hs] at ht
      cases ht
      exact ⟨s', Rsp.session?_const hs (by rw [ho.same.2.1]; exact Rsp.session?_id hs), ho⟩
    by_cases hst : s.state = .notStarted
    · rw [Session.dispatchDir_notStarted x b s hst]
      exact hk s (.refl s)
    · rw [Session.dispatchDir_eq x b s hst]
      cases x s (s.dir b) with
      | ok a => exact hk _ (.bump s b)
      | err a => exact hk _ (.bump s b)
      | panic => trivial

theorem kept_sendSecured (sid : UInt32) (msg : Bytes) : M.Rel (KeysKept sid) (sendSecured e sid msg false) := by
  unfold sendSecured
  refine .bind .get fun c => ?_
  refine .ite (fun _ => .fail _) fun _ => ?_
  refine .bind ?_ fun pkt => ?_
  · unfold Ctx.encodeSecured
    exact .bind (.lift _) fun app => .bind (kept_sealing _ sid true) fun _ => .lift _
  · intro c
    unfold M.wp Ctx.devSend
    simp only [M.bind_apply, M.get_apply, M.set_apply]
    cases e.send c.sent.length pkt with
    | none => exact fun s hs => ⟨s, hs, .refl s⟩
    | some st => exact fun s hs => ⟨s, hs, .refl s⟩

theorem kept_reset (sid : UInt32) : M.Rel (KeysKept sid) (M.modify (ε := Status) (Ctx.resetBuffers .reqKeyUpdate (some sid))) := by
  intro c
  unfold M.wp
  rw [M.modify_apply]
  exact fun s hs => ⟨hushed s, hushed_session (k := .reqKeyUpdate) (by decide) hs, ⟨rfl, rfl, rfl⟩, ⟨rfl, rfl, rfl⟩, rfl, rfl, rfl, rfl⟩

/-- a packet that opens in the session is opened. -/
theorem decodeSecured_goes {sid : UInt32} {p b : Bytes} {c : Ctx} {s : Session} (hs : c.session? sid = some s) (hst : s.state ≠ .notStarted) (h : RecordIn e s p b) :
    Ctx.decodeSecured e.toEnv sid p 4096 c = .ok b (c.updSession sid fun _ => s.bump false) := by
  obtain ⟨rec, app, flag, h1, h2, h3⟩ := h
  unfold Ctx.decodeSecured
  rw [M.bind_apply, h1]
  dsimp only [Res.lift]
  rw [if_neg (by simp), M.bind_apply]
  have h4 : Ctx.onSession sid (M.fail .invalidParameter) (Session.decodeSecured e.crypto rec 4160 false) c = .ok app (c.updSession sid fun _ => s.bump false) := by
    unfold Ctx.onSession Session.decodeSecured
    simp only [M.bind_apply, M.get_apply, hs]
    rw [Session.dispatchDir_eq _ _ _ hst, h2]
    rfl
  have h5 : Ctx.onSession sid (M.fail .invalidParameter) (Session.decodeSecured e.toEnv.crypto (rec, true).fst 4160 false) c = .ok app (c.updSession sid fun _ => s.bump false) := h4
  rw [h5]
  dsimp only
  rw [M.bind_apply, h3]
  rfl

theorem mute_handleKeyUpdate (sid : UInt32) (x y : Bool) (bytes : Bytes) : M.Rel Rsp.Silent (handleKeyUpdate sid x y bytes) := by
  unfold handleKeyUpdate
  refine .bind (mute_expect _ _) fun r => ?_
  have hack : ∀ b, M.Rel Rsp.Silent (keyUpdateAck sid x y b) := by
    intro b c
    unfold M.wp keyUpdateAck Ctx.onSession
    simp only [M.bind_apply, M.get_apply]
    cases c.session? sid with
    | none => exact ⟨rfl, rfl⟩
    | some s => cases b <;> exact ⟨rfl, rfl⟩
  split
  · exact .panic
  · exact hack _
  · exact hack _

/-- what an acknowledgement that cannot be decoded does. -/
theorem handleKeyUpdate_malformed {c c' : Ctx} {sid : UInt32} {x y : Bool} {t : Bytes} {v : UInt8} {s : Session} {st : Status} (hs : c.session? sid = some s)
    (hv : SpdmVersion.ofCode v = c.neg.version) (h : handleKeyUpdate sid x y (v :: 0x69 :: t) c = .err st c') :
    st = .invalidMsgField ∧ c' = c.updSession sid fun _ => Session.activateUpdate x y false s := by
  have he : expect (some sid) .rspKeyUpdateAck (v :: 0x69 :: t) c = .ok ⟨t, 2⟩ c := expect_goes (k := .rspKeyUpdateAck) hv (by decide)
  unfold handleKeyUpdate at h
  rw [M.bind_apply, he] at h
  dsimp only at h
  have hack : ∀ b, keyUpdateAck sid x y b c = if b then .ok () (c.updSession sid fun _ => Session.activateUpdate x y b s) else .err .invalidMsgField (c.updSession sid fun _ => Session.activateUpdate x y b s) := by
    intro b
    unfold keyUpdateAck Ctx.onSession
    simp only [M.bind_apply, M.get_apply, hs, M.modify_apply, M.set_apply]
    cases b <;> rfl
  cases hr : KeyUpd.read ⟨t, 2⟩ with
  | panic => rw [hr] at h; cases h
  | ok a r => rw [hr] at h; dsimp only at h; rw [hack true] at h; cases h
  | err a r => rw [hr] at h; dsimp only at h; rw [hack false] at h; cases h; exact ⟨rfl, rfl⟩

/-- an update that is taken back. -/
theorem old_back {cr : Crypto} {v : SpdmVersion} {x y : Bool} {s s2 : Session} (h : Session.createUpdate cr v x y s = .ok () s2) :
    OldKeys s (Session.activateUpdate x y false (usedRsp s2)) := by
  obtain ⟨s1, m1, m2⟩ := Session.createUpdate_ok.1 h
  cases x with
  | true =>
    rw [if_pos rfl] at m1
    obtain ⟨_, _, _, _, rfl⟩ := Session.createReq_ok.1 m1
    cases y with
    | true =>
      rw [if_pos rfl] at m2
      obtain ⟨_, _, _, _, rfl⟩ := Session.createRsp_ok.1 m2
      exact ⟨⟨rfl, rfl, rfl⟩, ⟨rfl, rfl, rfl⟩, rfl, rfl, rfl, rfl⟩
    | false =>
      rw [if_neg (by decide)] at m2
      subst m2
      exact ⟨⟨rfl, rfl, rfl⟩, ⟨rfl, rfl, rfl⟩, rfl, rfl, rfl, rfl⟩
  | false =>
    rw [if_neg (by decide)] at m1
    subst m1
    cases y with
    | true =>
      rw [if_pos rfl] at m2
      obtain ⟨_, _, _, _, rfl⟩ := Session.createRsp_ok.1 m2
      exact ⟨⟨rfl, rfl, rfl⟩, ⟨rfl, rfl, rfl⟩, rfl, rfl, rfl, rfl⟩
    | false =>
      rw [if_neg (by decide)] at m2
      subst m2
      exact ⟨⟨rfl, rfl, rfl⟩, ⟨rfl, rfl, rfl⟩, rfl, rfl, rfl, rfl⟩

/-- **C61**: after a KEY_UPDATE request that failed the old keys are in force, unless the request left and no acknowledgement came back: the
response, if there was one, is no KEY_UPDATE_ACK of the negotiated version that opens with the updated keys.  In particular an
acknowledgement that cannot be decoded brings the old keys back. -/
theorem C61_failed_partial (hx : ExpandLaw e.crypto) (c c' : Ctx) (sid : UInt32) (s : Session) (op tag : UInt8) (st : Status) (hop : op = 1 ∨ op = 2 ∨ op = 3)
    (hs : c.session? sid = some s) (hst : s.state = .established) (hsec : HasDataSecrets s) (hv : SpdmVersion.ofCode c.neg.version.get = c.neg.version)
    (h : keyUpdateOp e sid (KeyUpdateOp.ofCode op) tag c = .err st c') :
    (∃ s', c'.session? sid = some s' ∧ OldKeys s s') ∨
      ∃ pkt s2, RecordOut e s [c.neg.version.get, 0xE9, op, tag] pkt ∧ c'.sent = c.sent ++ [pkt] ∧
        NextKeys e.crypto c.neg.version (op = 1 ∨ op = 2) (op = 2) (usedReq s) { s2 with l1l2 := s.l1l2 } ∧
        ∀ p t, e.recv c'.sent = some p → ¬ RecordIn e s2 p (c.neg.version.get :: 0x69 :: t) := by
  have hget : (KeyUpdateOp.ofCode op).get = op := KeyUpdateOp.get_ofCode op
  have hreq : updatesReq (KeyUpdateOp.ofCode op) = decide (op = 1 ∨ op = 2) := by rcases hop with rfl | rfl | rfl <;> rfl
  have hrsp : updatesRsp (KeyUpdateOp.ofCode op) = decide (op = 2) := by rcases hop with rfl | rfl | rfl <;> rfl
  have hsid := Rsp.session?_id hs
  unfold keyUpdateOp at h
  rw [M.bind_apply, M.modify_apply] at h
  dsimp only at h
  have hs0 := hushed_session (k := .reqKeyUpdate) (by decide) hs
  have hsent0 := resetBuffers_sent .reqKeyUpdate c (some sid)
  have hneg0 := resetBuffers_neg' .reqKeyUpdate c (some sid)
  generalize Ctx.resetBuffers .reqKeyUpdate (some sid) c = c0 at h hs0 hsent0 hneg0
  rw [M.bind_apply, encodeReq_goes (p := .keyUpdate ⟨KeyUpdateOp.ofCode op, tag⟩) (KeyUpd.encode_writes _) (by simp [KeyUpd.wire])] at h
  have hmsg : c0.neg.version.get :: ReqRespCode.reqKeyUpdate.get :: KeyUpd.wire ⟨KeyUpdateOp.ofCode op, tag⟩ = [c.neg.version.get, 0xE9, op, tag] := by
    rw [hneg0]
    simp [KeyUpd.wire, hget]
    rfl
  rw [hmsg] at h
  dsimp only at h
  rw [M.bind_apply] at h
  cases h1 : sendSecured e sid [c.neg.version.get, 0xE9, op, tag] false c0 with
  | panic => rw [h1] at h; cases h
  | err st1 c1 =>
    rw [h1] at h
    cases h
    left
    obtain ⟨s', k1, k2⟩ := (kept_sendSecured sid _ c0).err h1 _ hs0
    exact ⟨s', k1, OldKeys.trans (b := hushed s) ⟨⟨rfl, rfl, rfl⟩, ⟨rfl, rfl, rfl⟩, rfl, rfl, rfl, rfl⟩ k2⟩
  | ok u c1 =>
    rw [h1] at h
    dsimp only at h
    obtain ⟨pkt, sx, k1, k2, k3, rfl⟩ := sendSecured_ok h1
    rw [hs0] at k1
    cases k1
    rw [bump_req (show (hushed s).state = .established from hst)] at h
    have hs1 : (Rsp.withSent pkt (c0.updSession sid fun _ => usedReq (hushed s))).session? sid = some (usedReq (hushed s)) := Rsp.session?_const hs0 hsid
    have hsent1 : (Rsp.withSent pkt (c0.updSession sid fun _ => usedReq (hushed s))).sent = c.sent ++ [pkt] := by rw [← hsent0]; rfl
    have hneg1 : (Rsp.withSent pkt (c0.updSession sid fun _ => usedReq (hushed s))).neg = c.neg := by rw [← hneg0]; rfl
    generalize Rsp.withSent pkt (c0.updSession sid fun _ => usedReq (hushed s)) = c1 at h hs1 hsent1 hneg1
    rw [M.bind_apply, M.get_apply] at h
    dsimp only at h
    rw [hneg1, hreq, hrsp, M.bind_apply] at h
    have hup : Session.createUpdate e.crypto c.neg.version (decide (op = 1 ∨ op = 2)) (decide (op = 2)) (usedReq (hushed s)) = .panic ∨
        ∃ s2, Session.createUpdate e.crypto c.neg.version (decide (op = 1 ∨ op = 2)) (decide (op = 2)) (usedReq (hushed s)) = .ok () s2 := by
      generalize hw : usedReq (hushed s) = w
      have hwq : w.app.reqSecret = s.app.reqSecret := by rw [← hw]; rfl
      have hwr : w.app.rspSecret = s.app.rspSecret := by rw [← hw]; rfl
      have hwh : w.hash = s.hash := by rw [← hw]; rfl
      by_cases h12 : op = 1 ∨ op = 2
      · rw [show decide (op = 1 ∨ op = 2) = true from decide_eq_true h12]
        rcases createReq_total hx c.neg.version w (by rw [hwq, hwh]; exact hsec.req) with g | ⟨s1, g⟩
        · left; unfold Session.createUpdate; simp [g]
        · by_cases h2 : op = 2
          · rw [show decide (op = 2) = true from decide_eq_true h2]
            have hr : s1.app.rspSecret = s.app.rspSecret := by
              obtain ⟨_, _, _, _, rfl⟩ := Session.createReq_ok.1 g
              exact hwr
            have hh : s1.hash = s.hash := by
              obtain ⟨_, _, _, _, rfl⟩ := Session.createReq_ok.1 g
              exact hwh
            rcases createRsp_total hx c.neg.version s1 (by rw [hr, hh]; exact hsec.rsp) with g' | ⟨s3, g'⟩
            · left; unfold Session.createUpdate; simp [g, g']
            · right; exact ⟨s3, Session.createUpdate_ok.2 ⟨s1, by simpa using g, by simpa using g'⟩⟩
          · rw [show decide (op = 2) = false from decide_eq_false h2]
            right; exact ⟨s1, Session.createUpdate_ok.2 ⟨s1, by simpa using g, by simp⟩⟩
      · rw [show decide (op = 1 ∨ op = 2) = false from decide_eq_false h12, show decide (op = 2) = false from decide_eq_false fun h => h12 (.inr h)]
        right; exact ⟨w, Session.createUpdate_ok.2 ⟨w, by simp, by simp⟩⟩
    rcases hup with hup | ⟨s2, hup⟩
    · have : Ctx.onSession sid (M.fail .invalidParameter) (Session.createUpdate e.crypto c.neg.version (decide (op = 1 ∨ op = 2)) (decide (op = 2))) c1 = .panic := by
        unfold Ctx.onSession
        simp only [M.bind_apply, M.get_apply, hs1, hup]
        rfl
      rw [this] at h
      cases h
    · have : Ctx.onSession sid (M.fail .invalidParameter) (Session.createUpdate e.crypto c.neg.version (decide (op = 1 ∨ op = 2)) (decide (op = 2))) c1 =
          .ok () (c1.updSession sid fun _ => s2) := by
        unfold Ctx.onSession
        simp only [M.bind_apply, M.get_apply, hs1, hup]
        rfl
      rw [this] at h
      dsimp only at h
      obtain ⟨n1, n2, -, n4⟩ := C18_effect e.crypto c.neg.version _ _ _ _ hup
      have hid2 : s2.id = sid := by rw [n4]; exact hsid
      have hst2 : s2.state = .established := by rw [n4]; exact hst
      have hs2 := Rsp.session?_const (s' := s2) hs1 hid2
      have hsent2 : (c1.updSession sid fun _ => s2).sent = c.sent ++ [pkt] := hsent1
      have hneg2 : (c1.updSession sid fun _ => s2).neg = c.neg := hneg1
      generalize c1.updSession sid (fun _ => s2) = c2 at h hs2 hsent2 hneg2
      have hsent' : c'.sent = c.sent ++ [pkt] := by
        have hm : M.Rel Rsp.Silent (do let rsp ← receiveSecured e sid; handleKeyUpdate sid (decide (op = 1 ∨ op = 2)) (decide (op = 2)) rsp) :=
          .bind (mute_receiveSecured sid) fun _ => mute_handleKeyUpdate _ _ _ _
        have := (hm c2).err h
        rw [this.2, hsent2]
      by_cases hack : ∃ p t, e.recv (c.sent ++ [pkt]) = some p ∧ RecordIn e s2 p (c.neg.version.get :: 0x69 :: t)
      · left
        obtain ⟨p, t, a1, a2⟩ := hack
        rw [M.bind_apply] at h
        have hrec : receiveSecured e sid c2 = .panic ∨ receiveSecured e sid c2 = .ok (c.neg.version.get :: 0x69 :: t) (c2.updSession sid fun _ => s2.bump false) := by
          by_cases hl : p.length ≤ 4160
          · right
            unfold receiveSecured
            rw [M.bind_apply, receive_goes (p := p) (by rw [hsent2]; exact a1) hl]
            exact decodeSecured_goes hs2 (by rw [hst2]; decide) a2
          · left
            unfold receiveSecured receive
            rw [M.bind_apply, M.bind_apply, M.get_apply]
            dsimp only
            rw [M.bind_apply, hsent2, a1]
            dsimp only [M.ofOption]
            rw [if_neg hl]
            rfl
        rcases hrec with hrec | hrec
        · rw [hrec] at h; cases h
        · rw [hrec] at h
          dsimp only at h
          have hs3 := Rsp.session?_const (s' := s2.bump false) hs2 (by rw [Session.bump_id]; exact hid2)
          obtain ⟨-, rfl⟩ := handleKeyUpdate_malformed hs3 (by exact hv.trans (congrArg Neg.version hneg2.symm)) h
          obtain ⟨A, B, hab⟩ := Req.activate_frame (decide (op = 1 ∨ op = 2)) (decide (op = 2)) false (s2.bump false)
          refine ⟨_, Rsp.session?_const hs3 (by rw [hab]; show (s2.bump false).id = sid; rw [Session.bump_id]; exact hid2), ?_⟩
          rw [bump_rsp hst2]
          exact OldKeys.trans (b := hushed s) ⟨⟨rfl, rfl, rfl⟩, ⟨rfl, rfl, rfl⟩, rfl, rfl, rfl, rfl⟩ (OldKeys.trans (b := usedReq (hushed s)) ⟨⟨rfl, rfl, rfl⟩, ⟨rfl, rfl, rfl⟩, rfl, rfl, rfl, rfl⟩ (old_back hup))
      · right
        refine ⟨pkt, s2, ?_, hsent', ⟨n1, n2, by rw [n4]; rfl⟩, fun p t hp hr => hack ⟨p, t, by rw [← hsent']; exact hp, hr⟩⟩
        exact k3

/-! ### Concrete cases -/

/-- the toy requester in an established session. -/
def toyEst : List Op := [.connect, .certificate 20 none 0, .keyExchange 0 .none, .finish none 0xFFFDFFFD]

theorem toyEst_reached : Req.Reachable 2 (toyReq toyEst) := ⟨Toy.reqCfg, {}, _, toyReq_runs _ (by decide +kernel)⟩

/-- `msg` sealed by the responder of that session with the keys in force. -/
def sealedBack (msg : Bytes) : Bytes :=
  match (toyReq toyEst).session? 0xFFFDFFFD with
  | some s => (match Session.encodeMsg Toy.env.crypto s (8 :: msg) 4160 (s.dir false) with | .ok r => 6 :: r | _ => [])
  | none => []

/-- a peer that says `msg` in the session, whatever it is asked. -/
def saying (msg : Bytes) : REnv := { Toy.renv with recv := fun _ => some (sealedBack msg) }

/-- how KEY_UPDATE with that operation ends when the peer says `msg`: the status, whether the request secret is the old one and whether the saved copy is gone. -/
def updating (op : KeyUpdateOp) (msg : Bytes) : Option (Option Status × Bool × Bool) :=
  let look (st : Option Status) (c : Ctx) : Option (Option Status × Bool × Bool) :=
    match (toyReq toyEst).session? 0xFFFDFFFD, c.session? 0xFFFDFFFD with
    | some s, some s' => some (st, decide (s'.app.reqSecret = s.app.reqSecret), decide (s'.backup.reqSecret = []))
    | _, _ => none
  match keyUpdateOp (saying msg) 0xFFFDFFFD op 1 (toyReq toyEst) with
  | .ok () c => look none c
  | .err st c => look (some st) c
  | .panic => none

/-- the hypotheses of `C61_update`, `C61_whole` and `C61_failed_partial` are met: an acknowledged update, a whole update of either kind, and an
acknowledgement that stops after its header. -/
theorem C61_case : ExpandLaw Toy.renv.crypto ∧
    (((toyReq toyEst).session? 0xFFFDFFFD).map fun s => (decide (s.state = .established), BaseHash.size? s.hash, s.app.reqSecret.length, s.app.rspSecret.length)) = some (true, some 32, 32, 32) ∧
    updating .updateSingleKey [0x12, 0x69, 1, 1] = some (none, false, true) ∧ updating .updateSingleKey [0x12, 0x69] = some (some .invalidMsgField, true, false) ∧
    ((Toy.runOps Toy.renv (toyReq toyEst) [.keyUpdate 0xFFFDFFFD .updateSingleKey, .keyUpdate 0xFFFDFFFD .updateAllKeys]).map (·.1)) = some [none, none] :=
  ⟨toy_expandLaw, by decide +kernel, by decide +kernel, by decide +kernel, by decide +kernel⟩

/-- **C61** fails: when the peer refuses the update with an ERROR, answers with another message, or does not answer at all, the operation fails but the
requester goes on with the new key. -/
theorem C61_no_rollback_violated : Req.Reachable 2 (toyReq toyEst) ∧ updating .updateSingleKey [0x12, 0x7F, 0x03, 0] = some (some .busyPeer, false, false) ∧
    updating .updateSingleKey [0x12, 0x7F, 0x07, 0] = some (some .errorPeer, false, false) ∧ updating .updateSingleKey [0x12, 0x68, 0, 0] = some (some .errorPeer, false, false) ∧
    updating .updateSingleKey [0x11, 0x69, 1, 1] = some (some .invalidMsgField, false, false) :=
  ⟨toyEst_reached, by decide +kernel, by decide +kernel, by decide +kernel, by decide +kernel⟩

/-- **C61** fails: the acknowledgement of another operation and another tag is taken for that of the request. -/
theorem C61_other_ack_violated : Req.Reachable 2 (toyReq toyEst) ∧ updating .updateSingleKey [0x12, 0x69, 3, 0x77] = some (none, false, true) :=
  ⟨toyEst_reached, by decide +kernel⟩

end Verif.Props
