/-
C53: what KEY_UPDATE does at the responder.
-/
import Verif.Responder.InSession
import Verif.Props.Keys
import Verif.Props.Codes
import Verif.Spec.ToySession

namespace Verif.Props
open Verif Rsp

variable {e : Env}

/-- What KEY_UPDATE with operation `op` (1 UpdateKey, 2 UpdateAllKeys, 3 VerifyNewKey) makes of the keys of session `s`: the next secret of the
request direction, of both directions, or no change; new keys start at sequence number zero.  After 2 and 3 the old request secret is gone. -/
def KeysUpdated (c : Crypto) (v : SpdmVersion) (op : UInt8) (s s' : Session) : Prop :=
  (if op = 1 ∨ op = 2 then Updated c s v s.app.reqSecret s'.app.reqSecret s'.app.req
    else s'.app.reqSecret = s.app.reqSecret ∧ s'.app.req = s.app.req) ∧
  (if op = 2 then Updated c s v s.app.rspSecret s'.app.rspSecret s'.app.rsp
    else s'.app.rspSecret = s.app.rspSecret ∧ s'.app.rsp = s.app.rsp) ∧
  (op = 2 ∨ op = 3 → s'.backup.reqSecret = [] ∧ s'.backup.req = {}) ∧
  s' = { s with app := s'.app, backup := s'.backup }

/-- HKDF-Expand of a supported hash never refuses a key of the size of the hash and gives as many bytes as asked for, up to 64. -/
def ExpandLaw (c : Crypto) : Prop :=
  ∀ h key info n, BaseHash.size? h = some key.length → n ≤ 64 → ∃ out, c.expand h key info n = some out ∧ out.length = n

theorem hash_pos {h : BaseHash} {n : Nat} (hn : BaseHash.size? h = some n) : n ≠ 0 ∧ n ≤ 64 := by
  unfold BaseHash.size? at hn
  split at hn
  · cases hn; decide
  · split at hn
    · cases hn; decide
    · split at hn
      · cases hn; decide
      · cases hn

theorem expandSecret_some {c : Crypto} (hx : ExpandLaw c) {h : BaseHash} {n : Nat} {key info : Bytes} {max : Nat} (hk : BaseHash.size? h = some key.length)
    (hn : n ≠ 0) (hm : n ≤ max) (hm64 : n ≤ 64) : ∃ out, KeySched.expandSecret c h key info n max = .ok out ∧ out.length = n := by
  obtain ⟨out, g1, g2⟩ := hx h key info n hk hm64
  exact ⟨out, KeySched.expandSecret_ok.2 ⟨hash_pos hk, g1, by omega, by omega⟩, g2⟩

/-- with such an HKDF a key update never fails: it succeeds, or it panics on an unsupported algorithm. -/
theorem next_keys {c : Crypto} (hx : ExpandLaw c) (v : SpdmVersion) (h : BaseHash) (a : Aead) (secret : Bytes) (hk : BaseHash.size? h = some secret.length) :
    KeySched.updateSecret c v h secret = .panic ∨ ∃ out, KeySched.updateSecret c v h secret = .ok out ∧
      (KeySched.aeadKeyIv c v h a out = .panic ∨ ∃ k, KeySched.aeadKeyIv c v h a out = .ok k) := by
  cases hn : BaseHash.size? h with
  | none => left; unfold KeySched.updateSecret KeySched.hashLen; rw [hn]; rfl
  | some n =>
    right
    obtain ⟨p0, p1⟩ := hash_pos hn
    obtain ⟨out, g1, g2⟩ := expandSecret_some hx (info := KeySched.infoBytes (UInt16.ofNat n) v KeySched.lTraffic none) (max := 64) hk p0 p1 p1
    refine ⟨out, ?_, ?_⟩
    · unfold KeySched.updateSecret KeySched.hashLen
      simp only [Res.bind_ok, Res.unwrap_ok]
      exact ⟨n, hn, _, KeySched.binconcat_ok.2 ⟨by decide, rfl⟩, g1⟩
    · cases ha : Aead.keySize? a with
      | none => left; unfold KeySched.aeadKeyIv; rw [ha]; rfl
      | some ks =>
        right
        have hi : ∃ is, Aead.ivSize? a = some is := by
          unfold Aead.keySize? at ha
          unfold Aead.ivSize?
          split at ha
          · rename_i hc; rw [if_pos hc]; exact ⟨_, rfl⟩
          · rename_i hc
            rw [if_neg hc]
            split at ha
            · rename_i hc; rw [if_pos hc]; exact ⟨_, rfl⟩
            · rename_i hc
              rw [if_neg hc]
              split at ha
              · rename_i hc; rw [if_pos hc]; exact ⟨_, rfl⟩
              · cases ha
        obtain ⟨is, hi⟩ := hi
        obtain ⟨k, q1, _⟩ := expandSecret_some hx (h := h) (key := out) (n := 32) (info := KeySched.infoBytes (UInt16.ofNat ks) v KeySched.lKey none) (max := 32)
          (by rw [hn, g2]) (by decide) (by decide) (by decide)
        obtain ⟨iv, q2, _⟩ := expandSecret_some hx (h := h) (key := out) (n := 12) (info := KeySched.infoBytes (UInt16.ofNat is) v KeySched.lIv none) (max := 12)
          (by rw [hn, g2]) (by decide) (by decide) (by decide)
        refine ⟨(k, iv), ?_⟩
        unfold KeySched.aeadKeyIv
        simp only [Res.bind_ok, Res.unwrap_ok]
        exact ⟨ks, ha, _, KeySched.binconcat_ok.2 ⟨by decide, rfl⟩, k, q1, is, hi, _, KeySched.binconcat_ok.2 ⟨by decide, rfl⟩, iv, q2, rfl⟩

theorem createReq_total {c : Crypto} (hx : ExpandLaw c) (v : SpdmVersion) (s : Session) (hk : BaseHash.size? s.hash = some s.app.reqSecret.length) :
    Session.createReq c v s = .panic ∨ ∃ s', Session.createReq c v s = .ok () s' := by
  rcases next_keys hx v s.hash s.aead _ hk with h | ⟨out, h, h' | ⟨k, h'⟩⟩
  · left; simp [Session.createReq, h, Res.lift]
  · left; simp [Session.createReq, h, h', Res.lift]
  · right; exact ⟨_, Session.createReq_ok.2 ⟨out, k, h, h', rfl⟩⟩

theorem createRsp_total {c : Crypto} (hx : ExpandLaw c) (v : SpdmVersion) (s : Session) (hk : BaseHash.size? s.hash = some s.app.rspSecret.length) :
    Session.createRsp c v s = .panic ∨ ∃ s', Session.createRsp c v s = .ok () s' := by
  rcases next_keys hx v s.hash s.aead _ hk with h | ⟨out, h, h' | ⟨k, h'⟩⟩
  · left; simp [Session.createRsp, h, Res.lift]
  · left; simp [Session.createRsp, h, h', Res.lift]
  · right; exact ⟨_, Session.createRsp_ok.2 ⟨out, k, h, h', rfl⟩⟩

/-- the session has data secrets of the size of its hash (every established session does). -/
structure HasDataSecrets (s : Session) : Prop where
  req : BaseHash.size? s.hash = some s.app.reqSecret.length
  rsp : BaseHash.size? s.hash = some s.app.rspSecret.length

theorem ops_effect (hx : ExpandLaw e.crypto) {v : SpdmVersion} {op : UInt8} {s s' : Session} {known : Bool} (hs : HasDataSecrets s)
    (hop : op = 1 ∨ op = 2 ∨ op = 3) (h : keyUpdateOps e v (KeyUpdateOp.ofCode op) s = .ok known s') :
    known = true ∧ KeysUpdated e.crypto v op s s' := by
  rcases hop with rfl | rfl | rfl
  · change (do let _ ← M.try' (Session.createUpdate e.crypto v true false); pure true : M Status Session Bool) s = _ at h
    obtain ⟨_, s1, h1, h2⟩ := M.bind_ok.1 h
    cases h2
    refine ⟨rfl, ?_⟩
    have hok : Session.createUpdate e.crypto v true false s = .ok () s' := by
      rcases createReq_total hx v s hs.req with g | ⟨s2, g⟩
      · unfold M.try' Session.createUpdate at h1
        simp [g] at h1
      · have : Session.createUpdate e.crypto v true false s = .ok () s2 := Session.createUpdate_ok.2 ⟨s2, by simpa using g, by simp⟩
        unfold M.try' at h1
        rw [this] at h1
        cases h1
        exact this
    obtain ⟨k1, k2, k3, k4⟩ := C18_effect e.crypto v true false s s' hok
    exact ⟨by simpa using k1, by simpa using k2, by simp, k4⟩
  · change (do
      let _ ← M.try' (Session.createUpdate e.crypto v true true)
      M.modify (Session.activateUpdate true true true)
      pure true : M Status Session Bool) s = _ at h
    obtain ⟨_, s1, h1, h2⟩ := M.bind_ok.1 h
    obtain ⟨_, s2, h3, h4⟩ := M.bind_ok.1 h2
    rw [M.modify_apply] at h3
    cases h3
    cases h4
    refine ⟨rfl, ?_⟩
    have hok : Session.createUpdate e.crypto v true true s = .ok () s1 := by
      rcases createReq_total hx v s hs.req with g | ⟨s2, g⟩
      · unfold M.try' Session.createUpdate at h1
        simp [g] at h1
      · have hr : s2.app.rspSecret = s.app.rspSecret := by
          obtain ⟨_, _, _, _, rfl⟩ := Session.createReq_ok.1 g
          rfl
        have hh : s2.hash = s.hash := by
          obtain ⟨_, _, _, _, rfl⟩ := Session.createReq_ok.1 g
          rfl
        rcases createRsp_total hx v s2 (by rw [hr, hh]; exact hs.rsp) with g' | ⟨s3, g'⟩
        · unfold M.try' Session.createUpdate at h1
          simp [g, g'] at h1
        · have : Session.createUpdate e.crypto v true true s = .ok () s3 := Session.createUpdate_ok.2 ⟨s2, by simpa using g, by simpa using g'⟩
          unfold M.try' at h1
          rw [this] at h1
          cases h1
          exact this
    obtain ⟨k1, k2, k3, k4⟩ := C18_effect e.crypto v true true s s1 hok
    obtain ⟨j1, j2, j3, j4⟩ := C18_commit true true s1
    refine ⟨?_, ?_, fun _ => j2 rfl, ?_⟩
    · rw [if_pos (by decide), j1]; simpa using k1
    · rw [if_pos (by decide), j1]; simpa using k2
    · rw [j4]
      dsimp only
      rw [k4]
  · change (do
      M.modify (Session.activateUpdate true false true)
      pure true : M Status Session Bool) s = _ at h
    obtain ⟨_, s1, h1, h2⟩ := M.bind_ok.1 h
    rw [M.modify_apply] at h1
    cases h1
    cases h2
    obtain ⟨j1, j2, j3, j4⟩ := C18_commit true false s
    refine ⟨rfl, ?_, ?_, fun _ => j2 rfl, ?_⟩
    · rw [if_neg (by decide), j1]; exact ⟨rfl, rfl⟩
    · rw [if_neg (by decide), j1]; exact ⟨rfl, rfl⟩
    · rw [j4]

/-- session `s` after a request was opened with it and the measurement transcript was dropped. -/
def opened (s : Session) : Session := { s.bump true with l1l2 := none }

theorem ops_noErr (v : SpdmVersion) (op : KeyUpdateOp) (s s' : Session) (st : Status) : keyUpdateOps e v op s ≠ .err st s' := by
  intro h
  have try_err : ∀ (x : M Status Session Unit) (s s' : Session) (st : Status), M.try' x s ≠ .err st s' := by
    intro x s s' st h
    unfold M.try' at h
    split at h <;> cases h
  unfold keyUpdateOps at h
  cases op with
  | unknown b => cases h
  | verifyNewKey => cases h
  | updateSingleKey =>
    dsimp only at h
    rw [M.bind_apply] at h
    cases hx : M.try' (Session.createUpdate e.crypto v true false) s with
    | ok a s1 => rw [hx] at h; cases h
    | err a s1 => exact try_err _ _ _ _ hx
    | panic => rw [hx] at h; cases h
  | updateAllKeys =>
    dsimp only at h
    rw [M.bind_apply] at h
    cases hx : M.try' (Session.createUpdate e.crypto v true true) s with
    | ok a s1 => rw [hx] at h; cases h
    | err a s1 => exact try_err _ _ _ _ hx
    | panic => rw [hx] at h; cases h

theorem keyUpd_read (op tag : UInt8) (t : Bytes) (u : Nat) : KeyUpd.read ⟨op :: tag :: t, u⟩ =
    if (KeyUpdateOp.ofCode op).known = false then .err () ⟨t, u + 2⟩ else .ok ⟨KeyUpdateOp.ofCode op, tag⟩ ⟨t, u + 2⟩ := by
  unfold KeyUpd.read
  rw [M.bind_apply]
  have h1 : KeyUpdateOp.read ⟨op :: tag :: t, u⟩ = .ok (KeyUpdateOp.ofCode op) ⟨tag :: t, u + 1⟩ := C04_KeyUpdateOp_read op _ _
  rw [h1]
  dsimp only
  rw [M.bind_apply, rdU8_cons]
  dsimp only
  by_cases hk : (KeyUpdateOp.ofCode op).known = false
  · rw [if_pos hk, if_pos hk]; rfl
  · rw [if_neg hk, if_neg hk]; rfl

theorem keyUpdateRsp_ok {c c' : Ctx} {sid : UInt32} {s : Session} {v op tag : UInt8} {t b : Bytes} (hs : c.session? sid = some s)
    (hv : SpdmVersion.ofCode v = c.neg.version) (hk : (KeyUpdateOp.ofCode op).known = true)
    (h : reply (keyUpdateRsp e sid (v :: 0xE9 :: op :: tag :: t)) c = .ok b c') :
    ∃ known s', keyUpdateOps e c.neg.version (KeyUpdateOp.ofCode op) { s with l1l2 := none } = .ok known s' ∧
      (known = true → b = [v, 0x69, op, tag] ∧ c' = (Ctx.resetBuffers .reqKeyUpdate (some sid) c).updSession sid fun _ => s') := by
  have hcv : checkVersion (v :: 0xE9 :: op :: tag :: t) c = .ok ⟨op :: tag :: t, 2⟩ c := by
    unfold checkVersion
    simp [header_read, hv, Rsp.header]
  have hs' : (Ctx.resetBuffers .reqKeyUpdate (some sid) c).session? sid = some { s with l1l2 := none } := by
    rw [resetBuffers_session _ _ _ (by decide), hs]; rfl
  have hneg : (Ctx.resetBuffers .reqKeyUpdate (some sid) c).neg = c.neg := congrArg Cc.neg (resetBuffers_cc .reqKeyUpdate c (some sid))
  have hread : readReq (fun _ => KeyUpd.read) (v :: 0xE9 :: op :: tag :: t) ⟨op :: tag :: t, 2⟩ (Ctx.resetBuffers .reqKeyUpdate (some sid) c) =
      .ok (⟨KeyUpdateOp.ofCode op, tag⟩, (v :: 0xE9 :: op :: tag :: t).take 4) (Ctx.resetBuffers .reqKeyUpdate (some sid) c) := by
    refine readReq_of (x := fun _ => KeyUpd.read) (r' := ⟨t, 4⟩) ?_
    exact (keyUpd_read op tag t 2).trans (if_neg (by simp [hk]))
  have hx : keyUpdateRsp e sid (v :: 0xE9 :: op :: tag :: t) c =
      (do
        let known ← (Ctx.onSession sid M.panic (keyUpdateOps e c.neg.version (KeyUpdateOp.ofCode op))).mapErr { code := .unspecified }
        if known = false then M.fail { code := .invalidRequest } else
        encodeRsp .rspKeyUpdateAck (.keyUpdateAck ⟨KeyUpdateOp.ofCode op, tag⟩) : H Bytes) (Ctx.resetBuffers .reqKeyUpdate (some sid) c) := by
    unfold keyUpdateRsp
    rw [M.bind_apply, hcv]
    dsimp only
    rw [M.bind_apply, M.modify_apply]
    dsimp only
    rw [M.bind_apply, hread]
    dsimp only
    rw [M.bind_apply, M.get_apply]
    dsimp only
    rw [hneg]
  unfold reply at h
  rw [hx, M.bind_apply] at h
  have hon : ∀ {out}, keyUpdateOps e c.neg.version (KeyUpdateOp.ofCode op) { s with l1l2 := none } = out →
      (Ctx.onSession sid M.panic (keyUpdateOps e c.neg.version (KeyUpdateOp.ofCode op))).mapErr { code := .unspecified }
        (Ctx.resetBuffers .reqKeyUpdate (some sid) c) = (match out with
        | .ok a s' => .ok a ((Ctx.resetBuffers .reqKeyUpdate (some sid) c).updSession sid fun _ => s')
        | .err _ s' => .err ({ code := .unspecified } : Reply) ((Ctx.resetBuffers .reqKeyUpdate (some sid) c).updSession sid fun _ => s')
        | .panic => .panic) := by
    rintro out rfl
    unfold M.mapErr Ctx.onSession
    simp only [M.bind_apply, M.get_apply, hs']
    cases keyUpdateOps e c.neg.version (KeyUpdateOp.ofCode op) { s with l1l2 := none } <;> rfl
  cases ho : keyUpdateOps e c.neg.version (KeyUpdateOp.ofCode op) { s with l1l2 := none } with
  | panic => rw [hon ho] at h; cases h
  | err st s' => exact absurd ho (ops_noErr _ _ _ _ _)
  | ok known s' =>
    refine ⟨known, s', rfl, ?_⟩
    rintro rfl
    rw [hon ho] at h
    dsimp only at h
    rw [if_neg (by simp)] at h
    rw [encodeRsp_writes (p := .keyUpdateAck ⟨KeyUpdateOp.ofCode op, tag⟩) (w := [op, tag])
      ((KeyUpd.encode_writes _).cast (by simp [KeyUpd.wire, KeyUpdateOp.get_ofCode])) (by simp [msgSize])] at h
    have h := Out.ok.inj h
    refine ⟨?_, h.2.symm⟩
    rw [← h.1]
    have hver : ((Ctx.resetBuffers .reqKeyUpdate (some sid) c).updSession sid fun _ => s').neg.version.get = v := by
      have : ((Ctx.resetBuffers .reqKeyUpdate (some sid) c).updSession sid fun _ => s').neg.version = c.neg.version := congrArg Neg.version hneg
      rw [this, ← hv]
      exact SpdmVersion.get_ofCode v
    rw [hver]
    rfl

/-- what a KEY_UPDATE packet is turned into, and what is left of the session table. -/
theorem keyUpdate_answered {c c1 c' : Ctx} {rx : Bytes} {sid : UInt32} {s : Session} {v op tag : UInt8} {t : Bytes}
    (ho : Opens e rx c sid (v :: 0xE9 :: op :: tag :: t) false c1) (hs : c.session? sid = some s) (hst : s.state = .established)
    (h : processMessage e rx c = .ok true c') :
    ∃ b c2, (c.updSession sid (·.bump true)).session? sid = some (s.bump true) ∧
      reply (keyUpdateRsp e sid (v :: 0xE9 :: op :: tag :: t)) (c.updSession sid (·.bump true)) = .ok b c2 ∧ sendSecured e sid b false c2 = .ok () c' := by
  rw [process_opened ho, isOk_true] at h
  obtain ⟨_, _, _, _, rfl⟩ := ho.eq
  have hid := session?_id hs
  have hs1 : (c.updSession sid (·.bump true)).session? sid = some (s.bump true) := session?_upd hs (by rw [Session.bump_id]; exact hid)
  have hst1 : (s.bump true).state = .established := by rw [Session.bump_state]; exact hst
  unfold dispatchSecured dispatchApplication at h
  simp only [M.bind_apply, M.get_apply, hs1, hst1, Res.read, header_read, Res.lift] at h
  rw [show ReqRespCode.ofCode 0xE9 = .reqKeyUpdate from rfl] at h
  unfold handleKeyUpdate at h
  dsimp only at h
  obtain ⟨b, c2, h1, h2⟩ := M.bind_ok.1 h
  exact ⟨b, c2, hs1, h1, h2⟩

/-- KEY_UPDATE with a defined operation, in an established session, that is processed: the keys change as the operation says, the session table
holds the result, and the one packet sent is KEY_UPDATE_ACK with the same operation and tag, sealed with the response keys that are now in
force. -/
theorem C53_update (hx : ExpandLaw e.crypto) (c c1 c' : Ctx) (rx : Bytes) (sid : UInt32) (s : Session) (v op tag : UInt8) (t : Bytes)
    (ho : Opens e rx c sid (v :: 0xE9 :: op :: tag :: t) false c1) (hs : c.session? sid = some s) (hst : s.state = .established)
    (hsec : HasDataSecrets s) (hv : SpdmVersion.ofCode v = c.neg.version) (hop : op = 1 ∨ op = 2 ∨ op = 3)
    (hdts : c.neg.reqDts = 0 ∨ 4 ≤ c.neg.reqDts.toNat) (h : processMessage e rx c = .ok true c') :
    ∃ s2 pkt, KeysUpdated e.crypto c.neg.version op (opened s) s2 ∧ c'.session? sid = some (s2.bump false) ∧
      SealedBy e s2 [v, 0x69, op, tag] pkt ∧ c'.sent = c.sent ++ [pkt] := by
  obtain ⟨b, c2, hs1, h1, h2⟩ := keyUpdate_answered ho hs hst h
  have hk : (KeyUpdateOp.ofCode op).known = true := by rcases hop with rfl | rfl | rfl <;> rfl
  obtain ⟨known, s2, g1, g2⟩ := keyUpdateRsp_ok hs1 hv hk h1
  have happ : (opened s).app.reqSecret = s.app.reqSecret ∧ (opened s).app.rspSecret = s.app.rspSecret := by
    unfold opened Session.bump
    rw [hst]
    exact ⟨rfl, rfl⟩
  have hhash : (opened s).hash = s.hash := by
    unfold opened Session.bump
    split <;> first | rfl | (split <;> rfl)
  have hsec' : HasDataSecrets (opened s) := ⟨by rw [happ.1, hhash]; exact hsec.req, by rw [happ.2, hhash]; exact hsec.rsp⟩
  obtain ⟨rfl, g3⟩ := ops_effect hx hsec' hop g1
  obtain ⟨rfl, rfl⟩ := g2 rfl
  have hid2 : s2.id = sid := by
    rw [g3.2.2.2]
    show (s.bump true).id = sid
    rw [Session.bump_id]
    exact session?_id hs
  have hs2 : ((Ctx.resetBuffers .reqKeyUpdate (some sid) (c.updSession sid (·.bump true))).updSession sid fun _ => s2).session? sid = some s2 := by
    refine session?_upd (f := fun _ => s2) (s := opened s) ?_ hid2
    rw [resetBuffers_session _ _ _ (by decide), hs1]
    rfl
  obtain ⟨s3, pkt, k1, k2, k3, rfl⟩ := sendSecured_exact (code := 0x69) ⟨v, [op, tag], rfl⟩ (by decide) (by decide) (by decide) h2
  rw [hs2] at k1
  cases k1
  have hneg : ((Ctx.resetBuffers .reqKeyUpdate (some sid) (c.updSession sid (·.bump true))).updSession sid fun _ => s2).neg = c.neg :=
    congrArg Cc.neg (resetBuffers_cc .reqKeyUpdate (c.updSession sid (·.bump true)) (some sid))
  have hout : outgoing ((Ctx.resetBuffers .reqKeyUpdate (some sid) (c.updSession sid (·.bump true))).updSession sid fun _ => s2) [v, 0x69, op, tag] =
      [v, 0x69, op, tag] := by
    unfold outgoing tooLarge
    rw [hneg]
    rcases hdts with hd | hd
    · simp [hd]
    · rw [if_neg]
      simp
      intro _; exact hd
  rw [hout] at k3
  refine ⟨s2, pkt, g3, ?_, k3, ?_⟩
  · exact session?_upd (f := fun _ => s2.bump false) hs2 (by rw [Session.bump_id]; exact hid2)
  · show (Ctx.resetBuffers .reqKeyUpdate (some sid) (c.updSession sid (·.bump true))).sent ++ [pkt] = _
    simp [Ctx.resetBuffers, Ctx.resetM, Ctx.updSession]
    split <;> rfl

/-- KEY_UPDATE with an operation that is not defined is answered by ERROR InvalidRequest, and no key changes. -/
theorem C53_refused (c c1 c' : Ctx) (rx : Bytes) (sid : UInt32) (s : Session) (v op tag : UInt8) (t : Bytes)
    (ho : Opens e rx c sid (v :: 0xE9 :: op :: tag :: t) false c1) (hs : c.session? sid = some s) (hst : s.state = .established)
    (hv : SpdmVersion.ofCode v = c.neg.version) (hop : ¬ (op = 1 ∨ op = 2 ∨ op = 3))
    (hdts : c.neg.reqDts = 0 ∨ 4 ≤ c.neg.reqDts.toNat) (h : processMessage e rx c = .ok true c') :
    ∃ pkt, c'.session? sid = some ((opened s).bump false) ∧ SealedBy e (opened s) [v, 0x7F, 0x01, 0] pkt ∧ c'.sent = c.sent ++ [pkt] := by
  obtain ⟨b, c2, hs1, h1, h2⟩ := keyUpdate_answered ho hs hst h
  have hk : (KeyUpdateOp.ofCode op).known = false := by
    cases hkn : (KeyUpdateOp.ofCode op).known with
    | false => rfl
    | true =>
      exfalso
      apply hop
      have hg := KeyUpdateOp.get_ofCode op
      cases hx : KeyUpdateOp.ofCode op with
      | unknown b => rw [hx] at hkn; cases hkn
      | updateSingleKey => rw [hx] at hg; exact .inl hg.symm
      | updateAllKeys => rw [hx] at hg; exact .inr (.inl hg.symm)
      | verifyNewKey => rw [hx] at hg; exact .inr (.inr hg.symm)
  generalize hc0 : c.updSession sid (·.bump true) = c0 at *
  have hneg0 : c0.neg = c.neg := by rw [← hc0]; rfl
  have hcv : checkVersion (v :: 0xE9 :: op :: tag :: t) c0 = .ok ⟨op :: tag :: t, 2⟩ c0 := by
    unfold checkVersion
    simp [header_read, hv, Rsp.header, hneg0]
  have hread : readReq (fun _ => KeyUpd.read) (v :: 0xE9 :: op :: tag :: t) ⟨op :: tag :: t, 2⟩ (Ctx.resetBuffers .reqKeyUpdate (some sid) c0) =
      .err { code := .invalidRequest } (Ctx.resetBuffers .reqKeyUpdate (some sid) c0) := by
    unfold readReq
    rw [M.bind_apply, M.get_apply]
    dsimp only
    rw [keyUpd_read, if_pos hk]
    rfl
  have hx : keyUpdateRsp e sid (v :: 0xE9 :: op :: tag :: t) c0 = .err { code := .invalidRequest } (Ctx.resetBuffers .reqKeyUpdate (some sid) c0) := by
    unfold keyUpdateRsp
    rw [M.bind_apply, hcv]
    dsimp only
    rw [M.bind_apply, M.modify_apply]
    dsimp only
    rw [M.bind_apply, hread]
  have hneg : (Ctx.resetBuffers .reqKeyUpdate (some sid) c0).neg = c.neg :=
    (congrArg Cc.neg (resetBuffers_cc .reqKeyUpdate c0 (some sid))).trans hneg0
  unfold reply at h1
  rw [hx] at h1
  dsimp only at h1
  rw [writeError_nil _ _ rfl] at h1
  dsimp only at h1
  have h1 := Out.ok.inj h1
  obtain ⟨hb, rfl⟩ := h1
  have hb : b = [v, 0x7F, 0x01, 0] := by
    rw [← hb, hneg, ← hv]
    unfold errorBytes
    rw [SpdmVersion.get_ofCode]
    rfl
  subst hb
  have hs2 : (Ctx.resetBuffers .reqKeyUpdate (some sid) c0).session? sid = some (opened s) := by
    rw [resetBuffers_session _ _ _ (by decide), hs1]
    rfl
  obtain ⟨s3, pkt, k1, k2, k3, rfl⟩ := sendSecured_exact (code := 0x7F) ⟨v, [0x01, 0], rfl⟩ (by decide) (by decide) (by decide) h2
  rw [hs2] at k1
  cases k1
  have hout : outgoing (Ctx.resetBuffers .reqKeyUpdate (some sid) c0) [v, 0x7F, 0x01, 0] = [v, 0x7F, 0x01, 0] := by
    unfold outgoing tooLarge
    rw [hneg]
    rcases hdts with hd | hd
    · simp [hd]
    · rw [if_neg]
      simp
      intro _; exact hd
  rw [hout] at k3
  refine ⟨pkt, ?_, k3, ?_⟩
  · refine session?_upd (f := fun _ => (opened s).bump false) hs2 ?_
    show ((opened s).bump false).id = sid
    rw [Session.bump_id]
    show (s.bump true).id = sid
    rw [Session.bump_id]
    exact session?_id hs
  · show (Ctx.resetBuffers .reqKeyUpdate (some sid) c0).sent ++ [pkt] = _
    rw [← hc0]
    simp [Ctx.resetBuffers, Ctx.resetM, Ctx.updSession]
    split <;> rfl

/-! The hypotheses are met: KEY_UPDATE in the established session of the concrete responder. -/

/-- KEY_UPDATE with operation `op` and tag 0x44, sealed by the requester. -/
def toyKeyUpdate (op : UInt8) : Bytes := Toy.sealIn 0 Toy.established [8, 0x12, 0xE9, op, 0x44]

/-- the context after the packet was processed, if it was. -/
def processed (e : Env) (rx : Bytes) (c : Ctx) : Option Ctx :=
  match processMessage e rx c with
  | .ok true c' => some c'
  | _ => none

theorem processed_some {rx : Bytes} {c c' : Ctx} (h : processed e rx c = some c') : processMessage e rx c = .ok true c' := by
  unfold processed at h
  split at h
  · rename_i hx; cases h; exact hx
  · cases h

/-- what a secured packet opens to. -/
def openedAs (e : Env) (rx : Bytes) (c : Ctx) : Option (UInt32 × Bytes × Bool) :=
  match received e rx with
  | some (pkt, true) => match openSecured e pkt c with
    | .ok r _ => some r
    | _ => none
  | _ => none

theorem openedAs_some {rx msg : Bytes} {c : Ctx} {sid : UInt32} {isApp : Bool} (h : openedAs e rx c = some (sid, msg, isApp)) :
    ∃ c1, Opens e rx c sid msg isApp c1 := by
  unfold openedAs at h
  split at h
  · rename_i pkt hp
    split at h
    · rename_i r c1 hx
      cases h
      exact ⟨c1, pkt, hp, hx⟩
    · cases h
  · cases h

theorem toy_expandLaw : ExpandLaw Toy.env.crypto := by
  intro h key info n _ _
  exact ⟨_, rfl, Toy.digest_length _ _⟩

/-- an operation on the keys of the established session `s` is received and answered. -/
def updates (op : UInt8) : Prop := ExpandLaw Toy.env.crypto ∧
  ∃ c1 c' s, Opens Toy.env (toyKeyUpdate op) Toy.established 0xFFFD0007 [0x12, 0xE9, op, 0x44] false c1 ∧
    Toy.established.session? 0xFFFD0007 = some s ∧ s.state = .established ∧ HasDataSecrets s ∧ SpdmVersion.ofCode 0x12 = Toy.established.neg.version ∧
    (Toy.established.neg.reqDts = 0 ∨ 4 ≤ Toy.established.neg.reqDts.toNat) ∧ processMessage Toy.env (toyKeyUpdate op) Toy.established = .ok true c' ∧
    c'.sent ≠ Toy.established.sent

theorem updates_of (op : UInt8) (h1 : openedAs Toy.env (toyKeyUpdate op) Toy.established = some (0xFFFD0007, [0x12, 0xE9, op, 0x44], false))
    (h2 : (processed Toy.env (toyKeyUpdate op) Toy.established).map (fun c' => decide (c'.sent = Toy.established.sent)) = some false) : updates op := by
  obtain ⟨c1, h1⟩ := openedAs_some h1
  cases h3 : processed Toy.env (toyKeyUpdate op) Toy.established with
  | none => rw [h3] at h2; cases h2
  | some c' =>
    rw [h3] at h2
    exact ⟨toy_expandLaw, c1, c', Toy.slot 0 Toy.established, h1, by decide +kernel, by decide +kernel,
      ⟨by decide +kernel, by decide +kernel⟩, by decide +kernel, by decide +kernel, processed_some h3, of_decide_eq_false (Option.some.inj h2)⟩

example : updates 1 := updates_of 1 (by decide +kernel) (by decide +kernel)
example : updates 2 := updates_of 2 (by decide +kernel) (by decide +kernel)
example : updates 3 := updates_of 3 (by decide +kernel) (by decide +kernel)
/-- and an undefined operation (`C53_refused`). -/
example : updates 4 := updates_of 4 (by decide +kernel) (by decide +kernel)

/-- the concrete environment with an HKDF that fails. -/
def noExpand : Env := { Toy.env with crypto := { Toy.env.crypto with expand := fun _ _ _ _ => none } }

/-- The failure of a key update is ignored: when the derivation fails the responder still answers KEY_UPDATE_ACK (here sealed with the old
response key), although the request keys are the old ones. -/
theorem C53_failure_violated :
    ∃ c', processMessage noExpand (toyKeyUpdate 1) Toy.established = .ok true c' ∧
      (Toy.slot 0 c').app.reqSecret = (Toy.slot 0 Toy.established).app.reqSecret ∧ (Toy.slot 0 c').app.req.key = (Toy.slot 0 Toy.established).app.req.key ∧
      c'.sent = Toy.established.sent ++ [match Session.encodeSecured Toy.crypto [8, 0x12, 0x69, 1, 0x44] 4160 false (Toy.slot 0 Toy.established) with
        | .ok b _ => 6 :: b
        | _ => []] := by
  cases h3 : processed noExpand (toyKeyUpdate 1) Toy.established with
  | none => exact absurd h3 (by decide +kernel)
  | some c' =>
    refine ⟨c', processed_some h3, ?_⟩
    have hx : (processed noExpand (toyKeyUpdate 1) Toy.established).map (fun c' => decide (
        (Toy.slot 0 c').app.reqSecret = (Toy.slot 0 Toy.established).app.reqSecret ∧ (Toy.slot 0 c').app.req.key = (Toy.slot 0 Toy.established).app.req.key ∧
        c'.sent = Toy.established.sent ++ [match Session.encodeSecured Toy.crypto [8, 0x12, 0x69, 1, 0x44] 4160 false (Toy.slot 0 Toy.established) with
          | .ok b _ => 6 :: b
          | _ => []])) = some true := by decide +kernel
    rw [h3] at hx
    exact of_decide_eq_true (Option.some.inj hx)

end Verif.Props
