/-
C52: what KEY_EXCHANGE_RSP and PSK_EXCHANGE_RSP authenticate, and the keys of the session they open.
-/
import Verif.Responder.ExchangeExact
import Verif.Props.Slots
import Verif.Props.Keys
import Verif.Props.Negotiation

namespace Verif.Props
open Verif.Rsp

variable {e : Env}

/-- an exchange that was answered: the handler wrote `b`, which was sent if it fits. -/
theorem plain_exchanged {x : M Status Ctx Bytes} {v k : UInt8} {t rx : Bytes} {c c' : Ctx} {r : UInt8}
    (hp : Plain e rx (v :: k :: t)) (hd : dispatchCode e (ReqRespCode.ofCode k) (v :: k :: t) = (do let b ← x; sendMessage e b))
    (hpost : Post (Starts r) x) (hr65 : r ≠ 0x65) (h : processMessage e rx c = .ok true c') :
    ∃ b c1 pkt, x c = .ok b c1 ∧ Ctx.encap e (outgoing c1 b) = .ok pkt ∧
      c' = withState (afterState (if tooLarge c1 b then 0x7F else r) c1.rt.state) (withSent pkt c1) := by
  rw [process_plain rx hp, isOk_true, dispatch_cons, hd, M.bind_apply] at h
  cases hx : x c with
  | panic => rw [hx] at h; cases h
  | err st c1 => rw [hx] at h; cases h
  | ok b c1 =>
    rw [hx] at h
    obtain ⟨pkt, h1, _, h3⟩ := (sendMessage_wp (e := e) ((hpost c).ok hx) hr65 c1).ok h
    exact ⟨b, c1, pkt, rfl, h1, h3⟩

/-- The handshake keys of a session over the Diffie-Hellman secret `dhe` and the transcript hash `th1` (DSP0274 "Key schedule"). -/
def DheHandshakeKeys (p : Crypto) (v : SpdmVersion) (hash : BaseHash) (aead : Aead) (dhe th1 : Bytes) (s : Session) : Prop :=
  ∃ n root salt, BaseHash.size? hash = some n ∧
    p.extract hash (List.replicate n 0) dhe = some root ∧
    p.expand hash root (Purpose.derived.info n v) n = some salt ∧
    p.extract hash salt (List.replicate n 0) = some s.master ∧
    p.expand hash root ((Purpose.reqHandshake th1).info n v) n = some s.hs.reqSecret ∧
    p.expand hash root ((Purpose.rspHandshake th1).info n v) n = some s.hs.rspSecret ∧
    p.expand hash s.hs.reqSecret (Purpose.finished.info n v) n = some s.hs.reqFinished ∧
    p.expand hash s.hs.rspSecret (Purpose.finished.info n v) n = some s.hs.rspFinished ∧
    (∃ ks is, Aead.keySize? aead = some ks ∧ Aead.ivSize? aead = some is ∧
      p.expand hash s.hs.reqSecret (Purpose.key.info ks v) 32 = some s.hs.req.key ∧
      p.expand hash s.hs.reqSecret (Purpose.iv.info is v) 12 = some s.hs.req.salt ∧
      p.expand hash s.hs.rspSecret (Purpose.key.info ks v) 32 = some s.hs.rsp.key ∧
      p.expand hash s.hs.rspSecret (Purpose.iv.info is v) 12 = some s.hs.rsp.salt) ∧
    s.hs.req.seq = 0 ∧ s.hs.rsp.seq = 0

theorem dheHandshake_of {c : Ctx} {sid : UInt32} {slot : UInt8} {certHash final root master th1 : Bytes} {x : Option HashCtx} {s1 : Session}
    (h1 : KeySched.handshakeSecret e.crypto c.neg.baseHash final = .ok root)
    (h2 : KeySched.masterSecret e.crypto c.neg.version c.neg.baseHash root = .ok master)
    (h : Session.genHandshake e.crypto c.neg.version th1 { dheOpened e c sid slot certHash final root master with th := x } = .ok () s1) :
    DheHandshakeKeys e.crypto c.neg.version c.neg.baseHash c.neg.aead final th1 s1 ∧ s1.hs = s1.hs ∧
      s1 = { dheOpened e c sid slot certHash final root master with th := x, hs := s1.hs } := by
  obtain ⟨n, salt, g1, g2, g3, g4, -⟩ := C20_root_secrets e.crypto c.neg.version final { Session.new with hash := c.neg.baseHash } _
    (Session.setDheSecret_ok.2 ⟨root, master, h1, h2, rfl⟩)
  obtain ⟨m, k1, k2, k3, k4, k5, ⟨ks, is, k6, k7, k8, k9⟩, ⟨ks', is', j6, j7, j8, j9⟩, k10, k11, k12⟩ := C20_handshake_secrets _ _ _ _ _ h
  have hm : m = n := Option.some.inj (k1.symm.trans g1)
  subst hm
  have hk : ks' = ks := Option.some.inj (j6.symm.trans k6)
  have hi : is' = is := Option.some.inj (j7.symm.trans k7)
  subst hk hi
  refine ⟨⟨m, root, salt, g1, g2, g3, ?_, k2, k3, k4, k5, ⟨ks', is', k6, k7, k8, k9, j8, j9⟩, k10, k11⟩, rfl, k12⟩
  rw [k12]; exact g4

/-- what `keyExchangeRsp` does when it succeeds. -/
theorem keyExchangeRsp_ok {bytes b : Bytes} {c c' : Ctx} (ht : TableOk 0 c.sessions) (hl : c.sessions.length < 0xFFFD)
    (h : keyExchangeRsp e bytes c = .ok b c') :
    ∃ m req sum opaq certHash exchange final rspId s1 c1 root master, KeyExchangeValid e c bytes m req sum opaq certHash exchange final rspId ∧
      KeySched.handshakeSecret e.crypto c.neg.baseHash final = .ok root ∧ KeySched.masterSecret e.crypto c.neg.version c.neg.baseHash root = .ok master ∧
      s1 = dheOpened e (exchangeCtx c m) (joinId rspId m.reqSession) m.slot certHash final root master ∧
      Tables (exchangeCtx c m) c1 ∧ c1.session? (joinId rspId m.reqSession) = some s1 ∧
      keyExchangeBody e m req (joinId rspId m.reqSession) rspId exchange sum opaq c1 = .ok b c' := by
  rcases keyExchange_prefix (e := e) bytes c with ⟨st, c1, h1, h2⟩ | h1 | ⟨m, req, sum, opaq, certHash, exchange, final, rspId, hv, h1⟩
  · rw [h1] at h; cases h
  · rw [h1] at h; cases h
  · rw [h1] at h
    have hss : (exchangeCtx c m).sessions = c.sessions := (reset_fields .reqKeyExchange c).2.2.2.1
    obtain ⟨_, c2, h2, h3⟩ := M.bind_ok.1 h
    cases hs0 : (exchangeCtx c m).session? 0 with
    | none => simp [Ctx.onSession, hs0] at h2
    | some s0 =>
      obtain ⟨s1, h4, rfl⟩ := onSession_ok hs0 h2
      obtain ⟨root, master, g1, g2, g3⟩ := openDhe_ok h4
      refine ⟨m, req, sum, opaq, certHash, exchange, final, rspId, s1, _, root, master, hv, g1, g2, g3, ⟨_, rfl⟩, ?_, h3⟩
      exact session?_opened (by rw [hss]; exact ht) (by rw [hss]; exact hl) (by rw [hss]; exact hv.id) (by rw [g3]; rfl)

theorem exchangeCtx_fields (c : Ctx) (m : KeyEx) : (exchangeCtx c m).rt.messageA = c.rt.messageA ∧ (exchangeCtx c m).neg.version = c.neg.version ∧
    (exchangeCtx c m).neg.baseHash = c.neg.baseHash ∧ (exchangeCtx c m).neg.baseAsym = c.neg.baseAsym ∧ (exchangeCtx c m).neg.aead = c.neg.aead ∧
    (exchangeCtx c m).config = c.config ∧
    (exchangeCtx c m).cc.needSummary = wantsSummary m.summary ∧ (exchangeCtx c m).cc.inClear = c.cc.inClear ∧ (exchangeCtx c m).cc.asymSize? = c.cc.asymSize? ∧
    (exchangeCtx c m).sent = c.sent ∧ (exchangeCtx c m).neg.reqDts = c.neg.reqDts := by
  refine ⟨?_, rfl, rfl, rfl, rfl, (reset_fields .reqKeyExchange c).2.1, rfl, ?_, ?_, ?_, rfl⟩
  · show (Ctx.resetBuffers .reqKeyExchange none c).rt.messageA = _
    unfold Ctx.resetBuffers Ctx.resetM Ctx.resetM1M2
    dsimp only
    split <;> split <;> (try split) <;> rfl
  · rfl
  · rfl
  · show (Ctx.resetBuffers .reqKeyExchange none c).sent = _
    unfold Ctx.resetBuffers Ctx.resetM Ctx.resetM1M2
    dsimp only
    split <;> split <;> (try split) <;> rfl

theorem withSent_session? (st : ConnState) (pkt : Bytes) (c : Ctx) (sid : UInt32) : (withState st (withSent pkt c)).session? sid = c.session? sid := rfl

theorem outgoing_congr {c c' : Ctx} (b : Bytes) (h1 : c'.neg.version = c.neg.version) (h2 : c'.neg.reqDts = c.neg.reqDts) : outgoing c' b = outgoing c b := by
  unfold outgoing tooLarge; rw [h1, h2]

/-- A KEY_EXCHANGE that is answered, without HANDSHAKE_IN_THE_CLEAR: the request was in order (`KeyExchangeValid`), the answer
(replaced by ERROR if the requester cannot take its length) carries a fresh random number, the responder's exchange data, the summary hash asked for, the
selected opaque data, a signature over the transcript — message A, the digest of the certificate chain of the slot asked for,
the request and the answer up to the signature — and an HMAC, under the response finished key, of the hash of all that with the signature.
The session with the joint id holds the keys of the key schedule over the shared secret and that hash, its transcript
covers the whole answer, and it is in the handshake phase. -/
theorem C52_key_exchange_partial (n : Nat) (hn : n < 0xFFFD) (c c' : Ctx) (hr : Reachable n c) (rx : Bytes) (v : UInt8) (t : Bytes)
    (hp : Plain e rx (v :: 0xE4 :: t)) (hclear : c.cc.inClear = false) (h : processMessage e rx c = .ok true c') :
    ∃ m req sum opaq certHash exchange final rspId random th sig th1 mac s,
      KeyExchangeValid e c (v :: 0xE4 :: t) m req sum opaq certHash exchange final rspId ∧ Ctx.random e 32 = some random ∧
      let body := keyExchangeRspBody c.neg.version.get c.config.heartbeat rspId e.mutAuth random exchange sum opaq
      let transcript := c.rt.messageA ++ certHash ++ req ++ body
      e.crypto.hash c.neg.baseHash transcript = some th ∧
      e.sign c.neg.baseHash c.neg.baseAsym (Spec.signedData .keyExchangeRsp th) = some sig ∧
      e.crypto.hash c.neg.baseHash (transcript ++ sig) = some th1 ∧
      e.crypto.hmac c.neg.baseHash s.hs.rspFinished th1 = some mac ∧
      SentOne e (outgoing c (body ++ sig ++ mac)) c c' ∧
      c'.session? (joinId rspId m.reqSession) = some s ∧ s.state = .handshaking ∧
      s.th = some ⟨c.neg.baseHash, transcript ++ sig ++ mac⟩ ∧
      DheHandshakeKeys e.crypto c.neg.version c.neg.baseHash c.neg.aead final th1 s := by
  obtain ⟨hlen, htab⟩ := hr.table hn
  obtain ⟨b, c1, pkt, hx, hpkt, rfl⟩ := plain_exchanged (x := keyExchangeRsp e (v :: 0xE4 :: t)) (r := 0x64) hp rfl (post_keyExchangeRsp _) (by decide) h
  obtain ⟨m, req, sum, opaq, certHash, exchange, final, rspId, s1, c2, root, master, hv, g1, g2, g3, g4, g5, g6⟩ := keyExchangeRsp_ok htab (by omega) hx
  obtain ⟨f1, f2, f3, f4, f5, f6, f7, f8, f9, f10, f11⟩ := exchangeCtx_fields c m
  obtain ⟨random, sig, th, th1, s2, k1, k2, k3, k4, k5, k6, -, k8⟩ := keyExchangeBody_ok g5 (by rw [g3]; rfl) g6
  obtain ⟨l', rfl⟩ := g4
  have hsum : optWire (wantsSummary m.summary) sum = sum := by
    have := hv.summary
    unfold SummaryIs at this
    cases hw : wantsSummary m.summary
    · rw [hw] at this; simp at this; rw [this]; rfl
    · rfl
  obtain ⟨mac, j1, rfl, j3, j4⟩ := k8 hclear
  obtain ⟨l, hl⟩ := j4
  generalize hbd : keyExchangeRspBody _ _ _ _ _ _ _ _ = body at *
  have hbody : keyExchangeRspBody c.neg.version.get c.config.heartbeat rspId e.mutAuth random exchange sum opaq = body := by
    rw [← hbd, ← f6]
    exact congrArg (fun x => keyExchangeRspBody _ _ _ _ _ _ x _) hsum.symm
  have hpre : s1.messageA ++ s1.rspCertHash.getD [] = c.rt.messageA ++ certHash := by
    rw [g3]
    show (exchangeCtx c m).rt.messageA ++ certHash = _
    rw [f1]
  have hhash : s1.hash = c.neg.baseHash := by rw [g3]; rfl
  rw [hpre, hhash] at k2 k4 k6 j3
  rw [hhash] at j1
  rw [g3] at k6
  obtain ⟨d1, -, d3⟩ := dheHandshake_of (c := exchangeCtx c m) g1 g2 k6
  refine ⟨m, req, sum, opaq, certHash, exchange, final, rspId, random, th, sig, th1, mac, handshaking opaq c.config.heartbeat { s2 with th := some ⟨c.neg.baseHash, c.rt.messageA ++ certHash ++ req ++ body ++ sig ++ mac⟩ }, hv, k1, ?_⟩
  dsimp only
  rw [hbody]
  have j3' : c1.session? (joinId rspId m.reqSession) = some (handshaking opaq c.config.heartbeat { s2 with th := some ⟨c.neg.baseHash, c.rt.messageA ++ certHash ++ req ++ body ++ sig ++ mac⟩ }) := by
    rw [← f6]; exact j3
  refine ⟨k2, k3, k4, j1, ⟨pkt, ?_, ?_⟩, j3', rfl, rfl, d1⟩
  · rw [← hpkt, hl]
    rfl
  · rw [hl]
    show (exchangeCtx c m).sent ++ [pkt] = _
    rw [f10]

/-- With HANDSHAKE_IN_THE_CLEAR the full property fails, for every KEY_EXCHANGE: the answer carries the placeholder 0xbb…bb
where the signature should be (the signature that was made only enters the transcript), so the requester cannot authenticate the responder. -/
theorem C52_in_clear_violated (n : Nat) (hn : n < 0xFFFD) (c c' : Ctx) (hr : Reachable n c) (rx : Bytes) (v : UInt8) (t : Bytes)
    (hp : Plain e rx (v :: 0xE4 :: t)) (hclear : c.cc.inClear = true) (h : processMessage e rx c = .ok true c') :
    ∃ body asym, c.cc.asymSize? = some asym ∧ SentOne e (outgoing c (body ++ List.replicate asym 0xbb)) c c' ∧
      ∃ rspId random exchange sum opaq, body = keyExchangeRspBody c.neg.version.get c.config.heartbeat rspId e.mutAuth random exchange sum opaq := by
  obtain ⟨hlen, htab⟩ := hr.table hn
  obtain ⟨b, c1, pkt, hx, hpkt, rfl⟩ := plain_exchanged (x := keyExchangeRsp e (v :: 0xE4 :: t)) (r := 0x64) hp rfl (post_keyExchangeRsp _) (by decide) h
  obtain ⟨m, req, sum, opaq, certHash, exchange, final, rspId, s1, c2, root, master, hv, g1, g2, g3, g4, g5, g6⟩ := keyExchangeRsp_ok htab (by omega) hx
  obtain ⟨f1, f2, f3, f4, f5, f6, f7, f8, f9, f10, f11⟩ := exchangeCtx_fields c m
  obtain ⟨random, sig, th, th1, s2, k1, k2, k3, k4, k5, k6, k7, -⟩ := keyExchangeBody_ok g5 (by rw [g3]; rfl) g6
  obtain ⟨l', rfl⟩ := g4
  obtain ⟨asym, j1, rfl, j3, l, hl⟩ := k7 hclear
  refine ⟨keyExchangeRspBody c.neg.version.get c.config.heartbeat rspId e.mutAuth random exchange (optWire (wantsSummary m.summary) sum) opaq, asym, j1, ⟨pkt, ?_, ?_⟩, _, _, _, _, _, rfl⟩
  · rw [← hpkt, hl, ← f6]
    rfl
  · rw [hl]
    show (exchangeCtx c m).sent ++ [pkt] = _
    rw [f10]

/-- the handshake keys of a pre-shared key session over the transcript hash `th1`. -/
def PskHandshakeKeys (p : Crypto) (v : SpdmVersion) (hash : BaseHash) (aead : Aead) (hint th1 : Bytes) (s : Session) : Prop :=
  ∃ n, BaseHash.size? hash = some n ∧
    p.pskHandshake v hash hint ((Purpose.reqHandshake th1).info n v) = some s.hs.reqSecret ∧
    p.pskHandshake v hash hint ((Purpose.rspHandshake th1).info n v) = some s.hs.rspSecret ∧
    p.expand hash s.hs.reqSecret (Purpose.finished.info n v) n = some s.hs.reqFinished ∧
    p.expand hash s.hs.rspSecret (Purpose.finished.info n v) n = some s.hs.rspFinished ∧
    (∃ ks is, Aead.keySize? aead = some ks ∧ Aead.ivSize? aead = some is ∧
      p.expand hash s.hs.reqSecret (Purpose.key.info ks v) 32 = some s.hs.req.key ∧
      p.expand hash s.hs.reqSecret (Purpose.iv.info is v) 12 = some s.hs.req.salt ∧
      p.expand hash s.hs.rspSecret (Purpose.key.info ks v) 32 = some s.hs.rsp.key ∧
      p.expand hash s.hs.rspSecret (Purpose.iv.info is v) 12 = some s.hs.rsp.salt) ∧
    s.hs.req.seq = 0 ∧ s.hs.rsp.seq = 0

theorem pskHandshake_of {c : Ctx} {sid : UInt32} {hint th1 : Bytes} {slot : UInt8} {x : Option HashCtx} {s1 : Session}
    (h : Session.genHandshake e.crypto c.neg.version th1 { pskOpened e c sid hint slot with th := x } = .ok () s1) :
    PskHandshakeKeys e.crypto c.neg.version c.neg.baseHash c.neg.aead hint th1 s1 ∧
      s1 = { pskOpened e c sid hint slot with th := x, hs := s1.hs } := by
  obtain ⟨m, k1, k2, k3, k4, k5, ⟨ks, is, k6, k7, k8, k9⟩, ⟨ks', is', j6, j7, j8, j9⟩, k10, k11, k12⟩ := C20_handshake_secrets _ _ _ _ _ h
  have hk : ks' = ks := Option.some.inj (j6.symm.trans k6)
  have hi : is' = is := Option.some.inj (j7.symm.trans k7)
  subst hk hi
  obtain ⟨h1, g1, k2⟩ := k2
  obtain ⟨h2, g2, k3⟩ := k3
  cases g1; cases g2
  exact ⟨⟨m, k1, k2, k3, k4, k5, ⟨ks', is', k6, k7, k8, k9, j8, j9⟩, k10, k11⟩, k12⟩

theorem pskExchangeRsp_ok {bytes b : Bytes} {c c' : Ctx} (ht : TableOk 0 c.sessions) (hl : c.sessions.length < 0xFFFD)
    (h : pskExchangeRsp e bytes c = .ok b c') :
    ∃ m req sum opaq context rspId s1 c1 slot, PskExchangeValid e c bytes m req sum opaq context rspId ∧
      s1 = pskOpened e (pskCtx c m) (joinId rspId m.reqSession) m.hint slot ∧
      Tables (pskCtx c m) c1 ∧ c1.session? (joinId rspId m.reqSession) = some s1 ∧
      pskExchangeBody e req (joinId rspId m.reqSession) rspId context sum opaq c1 = .ok b c' := by
  rcases pskExchange_prefix (e := e) bytes c with ⟨st, c1, h1, h2⟩ | h1 | ⟨m, req, sum, opaq, context, rspId, hv, h1⟩
  · rw [h1] at h; cases h
  · rw [h1] at h; cases h
  · rw [h1] at h
    have hss : (pskCtx c m).sessions = c.sessions := (reset_fields .reqPskExchange c).2.2.2.1
    obtain ⟨_, c2, h2, h3⟩ := M.bind_ok.1 h
    cases hs0 : (pskCtx c m).session? 0 with
    | none => simp [Ctx.onSession, hs0] at h2
    | some s0 =>
      obtain ⟨s1, h4, rfl⟩ := onSession_ok hs0 h2
      have g3 := openPsk_ok h4
      refine ⟨m, req, sum, opaq, context, rspId, s1, _, s0.slotId, hv, g3, ⟨_, rfl⟩, ?_, h3⟩
      exact session?_opened (by rw [hss]; exact ht) (by rw [hss]; exact hl) (by rw [hss]; exact hv.id) (by rw [g3]; rfl)

theorem pskCtx_fields (c : Ctx) (m : PskEx) : (pskCtx c m).rt.messageA = c.rt.messageA ∧ (pskCtx c m).config = c.config ∧ (pskCtx c m).sent = c.sent := by
  refine ⟨?_, (reset_fields .reqPskExchange c).2.1, ?_⟩
  · show (Ctx.resetBuffers .reqPskExchange none c).rt.messageA = _
    unfold Ctx.resetBuffers Ctx.resetM Ctx.resetM1M2
    dsimp only
    split <;> split <;> (try split) <;> rfl
  · show (Ctx.resetBuffers .reqPskExchange none c).sent = _
    unfold Ctx.resetBuffers Ctx.resetM Ctx.resetM1M2
    dsimp only
    split <;> split <;> (try split) <;> rfl

/-- the session with responder context: still in the handshake, no data keys; without: established with the data keys of the key schedule. -/
def PskPhase (p : Crypto) (v : SpdmVersion) (hash : BaseHash) (aead : Aead) (noContext : Bool) (hint transcript : Bytes) (s : Session) : Prop :=
  if noContext then s.state = .established ∧ ∃ n th2, p.hash hash transcript = some th2 ∧ BaseHash.size? hash = some n ∧
      p.pskMaster v hash hint ((Purpose.reqData th2).info n v) = some s.app.reqSecret ∧
      p.pskMaster v hash hint ((Purpose.rspData th2).info n v) = some s.app.rspSecret ∧
      (∃ ks is, Aead.keySize? aead = some ks ∧ Aead.ivSize? aead = some is ∧
        p.expand hash s.app.reqSecret (Purpose.key.info ks v) 32 = some s.app.req.key ∧
        p.expand hash s.app.reqSecret (Purpose.iv.info is v) 12 = some s.app.req.salt ∧
        p.expand hash s.app.rspSecret (Purpose.key.info ks v) 32 = some s.app.rsp.key ∧
        p.expand hash s.app.rspSecret (Purpose.iv.info is v) 12 = some s.app.rsp.salt) ∧
      s.app.req.seq = 0 ∧ s.app.rsp.seq = 0
  else s.state = .handshaking ∧ s.app = {}

theorem pskPhase_of {c : Ctx} {opaq hint tr : Bytes} {s s' : Session} (hth : s.th = some ⟨c.neg.baseHash, tr⟩) (hh : s.hash = c.neg.baseHash) (ha : s.aead = c.neg.aead)
    (happ : s.app = {}) (hp : s.usePsk = true) (hhint : s.pskHint = some hint) (h : PskLeft e c opaq s s') :
    PskPhase e.crypto c.neg.version c.neg.baseHash c.neg.aead c.cc.pskNoContext hint tr s' ∧ s'.hs = s.hs ∧ s'.th = s.th := by
  unfold PskLeft at h
  unfold PskPhase
  split at h
  · rename_i hnc
    rw [if_pos hnc]
    obtain ⟨x, th2, s2, h1, h2, h3, rfl⟩ := h
    rw [hth] at h1; cases h1
    obtain ⟨m, k1, k2, k3, k4, ⟨ks, is, k6, k7, k8, k9⟩, ⟨ks', is', j6, j7, j8, j9⟩, k10, k11, k12⟩ := C20_data_secrets _ _ _ _ _ h3
    have hk : ks' = ks := Option.some.inj (j6.symm.trans k6)
    have hi : is' = is := Option.some.inj (j7.symm.trans k7)
    subst hk hi
    simp only [Derived, hp, if_true, hhint, Option.some.injEq, exists_eq_left'] at k2 k3
    simp only [hh, ha, happ] at k1 k2 k3 k6 k7 k8 k9 j8 j9 k10 k11
    refine ⟨⟨rfl, m, th2, h2, k1, k2, k3, ⟨ks', is', k6, k7, k8, k9, j8, j9⟩, k10, k11⟩, ?_, ?_⟩
    · rw [k12]; rfl
    · rw [k12]; rfl
  · rename_i hnc
    rw [if_neg hnc]
    subst h
    exact ⟨⟨rfl, happ⟩, rfl, rfl⟩

/-- A PSK_EXCHANGE that is answered: the request was in order, the answer (replaced by ERROR if the requester cannot take its length) carries the
responder's context, the summary hash asked for, the selected opaque data and an HMAC, under the response finished key of the pre-shared
key named by the hint, of the hash of message A, the request and the answer up to the HMAC; the session holds those keys.
With responder context it is in the handshake phase, without it is established with the data keys over the transcript that includes the HMAC. -/
theorem C52_psk_exchange (n : Nat) (hn : n < 0xFFFD) (c c' : Ctx) (hr : Reachable n c) (rx : Bytes) (v : UInt8) (t : Bytes)
    (hp : Plain e rx (v :: 0xE6 :: t)) (h : processMessage e rx c = .ok true c') :
    ∃ m req sum opaq context rspId th1 mac s,
      PskExchangeValid e c (v :: 0xE6 :: t) m req sum opaq context rspId ∧
      let body := pskExchangeRspBody c.neg.version.get c.config.heartbeat rspId context sum opaq
      let transcript := c.rt.messageA ++ req ++ body
      e.crypto.hash c.neg.baseHash transcript = some th1 ∧
      e.crypto.hmac c.neg.baseHash s.hs.rspFinished th1 = some mac ∧
      SentOne e (outgoing c (body ++ mac)) c c' ∧
      c'.session? (joinId rspId m.reqSession) = some s ∧
      s.th = some ⟨c.neg.baseHash, transcript ++ mac⟩ ∧
      PskHandshakeKeys e.crypto c.neg.version c.neg.baseHash c.neg.aead m.hint th1 s ∧
      PskPhase e.crypto c.neg.version c.neg.baseHash c.neg.aead c.cc.pskNoContext m.hint (transcript ++ mac) s := by
  obtain ⟨hlen, htab⟩ := hr.table hn
  obtain ⟨b, c1, pkt, hx, hpkt, rfl⟩ := plain_exchanged (x := pskExchangeRsp e (v :: 0xE6 :: t)) (r := 0x66) hp rfl (post_pskExchangeRsp _) (by decide) h
  obtain ⟨m, req, sum, opaq, context, rspId, s1, c2, slot, hv, g3, g4, g5, g6⟩ := pskExchangeRsp_ok htab (by omega) hx
  obtain ⟨f1, f6, f10⟩ := pskCtx_fields c m
  obtain ⟨l', rfl⟩ := g4
  have hctx : c.cc.pskNoContext = true → context = [] := by
    intro hc
    have := hv.context
    unfold PskContextIs at this
    rw [if_pos hc] at this
    exact this.2
  obtain ⟨th1, mac, s2, s', k1, k2, k3, rfl, k5, k6, l, hl⟩ := pskExchangeBody_ok g5 (by rw [g3]; rfl) hctx g6
  have hsum : optWire (wantsSummary m.summary) sum = sum := by
    have := hv.summary
    unfold SummaryIs at this
    cases hw : wantsSummary m.summary
    · rw [hw] at this; simp at this; rw [this]; rfl
    · rfl
  generalize hbd : pskExchangeRspBody _ _ _ _ _ _ = body at *
  have hbody : pskExchangeRspBody c.neg.version.get c.config.heartbeat rspId context sum opaq = body := by
    rw [← hbd, ← f6]
    exact congrArg (fun x => pskExchangeRspBody _ _ _ _ x _) hsum.symm
  have hpre : s1.messageA ++ s1.rspCertHash.getD [] = c.rt.messageA := by
    rw [g3]
    show (pskCtx c m).rt.messageA ++ [] = _
    rw [f1, List.append_nil]
  have hhash : s1.hash = c.neg.baseHash := by rw [g3]; rfl
  rw [hpre, hhash] at k1 k2 k5
  rw [hhash] at k3
  rw [g3] at k2
  obtain ⟨d1, d2⟩ := pskHandshake_of (c := pskCtx c m) k2
  obtain ⟨p1, p2, p3⟩ := pskPhase_of (hint := m.hint) rfl (by rw [d2]; rfl) (by rw [d2]; rfl) (by rw [d2]; rfl) (by rw [d2]; rfl) (by rw [d2]; rfl) k5
  refine ⟨m, req, sum, opaq, context, rspId, th1, mac, s', hv, ?_⟩
  dsimp only
  rw [hbody]
  refine ⟨k1, by rw [p2]; exact k3, ⟨pkt, ?_, ?_⟩, k6, p3, ?_, p1⟩
  · rw [← hpkt, hl]
    rfl
  · rw [hl]
    show (pskCtx c m).sent ++ [pkt] = _
    rw [f10]
  · unfold PskHandshakeKeys at d1 ⊢
    rw [p2]
    exact d1

/-! ### concrete cases -/

/-- was the packet answered, what was sent, and the phases of the sessions. -/
def answerTo (e : Env) (c : Ctx) (rx : Bytes) : Option (Bool × Option Bytes × List SessState) :=
  match processMessage e rx c with
  | .ok b c' => some (b, c'.sent.getLast?, c'.sessions.map (·.state))
  | _ => none

/-- the toy responder with the capabilities `caps`. -/
def toyWith (caps : UInt32) : Ctx := Ctx.new { Toy.cfg with rspCaps := caps } { chainData := fun i => if i = 0 then some [1, 2, 3, 4, 5, 6, 7, 8] else none } 2

/-- after the packets `l` -/
def toyWithRun (caps : UInt32) (l : List Bytes) : Ctx := (Toy.runAll Toy.env (toyWith caps) l).getD (toyWith caps)

theorem toyWith_reachable (caps : UInt32) (l : List Bytes) (h : (Toy.runAll Toy.env (toyWith caps) l).isSome = true) : Reachable 2 (toyWithRun caps l) := by
  obtain ⟨c, hc⟩ := Option.isSome_iff_exists.1 h
  unfold toyWithRun
  rw [hc]
  exact ⟨_, _, _, runAll_run l Run.nil hc, by simp; intro _ _; exact toy_hashLaw⟩

/-- a requester with HANDSHAKE_IN_THE_CLEAR -/
def capabilitiesClear : Bytes := [5, 0x12, 0xE1, 0, 0, 0, 20, 0, 0, 0xC6, 0xF7, 0, 0, 0, 0x10, 0, 0, 0, 0x10, 0, 0]
/-- PSK_EXCHANGE with the hint [1,2,3] and an 8-byte context -/
def pskExchange : Bytes := [5, 0x12, 0xE6, 0, 0, 7, 0, 3, 0, 8, 0, 16, 0, 1, 2, 3] ++ List.replicate 8 0x44 ++ Opaque.reqListFmt1

/-- The hypotheses of `C52_key_exchange_partial` are met. -/
example : Plain Toy.env Toy.keyExchange (Toy.keyExchange.drop 1) ∧ Reachable 2 (toyRun [Toy.version, Toy.capabilities, Toy.algorithms]) ∧
    (toyRun [Toy.version, Toy.capabilities, Toy.algorithms]).cc.inClear = false ∧
    ((answerTo Toy.env (toyRun [Toy.version, Toy.capabilities, Toy.algorithms]) Toy.keyExchange).map fun r => (r.1, r.2.2)) = some (true, [.handshaking, .notStarted]) :=
  ⟨by unfold Plain; decide +kernel, toyRun_reachable _ (by decide +kernel), by decide +kernel, by decide +kernel⟩

/-- The hypotheses of `C52_in_clear_violated` are met, and this is what is sent: 64 bytes 0xbb where the signature belongs. -/
example : Reachable 2 (toyWithRun 0x82F6 [Toy.version, capabilitiesClear, Toy.algorithms]) ∧
    (toyWithRun 0x82F6 [Toy.version, capabilitiesClear, Toy.algorithms]).cc.inClear = true ∧
    ((answerTo Toy.env (toyWithRun 0x82F6 [Toy.version, capabilitiesClear, Toy.algorithms]) Toy.keyExchange).map fun r => (r.1, r.2.1.map fun b => b.drop (b.length - 64))) =
      some (true, some (List.replicate 64 0xbb)) :=
  ⟨toyWith_reachable _ _ (by decide +kernel), by decide +kernel, by decide +kernel⟩

/-- The hypotheses of `C52_psk_exchange` are met, with and without responder context. -/
example : Plain Toy.env pskExchange (pskExchange.drop 1) ∧
    ((answerTo Toy.env (toyWithRun 0x8F6 [Toy.version, Toy.capabilities, Toy.algorithms]) pskExchange).map fun r => (r.1, r.2.2)) = some (true, [.handshaking, .notStarted]) ∧
    ((answerTo Toy.env (toyWithRun 0x4F6 [Toy.version, Toy.capabilities, Toy.algorithms]) pskExchange).map fun r => (r.1, r.2.2)) = some (true, [.established, .notStarted]) :=
  ⟨by unfold Plain; decide +kernel, by decide +kernel, by decide +kernel⟩

end Verif.Props
