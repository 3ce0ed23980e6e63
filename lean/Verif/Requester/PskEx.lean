/-
PSK_EXCHANGE at the requester: what success means.
-/
import Verif.Requester.KeyEx

namespace Verif
namespace Req
open Rsp

variable {e : REnv}

/-- PSK_EXCHANGE_RSP up to the verify data, as received; `p` and `q` are reserved. -/
def pskHeard (v p : UInt8) (q : UInt16) (m : PskExRsp) : Bytes :=
  v :: 0x66 :: ([m.heartbeat] ++ [p] ++ putU16 m.rspSession ++ putU16 q ++ putU16 (UInt16.ofNat m.context.length) ++ putU16 (UInt16.ofNat m.opaq.length) ++ m.summary ++ m.context ++ m.opaq)

theorem PskExRsp.read_body {c : Cc} {r r' : Reader} {m : PskExRsp} (h : PskExRsp.read c r = .ok m r') :
    c.DigestOk m.verify ∧ (c.pskNoContext = true ↔ m.context = []) ∧ ∃ p q, r.After (([m.heartbeat] ++ [p] ++ putU16 m.rspSession ++ putU16 q ++ putU16 (UInt16.ofNat m.context.length) ++
      putU16 (UInt16.ofNat m.opaq.length) ++ m.summary ++ m.context ++ m.opaq) ++ m.verify) r' := by
  simp only [PskExRsp.read, Rd.none, M.bind_ok, M.guard_ok, M.pure_ok, rdU8_ok, rdU16_ok, rdBytes_ok, rdDigest_ok] at h
  obtain ⟨_, _, h1, p, _, h2, _, _, h3, q, _, h4, cl, _, h5, g1, g2, ol, _, h6, g3, s, _, h7, b, _, ⟨h8, h8'⟩, d, _,
    ⟨h9, h9'⟩, v, _, ⟨h10, h10'⟩, rfl, rfl⟩ := h
  obtain ⟨h7, h7'⟩ := rdOptDigest_ok h7
  have hcl : UInt16.ofNat b.length = cl := by rw [h8]; simp
  have hol : UInt16.ofNat d.length = ol := by rw [h9]; simp
  refine ⟨h10, ?_, p, q, ?_⟩
  · have g1 : ¬ ((c.pskNoContext = true ∧ cl ≠ 0) ∨ (¬ c.pskNoContext = true ∧ cl = 0)) := g1
    have : b = [] ↔ cl = 0 := by
      rw [← List.length_eq_zero_iff, h8]
      constructor
      · intro h; exact UInt16.toNat_inj.1 (by simpa using h)
      · intro h; rw [h]; rfl
    show _ ↔ b = []
    rw [this]
    grind
  · show r.After (_ ++ _ ++ _ ++ _ ++ putU16 (UInt16.ofNat b.length) ++ putU16 (UInt16.ofNat d.length) ++ _ ++ b ++ d ++ v) _
    rw [hcl, hol]
    exact ((((((((h1.trans h2).trans h3).trans h4).trans h5).trans h6).trans h7').trans h8').trans h9').trans h10'

/-- data keys from TH2, and the application phase. -/
theorem establish_ok {sid : UInt32} {c c' : Ctx} {u : Unit} {s : Session} {x : HashCtx} (hs : c.session? sid = some s) (hx : s.th = some x) (h : establish e sid c = .ok u c') :
    ∃ th2 s1, e.crypto.hash x.algo x.data = some th2 ∧ Session.genData e.crypto c.neg.version th2 s = .ok () s1 ∧
      c'.session? sid = some { s1 with state := .established } ∧ Tables c c' := by
  unfold establish at h
  have hid := session?_id hs
  obtain ⟨th2, c1, h1, z1⟩ := M.bind_ok.1 h
  obtain ⟨rfl, hd⟩ := thOf_eq hs hx h1
  obtain ⟨c0, c2, h2, z2⟩ := M.bind_ok.1 z1
  cases h2
  obtain ⟨_, c3, h3, z3⟩ := M.bind_ok.1 z2
  obtain ⟨s1, hg, rfl⟩ := onSession_ok hs h3
  have hid1 : s1.id = sid := by
    obtain ⟨_, _, _, _, _, _, _, _, _, _, rfl⟩ := Session.genData_ok.1 hg
    exact hid
  have p1 := session?_const hs hid1
  obtain ⟨s2, hm, rfl⟩ := onSession_ok p1 z3
  rw [M.modify_apply] at hm
  injection hm with _ hm
  subst hm
  exact ⟨th2, s1, hd, hg, session?_const p1 hid1, ⟨_, rfl⟩⟩

/-- the session after PSK_EXCHANGE: in the handshake, or established when there is no responder context. -/
def PskDone (e : REnv) (c : Ctx) (version hb : UInt8) (s s' : Session) : Prop :=
  if c.cc.pskNoContext then ∃ x th2 s2, s.th = some x ∧ e.crypto.hash x.algo x.data = some th2 ∧
      Session.genData e.crypto c.neg.version th2 { s with state := .handshaking } = .ok () s2 ∧
      s' = { s2 with state := .established, secureVersion := version, heartbeat := hb }
    else s' = started version hb s

theorem pskExchangeBody_ok {version : UInt8} {m : PskExRsp} {req rsp pre : Bytes} {sid out : UInt32} {c c' : Ctx} {s : Session}
    (hs : c.session? sid = some s) (hth : s.th = none) (hrsp : rsp = pre ++ m.verify) (hmac : c.cc.DigestOk m.verify)
    (h : pskExchangeBody e m req rsp sid version c = .ok out c') :
    out = sid ∧ ∃ th1 s1 s',
      let tr := s.messageA ++ s.rspCertHash.getD [] ++ req ++ pre
      e.crypto.hash s.hash tr = some th1 ∧
      Session.genHandshake e.crypto c.neg.version th1 { s with th := some ⟨s.hash, tr⟩ } = .ok () s1 ∧
      e.crypto.hmacVerify s.hash s1.hs.rspFinished th1 m.verify = true ∧
      PskDone e c version m.heartbeat { s1 with th := some ⟨s.hash, tr ++ m.verify⟩ } s' ∧
      c'.session? sid = some s' ∧ Tables c c' := by
  unfold pskExchangeBody at h
  have hid := session?_id hs
  obtain ⟨c0, c1, h0, z0⟩ := M.bind_ok.1 h
  cases h0
  obtain ⟨hsz, c4, h4, z4⟩ := M.bind_ok.1 z0
  obtain ⟨hhs, rfl⟩ := unwrap_ok.1 h4
  obtain ⟨body, c5, h5, z5⟩ := M.bind_ok.1 z4
  obtain ⟨h5', rfl⟩ := liftOk.1 h5
  have hpre : body = pre := by
    have : Rsp.dropTail hsz rsp = .ok pre := by
      rw [hrsp]
      refine dropTail_append ?_
      unfold Cc.DigestOk at hmac; rw [hhs] at hmac; simpa using hmac.symm
    rw [this] at h5'
    exact (Res.ok.inj h5').symm
  subst hpre
  obtain ⟨_, c7, h7, z7⟩ := M.bind_ok.1 z5
  obtain ⟨_, k1, k2, k3⟩ := addK_ok (appendK_ok h7)
  rw [hs] at k1; cases k1
  simp only [hth, Option.getD_none] at k2
  obtain ⟨_, c8, h8, z8⟩ := M.bind_ok.1 z7
  obtain ⟨_, l1, l2, l3⟩ := addK_ok (appendK_ok h8)
  rw [k2] at l1; cases l1
  simp only [Option.getD_some] at l2
  have t8 := k3.trans l3
  obtain ⟨th1, c11, h11, z11⟩ := M.bind_ok.1 z8
  obtain ⟨rfl, hth1⟩ := thOf_eq l2 rfl h11
  obtain ⟨_, c12, h12', z12⟩ := M.bind_ok.1 z11
  obtain ⟨s1, hgen, rfl⟩ := onSession_ok l2 h12'
  have hid1 : s1.id = sid := by
    have := ((Session.keep_genHandshake _ _ _).ok hgen).1
    rw [this]; exact hid
  have p1 := session?_const l2 hid1
  have t12 : Tables c5 (c11.updSession sid fun _ => s1) := t8.trans ⟨_, rfl⟩
  have hth_s1 : s1.th = some ⟨(thStart s).algo, (thStart s).data ++ req ++ body⟩ := by
    obtain ⟨_, _, _, _, _, _, _, _, _, _, _, _, rfl⟩ := Session.genHandshake_ok.1 hgen
    rfl
  have hh1 : s1.hash = s.hash := by
    obtain ⟨_, _, _, _, _, _, _, _, _, _, _, _, rfl⟩ := Session.genHandshake_ok.1 hgen
    rfl
  generalize hc12 : (c11.updSession sid fun _ => s1) = c12 at *
  obtain ⟨_, c13, h13, z13⟩ := M.bind_ok.1 z12
  obtain ⟨th, q1, q2, q3, q4⟩ := responseCheck_ok p1 hth_s1 h13
  have : th = th1 := Option.some.inj (q1.symm.trans hth1)
  subst this
  obtain ⟨_, c14, h14, z14⟩ := M.bind_ok.1 z13
  obtain ⟨s2, hmod, rfl⟩ := onSession_ok q3 h14
  rw [M.modify_apply] at hmod
  injection hmod with _ hmod
  generalize htrs : (⟨(thStart s).algo, (thStart s).data ++ req ++ body ++ m.verify⟩ : HashCtx) = X at *
  have hX : X = ⟨s.hash, s.messageA ++ s.rspCertHash.getD [] ++ req ++ body ++ m.verify⟩ := by rw [← htrs]; simp [thStart]
  have r1 := session?_const (s' := s2) q3 (by rw [← hmod]; exact hid1)
  obtain ⟨_, c15, h15, z15⟩ := M.bind_ok.1 z14
  obtain ⟨_, c16, h16, z16⟩ := M.bind_ok.1 z15
  cases z16
  have t13 := t12.trans q4
  refine ⟨rfl, th, s1, ?_⟩
  refine (fun w => ?_ : (∃ s', PskDone e c5 version m.heartbeat { s1 with th := some X } s' ∧ c'.session? sid = some s' ∧ Tables c5 c') → _) ?_
  · obtain ⟨s', w1, w2, w3⟩ := w
    rw [hX] at w1
    exact ⟨s', by simpa [thStart] using hth1, by simpa [thStart] using hgen, by rw [← hh1]; exact q2, w1, w2, w3⟩
  unfold PskDone
  cases hnc : c5.cc.pskNoContext with
  | true =>
    rw [hnc] at h15
    simp only [pskEstablish, if_true] at h15
    have hth2 : s2.th = some X := by rw [← hmod]
    obtain ⟨th2, s3, e1, e2, e3, e4⟩ := establish_ok r1 hth2 h15
    obtain ⟨s4, hm4, rfl⟩ := onSession_ok e3 h16
    rw [M.modify_apply] at hm4
    injection hm4 with _ hm4
    have hid3 : s3.id = sid := session?_id (s := { s3 with state := .established }) e3
    refine ⟨{ s3 with state := .established, secureVersion := version, heartbeat := m.heartbeat }, ?_, ?_, ?_⟩
    · rw [if_pos rfl]
      refine ⟨X, th2, s3, rfl, e1, ?_, rfl⟩
      have hv : (c13.updSession sid fun _ => s2).neg = c5.neg := t13.neg
      rw [hv] at e2
      rw [← hmod] at e2
      exact e2
    · subst hm4
      exact session?_const e3 hid3
    · exact (t13.trans ⟨_, rfl⟩).trans (e4.trans ⟨_, rfl⟩)
  | false =>
    rw [hnc] at h15
    simp only [pskEstablish, Bool.false_eq_true, if_false, M.pure_apply] at h15
    injection h15 with _ h15
    subst h15
    obtain ⟨s4, hm4, rfl⟩ := onSession_ok r1 h16
    rw [M.modify_apply] at hm4
    injection hm4 with _ hm4
    refine ⟨started version m.heartbeat { s1 with th := some X }, by rw [if_neg (by simp)], ?_, (t13.trans ⟨_, rfl⟩).trans ⟨_, rfl⟩⟩
    have : s4 = started version m.heartbeat { s1 with th := some X } := by rw [← hm4, ← hmod]; rfl
    rw [this]
    exact session?_const r1 hid1

theorem openPsk_ok {c : Ctx} {sid : UInt32} {hint : Bytes} {s0 s1 : Session} {u : Unit} (h : openPsk e c sid hint s0 = .ok u s1) :
    s1 = pskOpened e.toEnv c sid hint s0.slotId := by
  unfold openPsk at h
  obtain ⟨_, s2, h1, z1⟩ := M.bind_ok.1 h
  unfold Session.setup at h1
  simp only [M.bind_apply, M.get_apply] at h1
  split at h1
  · rw [M.set_apply] at h1
    injection h1 with _ h1
    rw [M.modify_apply] at z1
    injection z1 with _ z1
    subst h1
    exact z1.symm
  · cases h1

/-- PSK_EXCHANGE. -/
def pskExAsk (c : Ctx) (t : SummaryHashType) (reqId : UInt16) (hint context opaq : Bytes) : Bytes :=
  c.neg.version.get :: 0xE6 :: PskEx.wire ⟨t, reqId, hint, context, opaq⟩

/-- A successful PSK_EXCHANGE. -/
theorem pskExchange_ok {hint : Bytes} {t : SummaryHashType} {c c' : Ctx} {sid : UInt32} (ht : ReqTable 0 c.sessions) (hn : c.sessions.length < 0xFFFD)
    (h : pskExchange e t hint c = .ok sid c') :
    ∃ (reqId : UInt16) (context opaq : Bytes) (hsz : Nat) (pkt bytes rest : Bytes) (p : UInt8) (q : UInt16) (m : PskExRsp) (version : UInt8) (th1 : Bytes) (s0 s1 s' : Session),
      Ctx.nextHalf true 0 c.sessions = some reqId ∧ Ctx.random e.toEnv 64 = some context ∧ BaseHash.size? c.neg.baseHash = some hsz ∧ opaqueRequest c = some opaq ∧
      Said e none (Ctx.resetBuffers .reqPskExchange none c) (pskExAsk c t reqId hint (context.take hsz) opaq) bytes (withSent pkt (Ctx.resetBuffers .reqPskExchange none c)) ∧
      bytes = pskHeard c.neg.version.get p q m ++ m.verify ++ rest ∧ Took c.neg bytes (pskHeard c.neg.version.get p q m ++ m.verify) ∧
      sid = joinId m.rspSession reqId ∧
      (secureVersion c m.opaq = .ok version ∧ ∃ tl r', bytes = c.neg.version.get :: 0x66 :: tl ∧ PskExRsp.read ⟨c.neg, decide (t = .tcb ∨ t = .all), c.rt.needSig⟩ ⟨tl, 2⟩ = .ok m r') ∧ s0 = pskOpened e.toEnv c sid hint s0.slotId ∧
      (let tr := c.rt.messageA ++ pskExAsk c t reqId hint (context.take hsz) opaq ++ pskHeard c.neg.version.get p q m
      e.crypto.hash c.neg.baseHash tr = some th1 ∧
      Session.genHandshake e.crypto c.neg.version th1 { s0 with th := some ⟨c.neg.baseHash, tr⟩ } = .ok () s1 ∧
      e.crypto.hmacVerify c.neg.baseHash s1.hs.rspFinished th1 m.verify = true ∧
      PskDone e c version m.heartbeat { s1 with th := some ⟨c.neg.baseHash, tr ++ m.verify⟩ } s' ∧ c'.session? sid = some s') ∧
      ∃ l, c' = { c with sessions := l, sent := c.sent ++ [pkt], rt := { c.rt with l1l2 := none, m1m2 := (if c.rt.state.code < 5 then none else c.rt.m1m2), needSummary := decide (t = .tcb ∨ t = .all) } } := by
  unfold pskExchange at h
  obtain ⟨_, c1, h1, z1⟩ := M.bind_ok.1 h
  rw [M.modify_apply] at h1
  injection h1 with _ h1
  obtain ⟨c0, c2, h2, z2⟩ := M.bind_ok.1 z1
  cases h2
  obtain ⟨reqId, c3, h3, z3⟩ := M.bind_ok.1 z2
  obtain ⟨h3', rfl⟩ := liftOk.1 h3
  have hnext := Res.ofOption_ok.1 h3'
  obtain ⟨context, c4, h4, z4⟩ := M.bind_ok.1 z3
  obtain ⟨hrnd, rfl⟩ := ofOption_ok.1 h4
  obtain ⟨opaq, c5, h5, z5⟩ := M.bind_ok.1 z4
  obtain ⟨hop, rfl⟩ := ofOption_ok.1 h5
  obtain ⟨hsz, c6, h6, z6⟩ := M.bind_ok.1 z5
  obtain ⟨hhs, rfl⟩ := unwrap_ok.1 h6
  obtain ⟨req, c7, h7, z7⟩ := M.bind_ok.1 z6
  obtain ⟨rfl, rfl⟩ := encodeReq_ok (p := .pskEx _) (PskEx.encode_writes _) h7
  obtain ⟨bytes, c8, h8, z8⟩ := M.bind_ok.1 z7
  have hneg : c7.neg = c.neg := by rw [← h1, reset_keyEx _ (.inr rfl)]
  have hcc : c7.cc = c.cc := by rw [← h1, reset_keyEx _ (.inr rfl)]; rfl
  have hreq : c7.neg.version.get :: ReqRespCode.reqPskExchange.get :: PskEx.wire ⟨t, reqId, hint, context.take hsz, opaq⟩ =
      pskExAsk c t reqId hint (context.take hsz) opaq := by rw [hneg]; rfl
  rw [hreq] at h8 z8
  generalize hask : pskExAsk c t reqId hint (context.take hsz) opaq = req at *
  have hsaid := transact_ok h8
  obtain ⟨pkt, pp, k1, k2, k3, rfl⟩ := id hsaid
  unfold handlePskExchange at z8
  obtain ⟨_, c9, h9, z9⟩ := M.bind_ok.1 z8
  rw [M.modify_apply] at h9
  injection h9 with _ h9
  obtain ⟨r, c10, h10, z10⟩ := M.bind_ok.1 z9
  obtain ⟨rfl, v, tl, rfl, hv, rfl⟩ := expect_ok h10
  obtain ⟨⟨m, rsp⟩, c11, h11, z11⟩ := M.bind_ok.1 z10
  obtain ⟨rfl, r', h13, rfl⟩ := readMsg_ok' h11
  obtain ⟨c12, c13, h12, z12⟩ := M.bind_ok.1 z11
  cases h12
  obtain ⟨version, c15, h15, z15⟩ := M.bind_ok.1 z12
  obtain ⟨hsv, rfl⟩ := liftOk.1 h15
  obtain ⟨_, c18, h18, z18⟩ := M.bind_ok.1 z15
  obtain ⟨sf, s0, hs0, ho, rfl⟩ := onSession_free h18
  have hs0e := openPsk_ok ho
  have hneg9 : c15.neg = c.neg := by rw [← h9]; exact hneg
  have hc17 : c15 = wantSummary t (withSent pkt (Ctx.resetBuffers .reqPskExchange none c)) := by rw [← h9, ← h1]
  rw [reset_keyEx _ (.inr rfl)] at hc17
  have hsess : c15.sessions = c.sessions := by rw [hc17]; rfl
  have hmsgA : c15.rt.messageA = c.rt.messageA := by rw [hc17]; rfl
  have hid0 : s0.id = joinId m.rspSession reqId := by rw [hs0e]; rfl
  have hnext' : Ctx.nextHalf true 0 c.sessions = some reqId := by
    rw [← hnext, ← h1, reset_keyEx _ (.inr rfl)]
  have hfind : (c15.updSession 0 fun _ => s0).session? (joinId m.rspSession reqId) = some s0 := by
    unfold Ctx.session? Ctx.updSession
    rw [hsess]
    exact find_opened_req ht (by omega) hnext' hid0
  obtain ⟨b1, b2, p, q, b3⟩ := PskExRsp.read_body h13
  obtain ⟨m1, m2⟩ := After.message (v := v) (k := 0x66) b3
  have hvb : v = c.neg.version.get := by rw [← hneg9]; exact version_byte hv
  subst hvb
  have hrsp : (c.neg.version.get :: ReqRespCode.rspPskExchangeRsp.get :: tl).take r'.used = pskHeard c.neg.version.get p q m ++ m.verify := by
    refine m1.trans ?_
    simp [pskHeard]
  have hs0f : s0.th = none ∧ s0.messageA = c.rt.messageA ∧ s0.rspCertHash = none ∧ s0.hash = c.neg.baseHash := by
    rw [hs0e]; exact ⟨rfl, hmsgA, rfl, by show c15.neg.baseHash = _; rw [hneg9]⟩
  obtain ⟨g0, th1, s1, s', g1, g6, g7, g8, g9, g10⟩ := pskExchangeBody_ok (pre := pskHeard c.neg.version.get p q m) hfind hs0f.1 hrsp b1 z18
  subst g0
  have hnx : (c15.updSession 0 fun _ => s0).neg = c.neg := hneg9
  have htr : s0.messageA ++ s0.rspCertHash.getD [] ++ req = c.rt.messageA ++ pskExAsk c t reqId hint (context.take hsz) opaq := by
    rw [hs0f.2.1, hs0f.2.2.1, hask]; simp
  rw [htr] at g1 g6 g8
  generalize htrs : c.rt.messageA ++ pskExAsk c t reqId hint (context.take hsz) opaq ++ pskHeard c.neg.version.get p q m = tr at *
  have hh : ∀ x, (⟨s0.hash, x⟩ : HashCtx) = ⟨c.neg.baseHash, x⟩ := fun x => by rw [hs0f.2.2.2]
  rw [hh] at g6 g8
  rw [hs0f.2.2.2] at g1 g7
  rw [hnx] at g6
  refine ⟨reqId, context, opaq, hsz, pkt, c.neg.version.get :: ReqRespCode.rspPskExchangeRsp.get :: tl, r'.rest, p, q, m, version, th1, s0, s1, s', hnext', hrnd, ?_, ?_, ?_, ?_, ?_, rfl,
    ?_, ?_, ?_, ?_⟩
  · show Cc.hashSize? c.cc = _
    rw [← hcc]; exact hhs
  · rw [← hop]; unfold opaqueRequest; rw [hcc, hneg]
  · rw [hask, h1]; exact hsaid
  · rw [m2]; simp [pskHeard, ReqRespCode.get]
  · have := took_of (c := c15) (f := .pskExRsp) (k := 0x66) (neg := c.neg) (fun _ => rfl) hneg9 hv h13
    rw [hrsp.symm]; exact this
  · refine ⟨by rw [← hsv]; exact secureVersion_congr hneg9.symm, tl, r', rfl, ?_⟩
    rw [← h13, hc17]; rfl
  · refine hs0e.trans ?_
    rw [hs0e]
    unfold pskOpened
    rw [hneg9, hmsgA]
  · dsimp only
    rw [htrs]
    refine ⟨g1, g6, g7, ?_, g9⟩
    have hpn : (c15.updSession 0 fun _ => s0).cc.pskNoContext = c.cc.pskNoContext := by
      show Cc.pskNoContext ⟨c15.neg, _, _⟩ = Cc.pskNoContext ⟨c.neg, _, _⟩
      rw [hneg9]; rfl
    unfold PskDone at g8 ⊢
    rw [hpn, hnx] at g8
    exact g8
  · obtain ⟨l, rfl⟩ := g10
    refine ⟨l, ?_⟩
    rw [hc17]
    rfl

end Req
end Verif
