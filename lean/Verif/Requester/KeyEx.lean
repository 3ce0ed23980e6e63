/-
KEY_EXCHANGE and PSK_EXCHANGE at the requester: what success means.
-/
import Verif.Requester.Frame

namespace Verif
namespace Req
open Rsp

variable {e : REnv}

/-! ### The session table of a requester -/

theorem half_join_req (r q : UInt16) : Ctx.half true (joinId r q) = q := by
  apply UInt16.toNat_inj.1
  unfold Ctx.half joinId
  simp only [if_true, UInt32.toNat_toUInt16, UInt32.toNat_add, UInt32.toNat_shiftLeft, UInt16.toNat_toUInt32]
  have hr := r.toNat_lt
  have hq := q.toNat_lt
  have : (16 : UInt32).toNat % 32 = 16 := by decide
  rw [this]
  simp only [Nat.shiftLeft_eq]
  omega

/-- every slot is free or its id has the requester half that belongs to its position. -/
def ReqTable : Nat → List Session → Prop
  | _, [] => True
  | i, s :: l => (s.id = 0 ∨ Ctx.half true s.id = 0xFFFD - UInt16.ofNat i) ∧ ReqTable (i + 1) l

theorem half_true_zero : Ctx.half true 0 = 0 := by decide

theorem ReqTable.free {l : List Session} {i : Nat} (hl : i + l.length < 0xFFFD) {s : Session} (h : ReqTable i (s :: l)) : Ctx.half true s.id = 0 ↔ s.id = 0 := by
  constructor
  · intro h0
    rcases h.1 with h | h
    · exact h
    · rw [h0] at h; exact absurd h.symm (own_ne_zero (by omega))
  · intro h; rw [h]; exact half_true_zero

theorem nextHalf_req {l : List Session} {i : Nat} {r : UInt16} (hn : Ctx.nextHalf true i l = some r) :
    ∃ j, j < l.length ∧ r = 0xFFFD - UInt16.ofNat (i + j) := by
  induction l generalizing i with
  | nil => simp [Ctx.nextHalf] at hn
  | cons a l ih =>
    unfold Ctx.nextHalf at hn
    split at hn
    · exact ⟨0, by simp, (Option.some.inj hn).symm⟩
    · obtain ⟨j, h1, h2⟩ := ih hn
      exact ⟨j + 1, by simp; omega, by rw [h2]; congr 2; omega⟩

theorem reqHalf_ne_zero {l : List Session} {i : Nat} (hl : i + l.length < 0xFFFD) {q : UInt16} (hn : Ctx.nextHalf true i l = some q) : q ≠ 0 := by
  obtain ⟨j, h1, rfl⟩ := nextHalf_req hn
  exact own_ne_zero (by omega)

theorem joinId_req_ne {r q : UInt16} (h : q ≠ 0) : joinId r q ≠ 0 := by
  intro hc
  have := half_join_req r q
  rw [hc, half_true_zero] at this
  exact h this.symm

/-- the session just opened is found under its id. -/
theorem find_opened_req {l : List Session} {i : Nat} (h : ReqTable i l) (hl : i + l.length < 0xFFFD) {r q : UInt16} {s1 : Session}
    (hn : Ctx.nextHalf true i l = some q) (h1 : s1.id = joinId r q) :
    (Ctx.updFirst (·.id = 0) (fun _ => s1) l).find? (·.id = joinId r q) = some s1 := by
  induction l generalizing i with
  | nil => simp [Ctx.nextHalf] at hn
  | cons a l ih =>
    have hi : i < 0xFFFD := by simp at hl; omega
    unfold Ctx.nextHalf at hn
    unfold Ctx.updFirst
    by_cases hz : Ctx.half true a.id = 0
    · have : a.id = 0 := (h.free (by simp at hl; omega)).1 hz
      simp [this, h1]
    · rw [if_neg hz] at hn
      have hne : a.id ≠ 0 := fun h0 => hz (by rw [h0]; exact half_true_zero)
      have hid : a.id ≠ joinId r q := by
        intro hc
        obtain ⟨j', hj', hr'⟩ := nextHalf_req hn
        rcases h.1 with g | g
        · exact hne g
        · rw [hc, half_join_req, hr'] at g
          have := ownHalf_inj (by simp at hl; omega) hi g
          omega
      simp only [hne, decide_false, Bool.false_eq_true, if_false]
      rw [List.find?_cons_of_neg (by simpa using hid)]
      exact ih h.2 (by simp at hl; omega) hn

theorem ReqTable.touch {sid : Option UInt32} {l l' : List Session} {i : Nat} (h : ReqTable i l) (hk : All2 (Touch sid) l l') : ReqTable i l' := by
  induction hk generalizing i with
  | nil => trivial
  | cons a _ ih =>
    refine ⟨?_, ih h.2⟩
    rcases a with rfl | ⟨_, h1 | h1⟩
    · exact h.1
    · rw [h1]; exact h.1
    · exact .inl h1

theorem ReqTable.opened {l : List Session} {i : Nat} (h : ReqTable i l) {r q : UInt16} {s1 : Session} (hl : i + l.length < 0xFFFD)
    (hn : Ctx.nextHalf true i l = some q) (h1 : s1.id = joinId r q ∨ s1.id = 0) : ReqTable i (Ctx.updFirst (·.id = 0) (fun _ => s1) l) := by
  induction l generalizing i with
  | nil => trivial
  | cons a l ih =>
    unfold Ctx.nextHalf at hn
    unfold Ctx.updFirst
    by_cases hz : Ctx.half true a.id = 0
    · rw [if_pos hz] at hn
      have hn := Option.some.inj hn
      have : a.id = 0 := (h.free (by simp at hl; omega)).1 hz
      simp only [this, decide_true, if_true]
      refine ⟨?_, h.2⟩
      rcases h1 with h1 | h1
      · right; rw [h1, half_join_req, hn]
      · exact .inl h1
    · rw [if_neg hz] at hn
      have : a.id ≠ 0 := fun h0 => hz (by rw [h0]; exact half_true_zero)
      simp only [this, decide_false]
      exact ⟨h.1, ih h.2 (by simp at hl; omega) hn⟩

/-! ### KEY_EXCHANGE_RSP -/

/-- KEY_EXCHANGE_RSP up to the signature, as received; `p` is the reserved byte. -/
def keyExHeard (v p : UInt8) (m : KeyExRsp) : Bytes :=
  v :: 0x64 :: ([m.heartbeat] ++ [p] ++ putU16 m.rspSession ++ [m.mutAuth] ++ [m.reqSlot] ++ m.random ++ m.exchange ++ m.summary ++ opaqueWire m.opaq)

theorem KeyExRsp.read_body {c : Cc} {r r' : Reader} {m : KeyExRsp} (h : KeyExRsp.read c r = .ok m r') :
    c.SigOk m.signature ∧ OptOk (!c.inClear) c.DigestOk m.verify ∧ ∃ p, r.After (([m.heartbeat] ++ [p] ++ putU16 m.rspSession ++ [m.mutAuth] ++ [m.reqSlot] ++
      m.random ++ m.exchange ++ m.summary ++ opaqueWire m.opaq) ++ m.signature ++ m.verify) r' := by
  simp only [KeyExRsp.read, Rd.none, rdNonce, M.bind_ok, M.guard_ok, M.pure_ok, rdU8_ok, rdU16_ok, rdBytes_ok,
    rdDhe_ok, rdOpaque_ok, rdSignature_ok] at h
  obtain ⟨_, _, h1, p, _, h2, _, _, h3, ma, _, h4, _, _, _, h5, hm, _, _, ⟨h6, h6'⟩, _, _, ⟨h7, h7'⟩, _, _, h8, o, _, ⟨h9, h9'⟩,
    _, _, ⟨h10, h10'⟩, _, _, h11, rfl, rfl⟩ := h
  obtain ⟨h8, h8'⟩ := rdOptDigest_ok h8
  obtain ⟨h11, h11'⟩ := rdOptDigest_ok h11
  exact ⟨h10, h11, p, (((((((((h1.trans h2).trans h3).trans h4).trans h5).trans h6').trans h7').trans h8').trans h9').trans h10').trans h11'⟩

theorem transcriptHash_ok {s : Session} {d : Bytes} {x : HashCtx} (hx : s.th = some x) (h : Ctx.transcriptHash e.toEnv s = .ok d) :
    e.crypto.hash x.algo x.data = some d := by
  unfold Ctx.transcriptHash at h
  obtain ⟨y, h1, h2⟩ := Res.bind_ok.1 h
  rw [Res.ofOption_ok, hx] at h1
  cases h1
  exact Res.ofOption_ok.1 h2

theorem thOf_eq {sid : UInt32} {c c' : Ctx} {d : Bytes} {s : Session} {x : HashCtx} (hs : c.session? sid = some s) (hx : s.th = some x)
    (h : thOf e sid c = .ok d c') : c' = c ∧ e.crypto.hash x.algo x.data = some d := by
  obtain ⟨c0, c1, h0, h1⟩ := M.bind_ok.1 h
  cases h0
  obtain ⟨s', c2, h2, h3⟩ := M.bind_ok.1 h1
  obtain ⟨h4, rfl⟩ := unwrap_ok.1 h2
  rw [hs] at h4; cases h4
  obtain ⟨h5, rfl⟩ := liftOk.1 h3
  exact ⟨rfl, transcriptHash_ok hx h5⟩

theorem keyExchangeCheck_ok {sid : UInt32} {slot : UInt8} {sig : Bytes} {c c' : Ctx} {u : Unit} {s : Session} {x : HashCtx} (hs : c.session? sid = some s) (hx : s.th = some x)
    (h : keyExchangeCheck e sid slot sig c = .ok u c') : c' = c ∧ ∃ d certs, e.crypto.hash x.algo x.data = some d ∧ CertsOf c slot certs ∧ c.cc.ge12 = true ∧
      e.verify c.neg.baseHash c.neg.baseAsym certs (Spec.signedData .keyExchangeRsp d) sig = true := by
  simp only [keyExchangeCheck, M.bind_apply, M.get_apply] at h
  cases hv : keyExchangeVerify e sid slot sig c with
  | panic => simp [hv] at h
  | err st => simp [hv] at h
  | ok u =>
    simp only [hv, M.pure_apply] at h
    cases h
    refine ⟨rfl, ?_⟩
    unfold keyExchangeVerify at hv
    obtain ⟨s', h0, h1⟩ := Res.bind_ok.1 hv
    rw [Res.unwrap_ok, hs] at h0; cases h0
    obtain ⟨d, h3, h4⟩ := Res.bind_ok.1 h1
    obtain ⟨certs, h5, h6⟩ := Res.bind_ok.1 h4
    obtain ⟨m, h7, h8⟩ := Res.bind_ok.1 h6
    obtain ⟨g1, _, rfl⟩ := Props.C40_only_signed_data c.cc .keyExchangeRsp d m h7
    exact ⟨d, certs, transcriptHash_ok hx h3, peerCerts_ok h5, g1, verifyWith_ok h8⟩

theorem responseCheck_ok {sid : UInt32} {mac : Bytes} {c c' : Ctx} {u : Unit} {s : Session} {x : HashCtx} (hs : c.session? sid = some s) (hx : s.th = some x)
    (h : responseCheck e sid mac c = .ok u c') : ∃ d, e.crypto.hash x.algo x.data = some d ∧ e.crypto.hmacVerify s.hash s.hs.rspFinished d mac = true ∧
      c'.session? sid = some { s with th := some ⟨x.algo, x.data ++ mac⟩ } ∧ Tables c c' := by
  unfold responseCheck at h
  obtain ⟨d, c1, h1, h2⟩ := M.bind_ok.1 h
  obtain ⟨rfl, hd⟩ := thOf_eq hs hx h1
  obtain ⟨c0, c2, h3, h4⟩ := M.bind_ok.1 h2
  cases h3
  obtain ⟨s', c3, h5, h6⟩ := M.bind_ok.1 h4
  obtain ⟨h5, rfl⟩ := unwrap_ok.1 h5
  rw [hs] at h5; cases h5
  by_cases hv : Session.verifyRsp e.crypto s d mac = false
  · rw [if_pos hv] at h6
    unfold closeAnd at h6
    obtain ⟨_, _, _, h7⟩ := M.bind_ok.1 h6
    cases h7
  · rw [if_neg hv] at h6
    obtain ⟨res, c4, h7, h8⟩ := M.bind_ok.1 h6
    unfold M.try' at h7
    cases ha : Ctx.appendK e.toEnv sid mac c1 with
    | panic => rw [ha] at h7; cases h7
    | err st c5 =>
      rw [ha] at h7; cases h7
      dsimp only at h8
      unfold closeAnd at h8
      obtain ⟨_, _, _, h9⟩ := M.bind_ok.1 h8
      cases h9
    | ok w c5 =>
      rw [ha] at h7; cases h7
      dsimp only at h8
      cases h8
      obtain ⟨s2, k1, k2, k3⟩ := addK_ok (appendK_ok ha)
      rw [hs] at k1; cases k1
      rw [hx] at k2
      exact ⟨d, hd, by simpa [Session.verifyRsp] using hv, k2, k3⟩

/-- the handshake starts: version of the secured messages and heartbeat as announced. -/
def started (version : UInt8) (hb : UInt8) (s : Session) : Session := { s with secureVersion := version, heartbeat := hb, state := .handshaking }

theorem keyExchangeBody_ok {slot version : UInt8} {m : KeyExRsp} {req rsp pre : Bytes} {sid out : UInt32} {c c' : Ctx} {s : Session}
    (hs : c.session? sid = some s) (hth : s.th = none) (hrsp : rsp = pre ++ m.signature ++ m.verify) (hsig : c.cc.SigOk m.signature) (hmac : OptOk (!c.cc.inClear) c.cc.DigestOk m.verify)
    (h : keyExchangeBody e slot m req rsp sid version c = .ok out c') :
    out = sid ∧ ∃ d certs th1 s1,
      let tr := s.messageA ++ s.rspCertHash.getD [] ++ req ++ pre
      e.crypto.hash s.hash tr = some d ∧ CertsOf c slot certs ∧ c.cc.ge12 = true ∧
      e.verify c.neg.baseHash c.neg.baseAsym certs (Spec.signedData .keyExchangeRsp d) m.signature = true ∧
      e.crypto.hash s.hash (tr ++ m.signature) = some th1 ∧
      Session.genHandshake e.crypto c.neg.version th1 { s with th := some ⟨s.hash, tr ++ m.signature⟩ } = .ok () s1 ∧
      (c.cc.inClear = false → e.crypto.hmacVerify s.hash s1.hs.rspFinished th1 m.verify = true) ∧
      c'.session? sid = some (started version m.heartbeat { s1 with th := some ⟨s.hash, tr ++ m.signature ++ m.verify⟩ }) ∧
      Tables { c with rt := { c.rt with lastSession := (if c.cc.inClear then some sid else c.rt.lastSession) } } c' := by
  unfold keyExchangeBody at h
  have hid := session?_id hs
  obtain ⟨c0, c1, h0, z0⟩ := M.bind_ok.1 h
  cases h0
  obtain ⟨asym, c3, h3, z3⟩ := M.bind_ok.1 z0
  obtain ⟨hasym, rfl⟩ := unwrap_ok.1 h3
  obtain ⟨hsz, c4, h4, z4⟩ := M.bind_ok.1 z3
  obtain ⟨hhs, rfl⟩ := unwrap_ok.1 h4
  obtain ⟨body, c5, h5, z5⟩ := M.bind_ok.1 z4
  obtain ⟨h5, rfl⟩ := liftOk.1 h5
  have hsl : m.signature.length = asym := by
    unfold Cc.SigOk at hsig; rw [hasym] at hsig; simpa using hsig.symm
  have hpre : body = pre := by
    have : Rsp.dropTail (if c5.cc.inClear then asym else asym + hsz) rsp = .ok pre := by
      rw [hrsp]
      cases hic : c5.cc.inClear with
      | true =>
        have : m.verify = [] := by simpa [hic, OptOk] using hmac
        rw [this, List.append_nil, if_pos rfl]
        exact dropTail_append hsl
      | false =>
        rw [List.append_assoc, if_neg (by simp)]
        refine dropTail_append ?_
        have : m.verify.length = hsz := by
          have : c5.cc.DigestOk m.verify := by simpa [hic, OptOk] using hmac
          unfold Cc.DigestOk at this; rw [hhs] at this; simpa using this.symm
        rw [List.length_append, hsl, this]
    rw [this] at h5
    exact (Res.ok.inj h5).symm
  subst hpre
  obtain ⟨_, c7, h7, z7⟩ := M.bind_ok.1 z5
  obtain ⟨_, k1, k2, k3⟩ := addK_ok (appendK_ok h7)
  rw [hs] at k1; cases k1
  simp only [hth, Option.getD_none] at k2
  obtain ⟨_, c8, h8, z8⟩ := M.bind_ok.1 z7
  obtain ⟨_, l1, l2, l3⟩ := addK_ok (appendK_ok h8)
  rw [k2] at l1; cases l1
  simp only [Option.getD_some] at l2
  obtain ⟨_, c9, h9, z9⟩ := M.bind_ok.1 z8
  obtain ⟨rfl, d, certs, hd, hcerts, h12, hver⟩ := keyExchangeCheck_ok l2 rfl h9
  have t8 := k3.trans l3
  obtain ⟨_, c10, h10, z10⟩ := M.bind_ok.1 z9
  obtain ⟨_, n1, n2, n3⟩ := addK_ok (appendK_ok h10)
  rw [l2] at n1; cases n1
  simp only [Option.getD_some] at n2
  obtain ⟨th1, c11, h11, z11⟩ := M.bind_ok.1 z10
  obtain ⟨rfl, hth1⟩ := thOf_eq n2 rfl h11
  have t10 := t8.trans n3
  obtain ⟨_, c12, h12', z12⟩ := M.bind_ok.1 z11
  obtain ⟨s1, hgen, rfl⟩ := onSession_ok n2 h12'
  have hid1 : s1.id = sid := by
    have := ((Session.keep_genHandshake _ _ _).ok hgen).1
    rw [this]; exact hid
  have p1 := session?_const n2 hid1
  have t12 : Tables c5 (c11.updSession sid fun _ => s1) := t10.trans ⟨_, rfl⟩
  have hth_s1 : s1.th = some ⟨(thStart s).algo, (thStart s).data ++ req ++ body ++ m.signature⟩ := by
    obtain ⟨_, _, _, _, _, _, _, _, _, _, _, _, rfl⟩ := Session.genHandshake_ok.1 hgen
    rfl
  have hh1 : s1.hash = s.hash := by
    obtain ⟨_, _, _, _, _, _, _, _, _, _, _, _, rfl⟩ := Session.genHandshake_ok.1 hgen
    rfl
  generalize hc12 : (c11.updSession sid fun _ => s1) = c12 at *
  obtain ⟨_, c13, h13, z13⟩ := M.bind_ok.1 z12
  obtain ⟨_, c14, h14, z14⟩ := M.bind_ok.1 z13
  obtain ⟨_, c15, h15, z15⟩ := M.bind_ok.1 z14
  cases z15
  have hcerts' : CertsOf c5 slot certs := by
    obtain ⟨l, rfl⟩ := t8
    exact hcerts
  refine ⟨rfl, d, certs, th1, s1, by simpa [thStart] using hd, hcerts', by rw [← t8.cc]; exact h12, by rw [← t8.neg]; exact hver, by simpa [thStart] using hth1,
    by simpa [thStart] using hgen, ?_⟩
  cases hic : c5.cc.inClear with
  | true =>
    have hmv : m.verify = [] := by simpa [hic, OptOk] using hmac
    rw [hic] at h13 h15
    simp only [keyExchangeHmac, if_true, rememberSession, M.pure_apply, M.modify_apply] at h13 h15
    cases h13
    injection h15 with _ h15
    obtain ⟨s2, hmod, rfl⟩ := onSession_ok p1 h14
    rw [M.modify_apply] at hmod
    injection hmod with _ hmod
    subst hmod
    refine ⟨fun h => by (cases h), ?_, ?_⟩
    · rw [← h15]
      refine (session?_const (s' := started version m.heartbeat s1) p1 hid1).trans ?_
      congr 1
      unfold started
      have : s1.th = some (⟨s.hash, s.messageA ++ s.rspCertHash.getD [] ++ req ++ body ++ m.signature ++ m.verify⟩ : HashCtx) := by
        rw [hth_s1]; simp [thStart, hmv]
      rw [← this]
    · obtain ⟨l, rfl⟩ := t12
      rw [← h15]
      exact ⟨_, rfl⟩
  | false =>
    rw [hic] at h13 h15
    simp only [keyExchangeHmac, rememberSession, Bool.false_eq_true, if_false, M.pure_apply] at h13 h15
    cases h15
    obtain ⟨th, q1, q2, q3, q4⟩ := responseCheck_ok p1 hth_s1 h13
    have : th = th1 := Option.some.inj (q1.symm.trans hth1)
    subst this
    obtain ⟨s2, hmod, rfl⟩ := onSession_ok q3 h14
    rw [M.modify_apply] at hmod
    injection hmod with _ hmod
    subst hmod
    refine ⟨fun _ => by rw [← hh1]; exact q2, ?_, t12.trans (q4.trans ⟨_, rfl⟩)⟩
    refine (session?_const (s' := started version m.heartbeat { s1 with th := _ }) q3 hid1).trans ?_
    simp [started, thStart]

/-! ### KEY_EXCHANGE -/

/-- the session a requester opens for KEY_EXCHANGE; the certificate slot number of the slot's previous use stays. -/
def dheOpen (e : Env) (c : Ctx) (sid : UInt32) (slot mutAuth : UInt8) (certHash final root master : Bytes) : Session :=
  { Session.new with
    slotId := slot, id := sid, usePsk := false, hash := c.neg.baseHash, dhe := c.neg.dhe, aead := c.neg.aead,
    keySchedule := c.neg.keySchedule, mutAuth := mutAuth, seqCount := e.tr.seqCount, maxRandom := e.tr.maxRandom,
    dheSecret := final, hsRoot := root, master := master, messageA := c.rt.messageA, rspCertHash := some certHash, reqCertHash := none }

theorem openDhe_ok {c : Ctx} {sid : UInt32} {mutAuth : UInt8} {certHash final : Bytes} {s0 s1 : Session} {u : Unit}
    (h : openDhe e c sid mutAuth certHash final s0 = .ok u s1) : s0.id = 0 ∧ ∃ root master,
      KeySched.handshakeSecret e.crypto c.neg.baseHash final = .ok root ∧ KeySched.masterSecret e.crypto c.neg.version c.neg.baseHash root = .ok master ∧
      s1 = dheOpen e.toEnv c sid s0.slotId mutAuth certHash final root master := by
  unfold openDhe at h
  obtain ⟨_, s2, h1, z1⟩ := M.bind_ok.1 h
  unfold Session.setup at h1
  simp only [M.bind_apply, M.get_apply] at h1
  by_cases h0 : s0.id = 0
  · rw [if_pos h0, M.set_apply] at h1
    injection h1 with _ h1
    obtain ⟨_, s3, h3, z3⟩ := M.bind_ok.1 z1
    rw [M.modify_apply] at h3
    injection h3 with _ h3
    obtain ⟨_, s4, h4, z4⟩ := M.bind_ok.1 z3
    rw [M.modify_apply] at z4
    injection z4 with _ z4
    obtain ⟨a, b, g1, g2, g3⟩ := Session.setDheSecret_ok.1 h4
    subst g3 h3 h1
    exact ⟨h0, a, b, g1, g2, z4.symm⟩
  · rw [if_neg h0] at h1; cases h1

/-- KEY_EXCHANGE. -/
def keyExAsk (c : Ctx) (t : SummaryHashType) (slot : UInt8) (reqId : UInt16) (random exchange opaq : Bytes) : Bytes :=
  c.neg.version.get :: 0xE4 :: KeyEx.wire c.cc ⟨t, slot, reqId, c.config.sessionPolicy, random, exchange, opaq⟩

theorem onSession_free {α : Type} {x : M Status Session α} {st : Status} {c c' : Ctx} {a : α} (h : Ctx.onSession 0 (M.fail st) x c = .ok a c') :
    ∃ s s', c.session? 0 = some s ∧ x s = .ok a s' ∧ c' = c.updSession 0 fun _ => s' := by
  cases hs : c.session? 0 with
  | none => simp [Ctx.onSession, hs] at h
  | some s =>
    obtain ⟨s', h1, h2⟩ := onSession_ok hs h
    exact ⟨s, s', rfl, h1, h2⟩

/-- the runtime data after the buffers were reset for a key exchange outside sessions. -/
theorem reset_keyEx (k : ReqRespCode) (hk : k = .reqKeyExchange ∨ k = .reqPskExchange) (c : Ctx) : Ctx.resetBuffers k none c =
    { c with rt := { c.rt with l1l2 := none, m1m2 := if c.rt.state.code < 5 then none else c.rt.m1m2 } } := by
  rcases hk with rfl | rfl <;> (
    unfold Ctx.resetBuffers Ctx.resetM Ctx.resetM1M2
    by_cases h : c.rt.state.code < 5
    · simp [h]
    · simp [h])

theorem secureVersion_congr {c c' : Ctx} {o : Bytes} (h : c'.neg = c.neg) : secureVersion c' o = secureVersion c o := by
  have : c'.cc = { c.cc with needSummary := c'.rt.needSummary, needSig := c'.rt.needSig } := by unfold Ctx.cc; rw [h]
  unfold secureVersion
  rw [this]
  rfl

/-- A successful KEY_EXCHANGE. -/
theorem keyExchange_ok {slot : UInt8} {t : SummaryHashType} {c c' : Ctx} {sid : UInt32} (ht : ReqTable 0 c.sessions) (hn : c.sessions.length < 0xFFFD)
    (h : keyExchange e slot t c = .ok sid c') :
    slot < 8 ∧ ∃ (i : Fin 8) (reqId : UInt16) (random exchange opaq : Bytes) (fin : Bytes → Option Bytes) (pkt bytes rest : Bytes) (p : UInt8) (m : KeyExRsp) (version : UInt8)
        (certHash final root master : Bytes) (d certs th1 : Bytes) (s0 s1 : Session),
      i.val = slot.toNat ∧ Ctx.nextHalf true 0 c.sessions = some reqId ∧ Ctx.random e.toEnv 32 = some random ∧ e.dheGen c.neg.dhe = some (exchange, fin) ∧ opaqueRequest c = some opaq ∧
      Said e none (Ctx.resetBuffers .reqKeyExchange none c) (keyExAsk c t slot reqId random exchange opaq) bytes (withSent pkt (Ctx.resetBuffers .reqKeyExchange none c)) ∧
      bytes = keyExHeard c.neg.version.get p m ++ m.signature ++ m.verify ++ rest ∧ Took c.neg bytes (keyExHeard c.neg.version.get p m ++ m.signature ++ m.verify) ∧
      sid = joinId m.rspSession reqId ∧ fin m.exchange = some final ∧
      (secureVersion c m.opaq = .ok version ∧ ∃ tl r', bytes = c.neg.version.get :: 0x64 :: tl ∧ KeyExRsp.read ⟨c.neg, decide (t = .tcb ∨ t = .all), c.rt.needSig⟩ ⟨tl, 2⟩ = .ok m r') ∧
      Ctx.peerChainHash e.toEnv c i = some certHash ∧ KeySched.handshakeSecret e.crypto c.neg.baseHash final = .ok root ∧
      KeySched.masterSecret e.crypto c.neg.version c.neg.baseHash root = .ok master ∧ s0 = dheOpen e.toEnv c sid s0.slotId m.mutAuth certHash final root master ∧
      (let tr := c.rt.messageA ++ certHash ++ keyExAsk c t slot reqId random exchange opaq ++ keyExHeard c.neg.version.get p m
      e.crypto.hash c.neg.baseHash tr = some d ∧ CertsOf c slot certs ∧ c.cc.ge12 = true ∧
      e.verify c.neg.baseHash c.neg.baseAsym certs (Spec.signedData .keyExchangeRsp d) m.signature = true ∧
      e.crypto.hash c.neg.baseHash (tr ++ m.signature) = some th1 ∧
      Session.genHandshake e.crypto c.neg.version th1 { s0 with th := some ⟨c.neg.baseHash, tr ++ m.signature⟩ } = .ok () s1 ∧
      (c.cc.inClear = true → m.verify = []) ∧
      (c.cc.inClear = false → e.crypto.hmacVerify c.neg.baseHash s1.hs.rspFinished th1 m.verify = true) ∧
      c'.session? sid = some (started version m.heartbeat { s1 with th := some ⟨c.neg.baseHash, tr ++ m.signature ++ m.verify⟩ })) ∧
      ∃ l, c' = { c with sessions := l, sent := c.sent ++ [pkt], rt := { c.rt with l1l2 := none, m1m2 := (if c.rt.state.code < 5 then none else c.rt.m1m2), needSummary := decide (t = .tcb ∨ t = .all), lastSession := (if c.cc.inClear then some sid else c.rt.lastSession) } } := by
  unfold keyExchange at h
  by_cases hsl : slot ≥ 8
  · rw [if_pos hsl] at h; cases h
  rw [if_neg hsl] at h
  refine ⟨by simpa using hsl, ?_⟩
  obtain ⟨c0, c1, h0, z0⟩ := M.bind_ok.1 h
  cases h0
  obtain ⟨reqId, c2, h2, z2⟩ := M.bind_ok.1 z0
  obtain ⟨h2, rfl⟩ := liftOk.1 h2
  have hnext := Res.ofOption_ok.1 h2
  obtain ⟨_, c3, h3, z3⟩ := M.bind_ok.1 z2
  rw [M.modify_apply] at h3
  injection h3 with _ h3
  obtain ⟨random, c4, h4, z4⟩ := M.bind_ok.1 z3
  obtain ⟨hrnd, rfl⟩ := ofOption_ok.1 h4
  obtain ⟨⟨exchange, fin⟩, c5, h5, z5⟩ := M.bind_ok.1 z4
  obtain ⟨hgen, rfl⟩ := ofOption_ok.1 h5
  obtain ⟨opaq, c6, h6, z6⟩ := M.bind_ok.1 z5
  obtain ⟨hop, rfl⟩ := ofOption_ok.1 h6
  obtain ⟨req, c7, h7, z7⟩ := M.bind_ok.1 z6
  obtain ⟨rfl, rfl⟩ := encodeReq_ok (p := .keyEx _) (KeyEx.encode_writes _ _) h7
  have hneg : c7.neg = c2.neg := by rw [← h3, reset_keyEx _ (.inl rfl)]
  have hcc : c7.cc = c2.cc := by rw [← h3, reset_keyEx _ (.inl rfl)]; rfl
  obtain ⟨bytes, c8, h8, z8⟩ := M.bind_ok.1 z7
  have hreq : c7.neg.version.get :: ReqRespCode.reqKeyExchange.get :: KeyEx.wire c7.cc ⟨t, slot, reqId, c2.config.sessionPolicy, random, exchange, opaq⟩ =
      keyExAsk c2 t slot reqId random exchange opaq := by rw [hneg, hcc]; rfl
  rw [hreq] at h8 z8
  generalize hask : keyExAsk c2 t slot reqId random exchange opaq = req at *
  have hsaid := transact_ok h8
  obtain ⟨pkt, pp, k1, k2, k3, rfl⟩ := id hsaid
  unfold handleKeyExchange at z8
  obtain ⟨_, c9, h9, z9⟩ := M.bind_ok.1 z8
  rw [M.modify_apply] at h9
  injection h9 with _ h9
  obtain ⟨r, c10, h10, z10⟩ := M.bind_ok.1 z9
  obtain ⟨rfl, v, tl, rfl, hv, rfl⟩ := expect_ok h10
  obtain ⟨⟨m, rsp⟩, c11, h11, z11⟩ := M.bind_ok.1 z10
  obtain ⟨rfl, r', h13, rfl⟩ := readMsg_ok' h11
  obtain ⟨c12, c13, h12, z12⟩ := M.bind_ok.1 z11
  cases h12
  obtain ⟨final, c14, h14, z14⟩ := M.bind_ok.1 z12
  obtain ⟨hfin, rfl⟩ := ofOption_ok.1 h14
  obtain ⟨version, c15, h15, z15⟩ := M.bind_ok.1 z14
  obtain ⟨hsv, rfl⟩ := liftOk.1 h15
  obtain ⟨i, c16, h16, z16⟩ := M.bind_ok.1 z15
  obtain ⟨hi, rfl⟩ := unwrap_ok.1 h16
  obtain ⟨certHash, c17, h17, z17⟩ := M.bind_ok.1 z16
  obtain ⟨hch, rfl⟩ := ofOption_ok.1 h17
  obtain ⟨_, c18, h18, z18⟩ := M.bind_ok.1 z17
  obtain ⟨sf, s0, hs0, ho, rfl⟩ := onSession_free h18
  obtain ⟨_, root, master, hr1, hr2, hs0e⟩ := openDhe_ok ho
  have hneg9 : c17.neg = c2.neg := by rw [← h9]; exact hneg
  have hc17 : c17 = wantSummary t (withSent pkt (Ctx.resetBuffers .reqKeyExchange none c2)) := by rw [← h9, ← h3]
  rw [reset_keyEx _ (.inl rfl)] at hc17
  have hsess : c17.sessions = c2.sessions := by rw [hc17]; rfl
  have hmsgA : c17.rt.messageA = c2.rt.messageA := by rw [hc17]; rfl
  have hid0 : s0.id = joinId m.rspSession reqId := by rw [hs0e]; rfl
  have hfind : (c17.updSession 0 fun _ => s0).session? (joinId m.rspSession reqId) = some s0 := by
    unfold Ctx.session? Ctx.updSession
    rw [hsess]
    exact find_opened_req ht (by omega) hnext hid0
  obtain ⟨b1, b2, p, b3⟩ := KeyExRsp.read_body h13
  obtain ⟨m1, m2⟩ := After.message (v := v) (k := 0x64) b3
  have hvb : v = c2.neg.version.get := by rw [← hneg9]; exact version_byte hv
  subst hvb
  have hge : c17.cc.inClear = c2.cc.inClear := by
    show Cc.inClear ⟨c17.neg, _, _⟩ = Cc.inClear ⟨c2.neg, _, _⟩
    rw [hneg9]; rfl
  have hge12 : c17.cc.ge12 = c2.cc.ge12 := by
    show Cc.ge12 ⟨c17.neg, _, _⟩ = Cc.ge12 ⟨c2.neg, _, _⟩
    rw [hneg9]; rfl
  have hrsp : (c2.neg.version.get :: ReqRespCode.rspKeyExchangeRsp.get :: tl).take r'.used = keyExHeard c2.neg.version.get p m ++ m.signature ++ m.verify := by
    refine m1.trans ?_
    simp [keyExHeard]
  have hs0f : s0.th = none ∧ s0.messageA = c2.rt.messageA ∧ s0.rspCertHash = some certHash ∧ s0.hash = c2.neg.baseHash := by
    rw [hs0e]; exact ⟨rfl, hmsgA, rfl, by show c17.neg.baseHash = _; rw [hneg9]⟩
  obtain ⟨g0, d, certs, th1, s1, g1, g2, g3, g4, g5, g6, g7, g8, g9⟩ := keyExchangeBody_ok (pre := keyExHeard c2.neg.version.get p m) hfind hs0f.1 hrsp b1 b2 z18
  subst g0
  have hcx : (c17.updSession 0 fun _ => s0).cc = c17.cc := rfl
  have hnx : (c17.updSession 0 fun _ => s0).neg = c2.neg := hneg9
  have htr : s0.messageA ++ s0.rspCertHash.getD [] ++ req = c2.rt.messageA ++ certHash ++ keyExAsk c2 t slot reqId random exchange opaq := by
    rw [hs0f.2.1, hs0f.2.2.1, hask]; rfl
  rw [htr] at g1 g5 g6 g8
  generalize htrs : c2.rt.messageA ++ certHash ++ keyExAsk c2 t slot reqId random exchange opaq ++ keyExHeard c2.neg.version.get p m = tr at *
  have hh : ∀ x, (⟨s0.hash, x⟩ : HashCtx) = ⟨c2.neg.baseHash, x⟩ := fun x => by rw [hs0f.2.2.2]
  rw [hh] at g6 g8
  rw [hs0f.2.2.2] at g1 g5 g7
  rw [hcx, hge] at g7
  rw [hnx] at g4 g6
  refine ⟨i, reqId, random, exchange, opaq, fin, pkt, c2.neg.version.get :: ReqRespCode.rspKeyExchangeRsp.get :: tl, r'.rest, p, m, version, certHash, final, root, master, d, certs, th1, s0, s1, slot?_val hi, hnext, hrnd, hgen, hop, ?_, ?_, ?_, rfl, hfin,
    ?_, ?_, ?_, ?_, ?_, ?_, ?_⟩
  · rw [hask, h3]; exact hsaid
  · rw [m2]; simp [keyExHeard, ReqRespCode.get]
  · have := took_of (c := c17) (f := .keyExRsp) (k := 0x64) (neg := c2.neg) (fun _ => rfl) hneg9 hv h13
    rw [hrsp.symm]; exact this
  · refine ⟨by rw [← hsv]; exact secureVersion_congr hneg9.symm, tl, r', rfl, ?_⟩
    rw [← h13, hc17]; rfl
  · rw [← hch]; unfold Ctx.peerChainHash
    rw [hneg9, hc17]; rfl
  · rw [← hneg9]; exact hr1
  · rw [← hneg9]; exact hr2
  · refine hs0e.trans ?_
    rw [hs0e]
    unfold dheOpen
    rw [hneg9, hmsgA]
  · dsimp only
    rw [htrs]
    refine ⟨g1, ?_, ?_, g4, g5, g6, ?_, g7, g8⟩
    · refine CertsOf.congr g2 ?_ hneg9.symm
      show c2.peer = c17.peer
      rw [hc17]; rfl
    · rw [← hge12]; exact g3
    · intro hic
      have : OptOk (!c2.cc.inClear) c17.cc.DigestOk m.verify := by rw [← hge]; exact b2
      simpa [hic, OptOk] using this
  · obtain ⟨l, rfl⟩ := g9
    refine ⟨l, ?_⟩
    rw [hcx, hge, hc17]
    rfl

end Req
end Verif
