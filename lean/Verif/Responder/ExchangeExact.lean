/-
What a successful KEY_EXCHANGE or PSK_EXCHANGE writes and leaves behind.
-/
import Verif.Responder.Transcript
import Verif.Responder.Table
import Verif.Props.Signing

namespace Verif
namespace Rsp
variable {e : Env}

/-- only the session table differs. -/
def Tables (c c' : Ctx) : Prop := ∃ l, c' = { c with sessions := l }

theorem Tables.refl (c : Ctx) : Tables c c := ⟨c.sessions, rfl⟩
theorem Tables.trans {a b c : Ctx} (h : Tables a b) (h' : Tables b c) : Tables a c := by
  obtain ⟨l, rfl⟩ := h; obtain ⟨m, rfl⟩ := h'; exact ⟨m, rfl⟩
theorem Tables.cc {c c' : Ctx} (h : Tables c c') : c'.cc = c.cc := by obtain ⟨l, rfl⟩ := h; rfl
theorem Tables.neg {c c' : Ctx} (h : Tables c c') : c'.neg = c.neg := by obtain ⟨l, rfl⟩ := h; rfl
theorem Tables.config {c c' : Ctx} (h : Tables c c') : c'.config = c.config := by obtain ⟨l, rfl⟩ := h; rfl

/-- what a session's handshake transcript starts from: message A and the responder's certificate chain digest. -/
def thStart (s : Session) : HashCtx := ⟨s.hash, s.messageA ++ s.rspCertHash.getD []⟩

theorem addK_ok {sid : UInt32} {msg : Bytes} {c c' : Ctx} {u : Unit} (h : addK e sid msg c = .ok u c') :
    ∃ s, c.session? sid = some s ∧ c'.session? sid = some { s with th := some ⟨((s.th).getD (thStart s)).algo, ((s.th).getD (thStart s)).data ++ msg⟩ } ∧ Tables c c' := by
  unfold addK at h
  rw [mapErr_ok] at h
  unfold Ctx.appendK at h
  simp only [M.bind_apply, M.get_apply] at h
  cases hs : c.session? sid with
  | none => simp [hs] at h
  | some s =>
    have hid := session?_id hs
    refine ⟨s, rfl, ?_⟩
    simp only [hs] at h
    cases hx : s.th with
    | some x =>
      simp only [hx, M.set_apply] at h
      cases h
      refine ⟨?_, _, rfl⟩
      rw [session?_upd (f := fun s => { s with th := some (Ctx.hashUpdate msg x) }) hs hid]
      rfl
    | none =>
      simp only [hx] at h
      cases hst : Ctx.startTh e s with
      | none => simp [hst] at h
      | some x =>
        simp only [hst, M.set_apply] at h
        cases h
        refine ⟨?_, _, rfl⟩
        rw [session?_upd (f := fun s => { s with th := some (Ctx.hashUpdate msg x) }) hs hid]
        unfold Ctx.startTh Ctx.hashInit at hst
        cases hh : e.crypto.hash s.hash [] with
        | none => simp [hh] at hst
        | some d =>
          simp only [hh, Option.map_some, Option.some.injEq] at hst
          subst hst
          rfl

theorem appendK_ok {sid : UInt32} {msg : Bytes} {c c' : Ctx} {u : Unit} (h : Ctx.appendK e sid msg c = .ok u c') : addK e sid msg c = .ok u c' := by
  unfold addK; rw [mapErr_ok]; exact h

theorem orTeardown_ok {α : Type} {sid : UInt32} {x : M Status Ctx α} {c c' : Ctx} {a : α} (h : orTeardown sid x c = .ok a c') : x c = .ok a c' := by
  unfold orTeardown at h
  obtain ⟨r, c1, h1, h2⟩ := M.bind_ok.1 h
  unfold M.try' at h1
  cases hx : x c with
  | panic => rw [hx] at h1; cases h1
  | ok b c2 => rw [hx] at h1; cases h1; exact h2
  | err st c2 =>
    rw [hx] at h1; cases h1
    dsimp only at h2
    obtain ⟨_, c3, _, h4⟩ := M.bind_ok.1 h2
    cases h4

theorem onSession_ok {α : Type} {sid : UInt32} {x : M Status Session α} {missing : M Status Ctx α} {c c' : Ctx} {a : α} {s : Session} (hs : c.session? sid = some s)
    (h : Ctx.onSession sid missing x c = .ok a c') : ∃ s', x s = .ok a s' ∧ c' = c.updSession sid fun _ => s' := by
  unfold Ctx.onSession at h
  simp only [M.bind_apply, M.get_apply, hs] at h
  cases hx : x s with
  | panic => simp [hx] at h
  | err st s' => simp [hx] at h
  | ok b s' =>
    simp only [hx, M.bind_apply, M.set_apply, M.pure_apply] at h
    cases h
    exact ⟨s', rfl, rfl⟩

theorem session?_const {c : Ctx} {sid : UInt32} {s s' : Session} (hs : c.session? sid = some s) (hid : s'.id = sid) :
    (c.updSession sid fun _ => s').session? sid = some s' := session?_upd hs hid

theorem thOf_at {sid : UInt32} {c c' : Ctx} {h : Bytes} {s : Session} {x : HashCtx} (hs : c.session? sid = some s) (hx : s.th = some x)
    (hh : thOf e sid c = .ok h c') : c' = c ∧ e.crypto.hash x.algo x.data = some h := by
  obtain ⟨rfl, s', x', h1, h2, h3⟩ := thOf_ok hh
  rw [hs] at h1; cases h1
  rw [hx] at h2; cases h2
  exact ⟨rfl, h3⟩

/-- the signature over the transcript. -/
theorem keyExchangeSig_ok {sid : UInt32} {c c' : Ctx} {sig : Bytes} {s : Session} {x : HashCtx} (hs : c.session? sid = some s) (hx : s.th = some x)
    (h : keyExchangeSig e sid c = .ok sig c') : c' = c ∧ ∃ h, e.crypto.hash x.algo x.data = some h ∧ c.cc.ge12 = true ∧
      e.sign c.neg.baseHash c.neg.baseAsym (Spec.signedData .keyExchangeRsp h) = some sig := by
  unfold keyExchangeSig at h
  obtain ⟨th, c1, h1, h2⟩ := M.bind_ok.1 h
  obtain ⟨rfl, hth⟩ := thOf_at hs hx h1
  obtain ⟨_, c2, h3, h4⟩ := M.bind_ok.1 h2
  cases h3
  obtain ⟨m, c3, h5, h6⟩ := M.bind_ok.1 h4
  rw [lift_ok] at h5
  obtain ⟨h5, rfl⟩ := h5
  rw [ofOption_ok] at h6
  obtain ⟨h6, rfl⟩ := h6
  have := Props.C40_only_signed_data c'.cc .keyExchangeRsp th m h5
  rw [this.2.2] at h6
  exact ⟨rfl, th, hth, this.1, h6⟩

theorem responseHmac_ok {sid : UInt32} {c c' : Ctx} {mac : Bytes} {s : Session} {x : HashCtx} (hs : c.session? sid = some s) (hx : s.th = some x)
    (h : responseHmac e sid c = .ok mac c') : ∃ th, e.crypto.hash x.algo x.data = some th ∧ e.crypto.hmac s.hash s.hs.rspFinished th = some mac ∧
      c'.session? sid = some { s with th := some ⟨x.algo, x.data ++ mac⟩ } ∧ Tables c c' := by
  unfold responseHmac at h
  obtain ⟨th, c1, h1, h2⟩ := M.bind_ok.1 h
  obtain ⟨rfl, hth⟩ := thOf_at hs hx h1
  obtain ⟨_, c2, h3, h4⟩ := M.bind_ok.1 h2
  cases h3
  obtain ⟨s', c3, h5, h6⟩ := M.bind_ok.1 h4
  rw [unwrap_ok] at h5
  obtain ⟨h5, rfl⟩ := h5
  rw [hs] at h5; cases h5
  obtain ⟨m, c4, h7, h8⟩ := M.bind_ok.1 h6
  have h7 := orTeardown_ok h7
  cases hm : e.crypto.hmac s.hash s.hs.rspFinished th with
  | none => simp [Session.hmacRsp, hm, Res.ofOption, Res.lift] at h7
  | some m' =>
    simp [Session.hmacRsp, hm, Res.ofOption, Res.lift] at h7
    obtain ⟨rfl, rfl⟩ := h7
    obtain ⟨_, c5, h9, h10⟩ := M.bind_ok.1 h8
    cases h10
    obtain ⟨s2, k1, k2, k3⟩ := addK_ok (appendK_ok (orTeardown_ok h9))
    rw [hs] at k1; cases k1
    rw [hx] at k2
    exact ⟨th, hth, hm, k2, k3⟩

/-- KEY_EXCHANGE_RSP up to the signature. -/
def keyExchangeRspBody (version heartbeat : UInt8) (rspId : UInt16) (mutReq : UInt8) (random exchange sum opaq : Bytes) : Bytes :=
  [version, 0x64, heartbeat, 0] ++ putU16 rspId ++ [mutReq, 0] ++ random ++ exchange ++ sum ++ putU16 (UInt16.ofNat opaq.length) ++ opaq

/-- the handshake is sent with the opaque data's version and the configured heartbeat from here on. -/
def handshaking (opaq : Bytes) (heartbeat : UInt8) (s : Session) : Session :=
  { s with heartbeat := heartbeat, secureVersion := opaq.getLast?.getD s.secureVersion, state := .handshaking }

theorem pick_handshaking (opaq : Bytes) (h : UInt8) (s : Session) :
    { pickSecureVersion opaq { s with heartbeat := h } with state := .handshaking } = handshaking opaq h s := by
  unfold pickSecureVersion handshaking
  cases opaq.getLast? <;> rfl

theorem keyExchangeBody_ok {m : KeyEx} {req : Bytes} {sid : UInt32} {rspId : UInt16} {exchange sum opaq b : Bytes} {c c' : Ctx} {s : Session}
    (hs : c.session? sid = some s) (hth : s.th = none)
    (h : keyExchangeBody e m req sid rspId exchange sum opaq c = .ok b c') :
    ∃ random sig h th1 s1, Ctx.random e 32 = some random ∧
      let body := keyExchangeRspBody c.neg.version.get c.config.heartbeat rspId e.mutAuth random exchange (optWire c.cc.needSummary sum) opaq
      let pre := s.messageA ++ s.rspCertHash.getD [] ++ req ++ body
      e.crypto.hash s.hash pre = some h ∧ e.sign c.neg.baseHash c.neg.baseAsym (Spec.signedData .keyExchangeRsp h) = some sig ∧
      e.crypto.hash s.hash (pre ++ sig) = some th1 ∧ c.cc.ge12 = true ∧
      Session.genHandshake e.crypto c.neg.version th1 { s with th := some ⟨s.hash, pre ++ sig⟩ } = .ok () s1 ∧
      (c.cc.inClear = true → ∃ asym, c.cc.asymSize? = some asym ∧ b = body ++ List.replicate asym 0xbb ∧
        c'.session? sid = some (handshaking opaq c.config.heartbeat s1) ∧ Tables { c with rt := { c.rt with lastSession := some sid } } c') ∧
      (c.cc.inClear = false → ∃ mac, e.crypto.hmac s.hash s1.hs.rspFinished th1 = some mac ∧ b = body ++ sig ++ mac ∧
        c'.session? sid = some (handshaking opaq c.config.heartbeat { s1 with th := some ⟨s.hash, pre ++ sig ++ mac⟩ }) ∧ Tables c c') := by
  unfold keyExchangeBody at h
  have hid := session?_id hs
  obtain ⟨random, c1, h1, z1⟩ := M.bind_ok.1 h
  rw [ofOption_ok] at h1
  obtain ⟨hrnd, rfl⟩ := h1
  obtain ⟨_, c2, h2, z2⟩ := M.bind_ok.1 z1
  cases h2
  obtain ⟨asym, c3, h3, z3⟩ := M.bind_ok.1 z2
  rw [unwrap_ok] at h3
  obtain ⟨hasym, rfl⟩ := h3
  obtain ⟨hsz, c4, h4, z4⟩ := M.bind_ok.1 z3
  rw [unwrap_ok] at h4
  obtain ⟨hhs, rfl⟩ := h4
  obtain ⟨rsp, c5, h5, z5⟩ := M.bind_ok.1 z4
  unfold encodeMsgRsp at h5
  rw [mapErr_ok] at h5
  obtain ⟨rfl, rfl⟩ := (encode_keyExRsp _ _).ok h5
  obtain ⟨body, c6, h6, z6⟩ := M.bind_ok.1 z5
  have hz : opaqueWire opaq = putU16 (UInt16.ofNat opaq.length) ++ opaq := rfl
  generalize hbd : keyExchangeRspBody c5.neg.version.get c5.config.heartbeat rspId e.mutAuth random exchange (optWire c5.cc.needSummary sum) opaq = bd
  have hrsp : c5.neg.version.get :: 0x64 :: KeyExRsp.wire c5.cc ⟨c5.config.heartbeat, rspId, e.mutAuth, 0, random, exchange, sum, opaq, List.replicate asym 0xbb, List.replicate hsz 0xcc⟩ =
      bd ++ List.replicate asym 0xbb ++ optWire (!c5.cc.inClear) (List.replicate hsz 0xcc) := by
    rw [← hbd]
    simp [KeyExRsp.wire, keyExchangeRspBody, hz]
  rw [hrsp] at h6 z6
  have h6' : c6 = c5 ∧ body = bd := by
    cases hd : dropTail (if c5.cc.inClear then asym else asym + hsz) (bd ++ List.replicate asym 0xbb ++ optWire (!c5.cc.inClear) (List.replicate hsz 0xcc)) with
    | ok r =>
      rw [hd] at h6; cases h6
      refine ⟨rfl, ?_⟩
      rw [(dropTail_ok hd).2, List.append_assoc]
      refine take_front _ _ _ ?_
      cases c5.cc.inClear <;> simp [optWire]
    | err st => rw [hd] at h6; cases h6
    | panic => rw [hd] at h6; cases h6
  obtain ⟨rfl, rfl⟩ := h6'
  obtain ⟨_, c7, h7, z7⟩ := M.bind_ok.1 z6
  obtain ⟨_, k1, k2, k3⟩ := addK_ok h7
  rw [hs] at k1; cases k1
  simp only [hth, Option.getD_none] at k2
  obtain ⟨_, c8, h8, z8⟩ := M.bind_ok.1 z7
  obtain ⟨_, l1, l2, l3⟩ := addK_ok h8
  rw [k2] at l1; cases l1
  simp only [Option.getD_some] at l2
  obtain ⟨sig, c9, h9, z9⟩ := M.bind_ok.1 z8
  obtain ⟨rfl, hh, hhash, h12, hsign⟩ := keyExchangeSig_ok l2 rfl h9
  have t8 := k3.trans l3
  rw [t8.cc] at h12
  rw [t8.neg] at hsign
  obtain ⟨_, c10, h10, z10⟩ := M.bind_ok.1 z9
  obtain ⟨_, n1, n2, n3⟩ := addK_ok h10
  rw [l2] at n1; cases n1
  simp only [Option.getD_some] at n2
  obtain ⟨th1, c11, h11, z11⟩ := M.bind_ok.1 z10
  obtain ⟨rfl, hth1⟩ := thOf_at n2 rfl h11
  have t10 := t8.trans n3
  obtain ⟨_, c12, h12', z12⟩ := M.bind_ok.1 z11
  obtain ⟨s1, hgen, rfl⟩ := onSession_ok n2 h12'
  have hid1 : s1.id = sid := by
    have := ((Session.keep_genHandshake _ _ _).ok hgen).1
    rw [this]; exact hid
  have p1 := session?_const n2 hid1
  have t12 : Tables c6 (c11.updSession sid fun _ => s1) := t10.trans ⟨_, rfl⟩
  have hth_s1 : s1.th = some ⟨(thStart s).algo, (thStart s).data ++ req ++ body ++ sig⟩ := by
    obtain ⟨_, _, _, _, _, _, _, _, _, _, _, _, rfl⟩ := Session.genHandshake_ok.1 hgen
    rfl
  have hh1 : s1.hash = s.hash := by
    obtain ⟨_, _, _, _, _, _, _, _, _, _, _, _, rfl⟩ := Session.genHandshake_ok.1 hgen
    rfl
  refine ⟨random, sig, hh, th1, s1, hrnd, ?_⟩
  rw [hbd]
  generalize hc12 : (c11.updSession sid fun _ => s1) = c12 at *
  obtain ⟨rsp, c13, h13, z13⟩ := M.bind_ok.1 z12
  obtain ⟨_, c14, h14, z14⟩ := M.bind_ok.1 z13
  obtain ⟨_, c15, h15, z15⟩ := M.bind_ok.1 z14
  cases z15
  refine ⟨by simpa [thStart] using hhash, hsign, by simpa [thStart] using hth1, h12, by simpa [thStart] using hgen, ?_, ?_⟩
  · intro hic
    rw [hic] at h13 h15
    simp only [keyExchangePatch, if_true, rememberSession, M.pure_apply, M.modify_apply, optWire, Bool.not_true, Bool.false_eq_true, if_false, List.append_nil] at h13 h15
    cases h13
    cases h15
    obtain ⟨s2, hmod, rfl⟩ := onSession_ok p1 h14
    simp only [M.modify_apply] at hmod
    cases hmod
    rw [pick_handshaking]
    refine ⟨asym, hasym, rfl, session?_const p1 hid1, ?_⟩
    obtain ⟨l, rfl⟩ := t12
    exact ⟨_, rfl⟩
  · intro hic
    rw [hic] at h13 h15
    simp only [rememberSession, Bool.false_eq_true, if_false, M.pure_apply] at h15
    cases h15
    simp only [keyExchangePatch, Bool.false_eq_true, if_false, optWire, Bool.not_false, if_true] at h13
    obtain ⟨mac, c16, h16, y1⟩ := M.bind_ok.1 h13
    obtain ⟨th, q1, q2, q3, q4⟩ := responseHmac_ok p1 hth_s1 h16
    have : th = th1 := by
      have := q1.symm.trans hth1
      exact Option.some.inj this
    subst this
    obtain ⟨r1, c17, h17, y2⟩ := M.bind_ok.1 y1
    have hp1 : c17 = c16 ∧ r1 = body ++ (sig ++ List.replicate hsz 0xcc) ∧ sig.length = asym := by
      cases hd : patchTail (asym + hsz) (sig ++ List.replicate hsz 0xcc) (body ++ List.replicate asym 0xbb ++ List.replicate hsz 0xcc) with
      | ok r =>
        rw [hd] at h17; cases h17
        obtain ⟨_, u2, u3⟩ := patchTail_ok hd
        refine ⟨rfl, ?_, ?_⟩
        · rw [u3, List.append_assoc body, take_front _ _ _ (by simp)]
        · simp at u2; omega
      | err st => rw [hd] at h17; cases h17
      | panic => rw [hd] at h17; cases h17
    obtain ⟨rfl, rfl, hsl⟩ := hp1
    have hp2 : c13 = c17 ∧ b = body ++ sig ++ mac := by
      cases hd : patchTail hsz mac (body ++ (sig ++ List.replicate hsz 0xcc)) with
      | ok r =>
        rw [hd] at y2; cases y2
        refine ⟨rfl, ?_⟩
        rw [(patchTail_ok hd).2.2, ← List.append_assoc, take_front _ _ _ (by simp)]
      | err st => rw [hd] at y2; cases y2
      | panic => rw [hd] at y2; cases y2
    obtain ⟨rfl, rfl⟩ := hp2
    obtain ⟨s2, hmod, rfl⟩ := onSession_ok q3 h14
    rw [M.modify_apply] at hmod
    injection hmod with _ hmod
    subst hmod
    refine ⟨mac, by rw [← hh1]; exact q2, rfl, ?_, t12.trans (q4.trans ⟨_, rfl⟩)⟩
    have hpk := pick_handshaking opaq c6.config.heartbeat { s1 with th := some ⟨(thStart s).algo, (thStart s).data ++ req ++ body ++ sig ++ mac⟩ }
    refine (session?_const q3 ?_).trans ?_
    · rw [hpk]; exact hid1
    · rw [hpk]; simp [thStart]

/-! ### the new session is found under its id -/

theorem nextHalf_own {l : List Session} {i : Nat} {r : UInt16} (hn : Ctx.nextHalf false i l = some r) :
    ∃ j, j < l.length ∧ r = 0xFFFD - UInt16.ofNat (i + j) := by
  induction l generalizing i with
  | nil => simp [Ctx.nextHalf] at hn
  | cons a l ih =>
    unfold Ctx.nextHalf at hn
    split at hn
    · exact ⟨0, by simp, (Option.some.inj hn).symm⟩
    · obtain ⟨j, h1, h2⟩ := ih hn
      exact ⟨j + 1, by simp; omega, by rw [h2]; congr 2; omega⟩

theorem ownHalf_inj {i j : Nat} (hi : i < 0xFFFD) (hj : j < 0xFFFD) (h : (0xFFFD : UInt16) - UInt16.ofNat i = 0xFFFD - UInt16.ofNat j) : i = j := by
  have := congrArg UInt16.toNat h
  simp [UInt16.toNat_sub] at this
  omega

theorem find_opened {l : List Session} {i : Nat} (h : TableOk i l) (hl : i + l.length < 0xFFFD) {r req : UInt16} {s1 : Session}
    (hn : Ctx.nextHalf false i l = some r) (h1 : s1.id = joinId r req) :
    (Ctx.updFirst (·.id = 0) (fun _ => s1) l).find? (·.id = joinId r req) = some s1 := by
  induction l generalizing i with
  | nil => simp [Ctx.nextHalf] at hn
  | cons a l ih =>
    have hi : i < 0xFFFD := by simp at hl; omega
    obtain ⟨j, hj, hr⟩ := nextHalf_own hn
    unfold Ctx.nextHalf at hn
    unfold Ctx.updFirst
    by_cases hz : Ctx.half false a.id = 0
    · have : a.id = 0 := ((h.1.half_zero hi).1 hz).id
      simp [this, h1]
    · rw [if_neg hz] at hn
      have hne : a.id ≠ 0 := fun h0 => hz (by rw [h0]; exact Rsp.half_zero)
      have hid : a.id ≠ joinId r req := by
        intro hc
        obtain ⟨j', hj', hr'⟩ := nextHalf_own hn
        rcases h.1 with g | g
        · exact hne g.id
        · rw [hc, half_join, hr'] at g
          have := ownHalf_inj (by simp at hl; omega) hi g
          omega
      simp only [hne, decide_false, Bool.false_eq_true, if_false]
      rw [List.find?_cons_of_neg (by simpa using hid)]
      exact ih h.2 (by simp at hl; omega) hn

theorem session?_opened {c : Ctx} (h : TableOk 0 c.sessions) (hl : c.sessions.length < 0xFFFD) {r req : UInt16} {s1 : Session}
    (hn : Ctx.nextHalf false 0 c.sessions = some r) (h1 : s1.id = joinId r req) :
    (c.updSession 0 fun _ => s1).session? (joinId r req) = some s1 := by
  unfold Ctx.session? Ctx.updSession
  exact find_opened h (by omega) hn h1

/-- the session KEY_EXCHANGE opens. -/
def dheOpened (e : Env) (c : Ctx) (sid : UInt32) (slot : UInt8) (certHash final root master : Bytes) : Session :=
  { Session.new with
    id := sid, usePsk := false, slotId := slot, hash := c.neg.baseHash, dhe := c.neg.dhe, aead := c.neg.aead,
    keySchedule := c.neg.keySchedule, mutAuth := e.mutAuth, seqCount := e.tr.seqCount, maxRandom := e.tr.maxRandom,
    dheSecret := final, hsRoot := root, master := master, messageA := c.rt.messageA, rspCertHash := some certHash, reqCertHash := none }

theorem openDhe_ok {c : Ctx} {sid : UInt32} {slot : UInt8} {certHash final : Bytes} {s0 s1 : Session}
    (h : openDhe e c sid slot certHash final s0 = .ok () s1) : ∃ root master,
      KeySched.handshakeSecret e.crypto c.neg.baseHash final = .ok root ∧ KeySched.masterSecret e.crypto c.neg.version c.neg.baseHash root = .ok master ∧
      s1 = dheOpened e c sid slot certHash final root master := by
  unfold openDhe at h
  obtain ⟨_, s2, h1, z1⟩ := M.bind_ok.1 h
  unfold Session.setup at h1
  simp only [M.bind_apply, M.get_apply] at h1
  split at h1
  · rw [M.set_apply] at h1
    injection h1 with _ h1
    obtain ⟨_, s3, h3, z3⟩ := M.bind_ok.1 z1
    rw [M.modify_apply] at h3
    injection h3 with _ h3
    obtain ⟨res, s4, h4, z4⟩ := M.bind_ok.1 z3
    unfold M.try' at h4
    cases hx : Session.setDheSecret e.crypto c.neg.version final s3 with
    | panic => rw [hx] at h4; cases h4
    | err st s5 =>
      rw [hx] at h4; cases h4
      dsimp only at z4
      obtain ⟨_, s6, _, z6⟩ := M.bind_ok.1 z4
      cases z6
    | ok u s5 =>
      rw [hx] at h4; cases h4
      dsimp only at z4
      rw [M.modify_apply] at z4
      injection z4 with _ z4
      obtain ⟨a, b, g1, g2, g3⟩ := Session.setDheSecret_ok.1 hx
      subst g3 h3 h1
      exact ⟨a, b, g1, g2, z4.symm⟩
  · cases h1

/-- the session PSK_EXCHANGE opens; the certificate slot number of the slot's previous use stays. -/
def pskOpened (e : Env) (c : Ctx) (sid : UInt32) (hint : Bytes) (slot : UInt8) : Session :=
  { Session.new with
    slotId := slot, id := sid, usePsk := true, hash := c.neg.baseHash, dhe := c.neg.dhe, aead := c.neg.aead,
    keySchedule := c.neg.keySchedule, seqCount := e.tr.seqCount, maxRandom := e.tr.maxRandom,
    pskHint := some hint, messageA := c.rt.messageA, rspCertHash := none, reqCertHash := none }

theorem openPsk_ok {c : Ctx} {sid : UInt32} {hint : Bytes} {s0 s1 : Session} (h : openPsk e c sid hint s0 = .ok () s1) :
    s1 = pskOpened e c sid hint s0.slotId := by
  unfold openPsk at h
  obtain ⟨_, s2, h1, z1⟩ := M.bind_ok.1 h
  unfold Session.setup at h1
  simp only [M.bind_apply, M.get_apply] at h1
  split at h1
  · rw [M.set_apply] at h1
    injection h1 with _ h1
    rw [M.modify_apply] at z1
    injection z1 with _ z1
    subst h1
    exact z1.symm
  · cases h1

/-! ### PSK_EXCHANGE_RSP -/

/-- PSK_EXCHANGE_RSP up to the verify data. -/
def pskExchangeRspBody (version heartbeat : UInt8) (rspId : UInt16) (context sum opaq : Bytes) : Bytes :=
  [version, 0x66, heartbeat, 0] ++ putU16 rspId ++ [0, 0] ++ putU16 (UInt16.ofNat context.length) ++ putU16 (UInt16.ofNat opaq.length) ++ sum ++ context ++ opaq

/-- the session after PSK_EXCHANGE: in the handshake, or established when there is no responder context. -/
def PskLeft (e : Env) (c : Ctx) (opaq : Bytes) (s s' : Session) : Prop :=
  if c.cc.pskNoContext then ∃ x th2 s2, s.th = some x ∧ e.crypto.hash x.algo x.data = some th2 ∧
      Session.genData e.crypto c.neg.version th2 { s with state := .handshaking } = .ok () s2 ∧
      s' = { handshaking opaq c.config.heartbeat s2 with state := .established }
    else s' = handshaking opaq c.config.heartbeat s

theorem pick_state (opaq : Bytes) (h : UInt8) (s : Session) (st : SessState) :
    pickSecureVersion opaq { s with state := st, heartbeat := h } = { handshaking opaq h s with state := st } := by
  unfold pickSecureVersion handshaking
  cases opaq.getLast? <;> rfl

theorem pskExchangeBody_ok {req : Bytes} {sid : UInt32} {rspId : UInt16} {context sum opaq b : Bytes} {c c' : Ctx} {s : Session}
    (hs : c.session? sid = some s) (hth : s.th = none) (hctx : c.cc.pskNoContext = true → context = [])
    (h : pskExchangeBody e req sid rspId context sum opaq c = .ok b c') :
    ∃ th1 mac s1 s', 
      let body := pskExchangeRspBody c.neg.version.get c.config.heartbeat rspId context (optWire c.cc.needSummary sum) opaq
      let pre := s.messageA ++ s.rspCertHash.getD [] ++ req ++ body
      e.crypto.hash s.hash pre = some th1 ∧
      Session.genHandshake e.crypto c.neg.version th1 { s with th := some ⟨s.hash, pre⟩ } = .ok () s1 ∧
      e.crypto.hmac s.hash s1.hs.rspFinished th1 = some mac ∧ b = body ++ mac ∧
      PskLeft e c opaq { s1 with th := some ⟨s.hash, pre ++ mac⟩ } s' ∧ c'.session? sid = some s' ∧ Tables c c' := by
  unfold pskExchangeBody at h
  have hid := session?_id hs
  obtain ⟨_, c2, h2, z2⟩ := M.bind_ok.1 h
  cases h2
  obtain ⟨hsz, c4, h4, z4⟩ := M.bind_ok.1 z2
  rw [unwrap_ok] at h4
  obtain ⟨hhs, rfl⟩ := h4
  obtain ⟨rsp, c5, h5, z5⟩ := M.bind_ok.1 z4
  unfold encodeMsgRsp at h5
  rw [mapErr_ok] at h5
  obtain ⟨rfl, rfl⟩ := (Codes.encode_exact (p := .pskExRsp _) (k := 0x66) rfl (fun cc => Emits.pskExRsp cc _) _).ok h5
  obtain ⟨body, c6, h6, z6⟩ := M.bind_ok.1 z5
  generalize hbd : pskExchangeRspBody c5.neg.version.get c5.config.heartbeat rspId context (optWire c5.cc.needSummary sum) opaq = bd
  generalize hrs : (c5.neg.version.get :: (0x66 : UInt8) :: _ : Bytes) = rsp at h6 z6
  have hrsp : rsp = bd ++ List.replicate hsz 0xcc := by
    rw [← hrs, ← hbd]
    cases hp : c5.cc.pskNoContext with
    | true => simp [pskExchangeRspBody, optWire, hctx hp]; rfl
    | false => simp [pskExchangeRspBody, optWire]; rfl
  clear hrs
  subst hrsp
  have h6' : c6 = c5 ∧ body = bd := by
    cases hd : dropTail hsz (bd ++ List.replicate hsz 0xcc) with
    | ok r =>
      rw [hd] at h6; cases h6
      refine ⟨rfl, ?_⟩
      rw [(dropTail_ok hd).2]
      exact take_front _ _ _ (by simp)
    | err st => rw [hd] at h6; cases h6
    | panic => rw [hd] at h6; cases h6
  obtain ⟨rfl, rfl⟩ := h6'
  obtain ⟨_, c7, h7, z7⟩ := M.bind_ok.1 z6
  obtain ⟨_, k1, k2, k3⟩ := addK_ok h7
  rw [hs] at k1; cases k1
  simp only [hth, Option.getD_none] at k2
  obtain ⟨_, c8, h8, z8⟩ := M.bind_ok.1 z7
  obtain ⟨_, l1, l2, l3⟩ := addK_ok h8
  rw [k2] at l1; cases l1
  simp only [Option.getD_some] at l2
  obtain ⟨th1, c11, h11, z11⟩ := M.bind_ok.1 z8
  obtain ⟨rfl, hth1⟩ := thOf_at l2 rfl h11
  have t10 := k3.trans l3
  obtain ⟨_, c12, h12', z12⟩ := M.bind_ok.1 z11
  obtain ⟨s1, hgen, rfl⟩ := onSession_ok l2 h12'
  have hid1 : s1.id = sid := by
    have := ((Session.keep_genHandshake _ _ _).ok hgen).1
    rw [this]; exact hid
  have p1 := session?_const l2 hid1
  have t12 : Tables c6 (c11.updSession sid fun _ => s1) := t10.trans ⟨_, rfl⟩
  have hth_s1 : s1.th = some ⟨(thStart s).algo, (thStart s).data ++ req ++ body⟩ := by
    obtain ⟨_, _, _, _, _, _, _, _, _, _, _, _, rfl⟩ := Session.genHandshake_ok.1 hgen
    rfl
  have hh1 : s1.hash = s.hash := by
    obtain ⟨_, _, _, _, _, _, _, _, _, _, _, _, rfl⟩ := Session.genHandshake_ok.1 hgen
    rfl
  generalize hc12 : (c11.updSession sid fun _ => s1) = c12 at *
  obtain ⟨mac, c16, h16, y1⟩ := M.bind_ok.1 z12
  obtain ⟨th, q1, q2, q3, q4⟩ := responseHmac_ok p1 hth_s1 h16
  have : th = th1 := by
    have := q1.symm.trans hth1
    exact Option.some.inj this
  subst this
  obtain ⟨r1, c17, h17, y2⟩ := M.bind_ok.1 y1
  have hp1 : c17 = c16 ∧ r1 = body ++ mac := by
    cases hd : patchTail hsz mac (body ++ List.replicate hsz 0xcc) with
    | ok r =>
      rw [hd] at h17; cases h17
      refine ⟨rfl, ?_⟩
      rw [(patchTail_ok hd).2.2, take_front _ _ _ (by simp)]
    | err st => rw [hd] at h17; cases h17
    | panic => rw [hd] at h17; cases h17
  obtain ⟨rfl, rfl⟩ := hp1
  obtain ⟨_, c18, h18, y3⟩ := M.bind_ok.1 y2
  obtain ⟨s2, hmod, rfl⟩ := onSession_ok q3 h18
  rw [M.modify_apply] at hmod
  injection hmod with _ hmod
  have w1 := session?_const (s' := s2) q3 (by rw [← hmod]; exact hid1)
  obtain ⟨_, c19, h19, y4⟩ := M.bind_ok.1 y3
  obtain ⟨_, c20, h20, y5⟩ := M.bind_ok.1 y4
  cases y5
  have hpre : ∀ x, (thStart s).data ++ req ++ body ++ x = s.messageA ++ s.rspCertHash.getD [] ++ req ++ body ++ x := fun _ => rfl
  have t18 : Tables c6 (c17.updSession sid fun _ => s2) := t12.trans (q4.trans ⟨_, rfl⟩)
  generalize hc18 : (c17.updSession sid fun _ => s2) = c18 at *
  suffices hfin : ∃ s', PskLeft e c6 opaq { s1 with th := some ⟨s.hash, s.messageA ++ s.rspCertHash.getD [] ++ req ++ body ++ mac⟩ } s' ∧
      c'.session? sid = some s' ∧ Tables c6 c' by
    obtain ⟨s', g1, g2, g3⟩ := hfin
    exact ⟨th, mac, s1, s', by simpa [thStart] using hth1, by simpa [thStart] using hgen, by rw [← hh1]; exact q2, rfl, g1, g2, g3⟩
  unfold pskEstablish at h19
  by_cases hnc : c6.cc.pskNoContext = false
  · rw [if_pos hnc] at h19
    cases h19
    obtain ⟨s3, hm3, rfl⟩ := onSession_ok w1 h20
    rw [M.modify_apply] at hm3
    injection hm3 with _ hm3
    have hs3 : s3 = handshaking opaq c6.config.heartbeat { s1 with th := some ⟨s.hash, s.messageA ++ s.rspCertHash.getD [] ++ req ++ body ++ mac⟩ } := by
      rw [← hm3, ← hmod]
      exact pick_state _ _ _ .handshaking
    refine ⟨s3, ?_, session?_const w1 ?_, t18.trans ⟨_, rfl⟩⟩
    · unfold PskLeft; rw [hnc]; exact hs3
    · rw [hs3]; exact hid1
  · rw [if_neg hnc] at h19
    obtain ⟨th2, c21, h21, x1⟩ := M.bind_ok.1 h19
    obtain ⟨rfl, hth2⟩ := thOf_at w1 (by rw [← hmod]) h21
    obtain ⟨_, c22, h22, x2⟩ := M.bind_ok.1 x1
    cases h22
    obtain ⟨s4, c23, h23, x3⟩ := M.bind_ok.1 x2
    rw [unwrap_ok] at h23
    obtain ⟨h23, rfl⟩ := h23
    have h23 := Option.some.inj (w1.symm.trans h23)
    subst h23
    cases hg : Session.genData e.crypto c23.neg.version th2 s2 with
    | panic => simp only [hg] at x3; cases x3
    | err st s5 => simp only [hg] at x3; cases x3
    | ok u s5 =>
      simp only [hg, M.set_apply] at x3
      injection x3 with _ x3
      have hid5 : s5.id = sid := by
        have := ((Session.keep_genData _ _ _).ok hg).1
        rw [this, ← hmod]; exact hid1
      have w2 := session?_const (s' := { s5 with state := .established }) w1 hid5
      rw [x3] at w2
      obtain ⟨s3, hm3, rfl⟩ := onSession_ok w2 h20
      rw [M.modify_apply] at hm3
      injection hm3 with _ hm3
      have hs3 : s3 = { handshaking opaq c6.config.heartbeat s5 with state := .established } := by
        rw [← hm3]
        exact pick_state _ _ _ .established
      refine ⟨s3, ?_, session?_const w2 ?_, t18.trans ?_⟩
      · unfold PskLeft
        rw [if_pos (by simpa using hnc)]
        refine ⟨_, th2, s5, rfl, hth2, ?_, hs3⟩
        rw [← hg, t18.neg, ← hmod]
        simp [thStart]
      · rw [hs3]; exact hid5
      · rw [← x3]; exact ⟨_, rfl⟩

end Rsp
end Verif
