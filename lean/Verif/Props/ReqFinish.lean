/-
FINISH and PSK_FINISH at the requester (C38).
-/
import Verif.Props.ReqExchange
import Verif.Requester.FinishEx

namespace Verif.Props
open Req

variable {e : REnv}

/-- The data keys of a session over the master secret `master` and the transcript hash `th2` (DSP0274 "Key schedule"), at sequence number zero. -/
def DheDataKeys (p : Crypto) (v : SpdmVersion) (hash : BaseHash) (aead : Aead) (master th2 : Bytes) (s : Session) : Prop :=
  ∃ n, BaseHash.size? hash = some n ∧
    p.expand hash master ((Purpose.reqData th2).info n v) n = some s.app.reqSecret ∧
    p.expand hash master ((Purpose.rspData th2).info n v) n = some s.app.rspSecret ∧
    (∃ ks is, Aead.keySize? aead = some ks ∧ Aead.ivSize? aead = some is ∧
      p.expand hash s.app.reqSecret (Purpose.key.info ks v) 32 = some s.app.req.key ∧
      p.expand hash s.app.reqSecret (Purpose.iv.info is v) 12 = some s.app.req.salt ∧
      p.expand hash s.app.rspSecret (Purpose.key.info ks v) 32 = some s.app.rsp.key ∧
      p.expand hash s.app.rspSecret (Purpose.iv.info is v) 12 = some s.app.rsp.salt) ∧
    s.app.req.seq = 0 ∧ s.app.rsp.seq = 0

/-- The same from a pre-shared key. -/
def PskDataKeys (p : Crypto) (v : SpdmVersion) (hash : BaseHash) (aead : Aead) (hint th2 : Bytes) (s : Session) : Prop :=
  ∃ n, BaseHash.size? hash = some n ∧
    p.pskMaster v hash hint ((Purpose.reqData th2).info n v) = some s.app.reqSecret ∧
    p.pskMaster v hash hint ((Purpose.rspData th2).info n v) = some s.app.rspSecret ∧
    (∃ ks is, Aead.keySize? aead = some ks ∧ Aead.ivSize? aead = some is ∧
      p.expand hash s.app.reqSecret (Purpose.key.info ks v) 32 = some s.app.req.key ∧
      p.expand hash s.app.reqSecret (Purpose.iv.info is v) 12 = some s.app.req.salt ∧
      p.expand hash s.app.rspSecret (Purpose.key.info ks v) 32 = some s.app.rsp.key ∧
      p.expand hash s.app.rspSecret (Purpose.iv.info is v) 12 = some s.app.rsp.salt) ∧
    s.app.req.seq = 0 ∧ s.app.rsp.seq = 0

theorem dheData_of {p : Crypto} {v : SpdmVersion} {th2 : Bytes} {s s' : Session} (hp : s.usePsk = false) (happ : s.app = {}) (h : Session.genData p v th2 s = .ok () s') :
    DheDataKeys p v s.hash s.aead s.master th2 s' ∧ s' = { s with app := s'.app } := by
  obtain ⟨m, k1, k2, k3, k4, ⟨ks, is, k6, k7, k8, k9⟩, ⟨ks', is', j6, j7, j8, j9⟩, k10, k11, k12⟩ := C20_data_secrets _ _ _ _ _ h
  have hk : ks' = ks := Option.some.inj (j6.symm.trans k6)
  have hi : is' = is := Option.some.inj (j7.symm.trans k7)
  subst hk hi
  simp only [Derived, hp, Bool.false_eq_true, if_false] at k2 k3
  simp only [happ] at k10 k11
  exact ⟨⟨m, k1, k2, k3, ⟨ks', is', k6, k7, k8, k9, j8, j9⟩, k10, k11⟩, k12⟩

theorem pskData_of {p : Crypto} {v : SpdmVersion} {th2 hint : Bytes} {s s' : Session} (hp : s.usePsk = true) (hh : s.pskHint = some hint) (happ : s.app = {})
    (h : Session.genData p v th2 s = .ok () s') : PskDataKeys p v s.hash s.aead hint th2 s' ∧ s' = { s with app := s'.app } := by
  obtain ⟨m, k1, k2, k3, k4, ⟨ks, is, k6, k7, k8, k9⟩, ⟨ks', is', j6, j7, j8, j9⟩, k10, k11, k12⟩ := C20_data_secrets _ _ _ _ _ h
  have hk : ks' = ks := Option.some.inj (j6.symm.trans k6)
  have hi : is' = is := Option.some.inj (j7.symm.trans k7)
  subst hk hi
  simp only [Derived, hp, if_true, hh, Option.some.injEq, exists_eq_left'] at k2 k3
  simp only [happ] at k10 k11
  exact ⟨⟨m, k1, k2, k3, ⟨ks', is', k6, k7, k8, k9, j8, j9⟩, k10, k11⟩, k12⟩

/-- `finish` failed: the session is gone, except when the caller names a slot of its own that holds no certificate chain; then nothing was done. -/
theorem C38_failure {n : Nat} {c c' : Ctx} {slot : Option UInt8} {sid : UInt32} {st : Status} (hn : n < 0xFFFD) (hr : Req.Reachable n c) (h0 : sid ≠ 0)
    (h : Req.finish e slot sid c = .err st c') :
    c'.session? sid = none ∨ (c' = c ∧ st = .invalidStateLocal ∧ ∃ b, slot = some b ∧ ∀ i : Fin 8, i.val = b.toNat → c.prov.chain i = none) := by
  obtain ⟨hl, ht⟩ := hr.table hn
  rcases finish_err h0 ht (by omega) h with ⟨h1, h2, h3⟩ | h1
  · right
    refine ⟨h1, h3, ?_⟩
    unfold finishSlot at h2
    cases slot with
    | none => cases h2
    | some b =>
      refine ⟨b, rfl, ?_⟩
      dsimp only at h2
      split at h2
      · cases h2
      · rename_i hx
        intro i hi
        have : Ctx.slot? b = some i := by
          unfold Ctx.slot?
          rw [dif_pos (by omega)]
          congr 1
          exact Fin.ext hi.symm
        rw [this] at hx
        simpa using hx
  · exact .inl h1

/-- `psk_finish` failed: the session is gone. -/
theorem C38_psk_failure {n : Nat} {c c' : Ctx} {sid : UInt32} {st : Status} (hn : n < 0xFFFD) (hr : Req.Reachable n c) (h0 : sid ≠ 0)
    (h : Req.pskFinish e sid c = .err st c') : c'.session? sid = none := by
  obtain ⟨hl, ht⟩ := hr.table hn
  exact pskFinish_err h0 ht (by omega) h

/-- `finish` succeeded on a session in the handshake phase (no mutual authentication): FINISH carried the HMAC of the session transcript under the
request finished key; the answer was received in that session - or in the clear, and then its HMAC verified under the response finished key
over the transcript with FINISH; and the session is established with the data keys of its master secret and the whole transcript. -/
theorem C38_established_plain {c c' : Ctx} {slot : Option UInt8} {sid : UInt32} {s : Session} (hs : c.session? sid = some s) (hst : s.state = .handshaking)
    (hm : s.mutAuth = 0) (hp : s.usePsk = false) (happ : s.app = {}) (h : Req.finish e slot sid c = .ok () c') :
    ∃ sl x th mac bytes v p q rmac t th2 s' c0 c1,
      let req := [c.neg.version.get, 0xE5, 0, sl]
      let rsp := [v, 0x65, p, q]
      sl = slot.getD 0 ∧ s.th = some x ∧ e.crypto.hash x.algo (x.data ++ req) = some th ∧ e.crypto.hmac s.hash s.hs.reqFinished th = some mac ∧
      Said e (if c.cc.inClear then none else some sid) c0 (req ++ mac) bytes c1 ∧ c0.sent = c.sent ∧ (∃ s0, c0.session? sid = some s0 ∧ s0.hs = s.hs ∧ s0.state = s.state) ∧
      bytes = rsp ++ rmac ++ t ∧ (c.cc.inClear = false → rmac = []) ∧
      (c.cc.inClear = true → ∃ th', e.crypto.hash x.algo (x.data ++ req ++ mac ++ rsp) = some th' ∧ e.crypto.hmacVerify s.hash s.hs.rspFinished th' rmac = true) ∧
      e.crypto.hash x.algo (x.data ++ req ++ mac ++ rsp ++ rmac) = some th2 ∧
      c'.session? sid = some s' ∧ s'.state = .established ∧ DheDataKeys e.crypto c.neg.version s.hash s.aead s.master th2 s' := by
  obtain ⟨sl, x, th, mac, bytes, v, p, q, rmac, t, th2, s1, s', c0, c1, g1, g2, g3, g4, g5, g6, g7, g8, g9, g10, g11, g12, g13, g14, g15, g16, g17, -⟩ := finish_ok hs hm h
  have hp1 : s1.usePsk = false := by rw [g13.same]; exact hp
  have happ1 : s1.app = {} := (g13.app hst).trans happ
  obtain ⟨d1, d2⟩ := dheData_of hp1 happ1 g14
  have e1 : s1.hash = s.hash := by rw [g13.same]
  have e2 : s1.aead = s.aead := by rw [g13.same]
  have e3 : s1.master = s.master := by rw [g13.same]
  rw [e1, e2, e3] at d1
  refine ⟨sl, x, th, mac, bytes, v, p, q, rmac, t, th2, _, c0, c1, ?_, g2, g3, g4, g8, g6, ⟨_, g5, rfl, rfl⟩, g9, ?_, g11, g12, g15, rfl, d1⟩
  · unfold finishSlot at g1
    cases slot with
    | none => exact (Option.some.inj g1).symm
    | some b =>
      dsimp only at g1
      split at g1
      · exact (Option.some.inj g1).symm
      · cases g1
  · intro hc
    unfold OptOk at g10
    rw [hc] at g10
    simpa using g10

/-- `psk_finish` succeeded on a session in the handshake phase: the same for PSK_FINISH, whose answer always comes as a record of the session. -/
theorem C38_psk_established {c c' : Ctx} {sid : UInt32} {s : Session} {hint : Bytes} (hs : c.session? sid = some s) (hst : s.state = .handshaking)
    (hp : s.usePsk = true) (hh : s.pskHint = some hint) (happ : s.app = {}) (h : Req.pskFinish e sid c = .ok () c') :
    ∃ x th mac bytes p q t th2 s' c0 c1,
      let req := [c.neg.version.get, 0xE7, 0, 0]
      let rsp := [c.neg.version.get, 0x67, p, q]
      s.th = some x ∧ e.crypto.hash x.algo (x.data ++ req) = some th ∧ e.crypto.hmac s.hash s.hs.reqFinished th = some mac ∧
      Said e (some sid) c0 (req ++ mac) bytes c1 ∧ c0.sent = c.sent ∧ (∃ s0, c0.session? sid = some s0 ∧ s0.hs = s.hs ∧ s0.state = s.state) ∧
      bytes = rsp ++ t ∧ e.crypto.hash x.algo (x.data ++ req ++ mac ++ rsp) = some th2 ∧
      c'.session? sid = some s' ∧ s'.state = .established ∧ PskDataKeys e.crypto c.neg.version s.hash s.aead hint th2 s' := by
  obtain ⟨x, th, mac, bytes, p, q, t, th2, s1, s', c0, c1, g2, g3, g4, g5, g6, g7, g8, g9, g12, g13, g14, g15, g16, -⟩ := pskFinish_ok hs (.inr hp) h
  have hp1 : s1.usePsk = true := by rw [g13.same]; exact hp
  have hh1 : s1.pskHint = some hint := by rw [g13.same]; exact hh
  have happ1 : s1.app = {} := (g13.app hst).trans happ
  obtain ⟨d1, d2⟩ := pskData_of hp1 hh1 happ1 g14
  have e1 : s1.hash = s.hash := by rw [g13.same]
  have e2 : s1.aead = s.aead := by rw [g13.same]
  rw [e1, e2] at d1
  exact ⟨x, th, mac, bytes, p, q, t, th2, _, c0, c1, g2, g3, g4, g8, g6, ⟨_, g5, rfl, rfl⟩, g9, g12, g15, rfl, d1⟩

/-- KEY_EXCHANGE followed by FINISH, both successful, on any requester that connected: the session is established with the data keys of the
Diffie-Hellman secret and the hash of the transcript of the negotiation, the certificate chain, KEY_EXCHANGE and FINISH as sent and received. -/
theorem C38_session_plain {n : Nat} {e0 e1 e2 : REnv} {c0 c c1 c2 c3 : Ctx} {h : List (REnv × Op)} {slot : UInt8} {fslot : Option UInt8} {t : SummaryHashType} {sid : UInt32} (hn : n < 0xFFFD)
    (h0 : Req.Reachable n c0) (hc : initConnection e0 c0 = .ok () c) (hr : Runs c h c1) (hh : ∀ x ∈ h, x.2.restart = false)
    (hk : Req.keyExchange e1 slot t c1 = .ok sid c2) (hm : (c2.session? sid).map (·.mutAuth) = some 0) (hf : Req.finish e2 fslot sid c2 = .ok () c3) :
    ∃ ts, Past e0 c0 c h c1 ts ∧ ∃ reqId random exchange opaq fin p m certHash final d certs th1 k,
      let ask := keyExAsk c1 t slot reqId random exchange opaq; let heard := keyExHeard c1.neg.version.get p m
      fin m.exchange = some final ∧ e1.dheGen c1.neg.dhe = some (exchange, fin) ∧ CertsOf c1 slot certs ∧
      e1.crypto.hash c1.neg.baseHash (ts.a ++ certHash ++ ask ++ heard) = some d ∧ e1.verify c1.neg.baseHash c1.neg.baseAsym certs (Spec.signedData .keyExchangeRsp d) m.signature = true ∧
      e1.crypto.hash c1.neg.baseHash (ts.a ++ certHash ++ ask ++ heard ++ m.signature) = some th1 ∧
      DheHandshakeKeys e1.crypto c1.neg.version c1.neg.baseHash c1.neg.aead final th1 k ∧
      ∃ mac v p q rmac th2 s', let req := [c1.neg.version.get, 0xE5, 0, fslot.getD 0]; let rsp := [v, 0x65, p, q]
        e2.crypto.hash c1.neg.baseHash (ts.a ++ certHash ++ ask ++ heard ++ m.signature ++ m.verify ++ req ++ mac ++ rsp ++ rmac) = some th2 ∧
        c3.session? sid = some s' ∧ s'.state = .established ∧ DheDataKeys e2.crypto c1.neg.version c1.neg.baseHash c1.neg.aead k.master th2 s' := by
  obtain ⟨ts, hp, reqId, random, exchange, opaq, fin, p, m, rest, chain, certHash, final, d, certs, th1, s, cx, g⟩ := C36_authentic hn h0 hc hr hh hk
  dsimp only at g
  obtain ⟨-, g2, -, -, -, g6, -, -, g9, g10, g11, g12, -, -, g15, g16, g17, g18, g19, g20, g21, g22, -, g24, g25⟩ := g
  rw [g15] at hm
  obtain ⟨sl, x, th, mac, bytes, v, p', q, rmac, rest', th2, s', c5, c6, k1, k2, k3, k4, -, -, -, -, -, -, k11, k12, k13, k14⟩ :=
    C38_established_plain g15 g16 (Option.some.inj hm) g17 g21 hf
  rw [g24] at k2; cases k2
  rw [g22, g19, g20] at *
  subst k1
  exact ⟨ts, hp, reqId, random, exchange, opaq, fin, p, m, certHash, final, d, certs, th1, s, g6, g2, g9, g10, g11, g12, g25, mac, v, p', q, rmac, th2, s', k11, k12, k13, k14⟩

/-- A failing `finish` with an empty slot of one's own leaves the session as it was. -/
theorem C38_empty_slot_violated : ((Toy.runOps Toy.renv Toy.req0 [.connect, .certificate 20 none 0, .keyExchange 0 .none, .finish (some 3) 0xFFFDFFFD]).map fun x =>
    (x.1, (x.2.session? 0xFFFDFFFD).map (·.state))) = some ([none, none, none, some .invalidStateLocal], some .handshaking) := by decide +kernel

/-- the requester of the toy environment up to and including `op`, after the operations `l`. -/
theorem toy_upto (l : List Op) (op : Op) (h : (Toy.runOps Toy.renv Toy.req0 (l ++ [op])).map (·.1) = some (List.replicate (l.length + 1) none)) :
    ∃ c c', Runs Toy.req0 (l.map (Toy.renv, ·)) c ∧ op.run Toy.renv c = .ok () c' := by
  generalize Toy.req0 = c0 at *
  induction l generalizing c0 with
  | nil =>
    obtain ⟨c, h1, -⟩ := toyStep h
    exact ⟨c0, c, .nil, h1⟩
  | cons a l ih =>
    obtain ⟨c1, h1, h2⟩ := toyStep h
    obtain ⟨c, c', h3, h4⟩ := ih _ h2
    exact ⟨c, c', .cons (.inl h1) h3, h4⟩

/-- the hypotheses of `C38_established_plain` are met. -/
example : ∃ c c', Runs Toy.req0 ([.connect, .certificate 20 none 0, .keyExchange 0 .none].map (Toy.renv, ·)) c ∧ Req.finish Toy.renv none 0xFFFDFFFD c = .ok () c' :=
  toy_upto _ (.finish none 0xFFFDFFFD) (by decide +kernel)

example : ((toyReq [.connect, .certificate 20 none 0, .keyExchange 0 .none]).session? 0xFFFDFFFD).map (fun s => (s.state, s.mutAuth, s.usePsk, s.app == {})) =
    some (.handshaking, 0, false, true) := by decide +kernel

/-- and those of `C38_failure`: no answer comes, or one that is no record of the session. -/
example : ((Toy.runOps Toy.renv Toy.req0 [.connect, .certificate 20 none 0, .keyExchange 0 .none]).bind fun x =>
    (Toy.runOps { Toy.renv with recv := fun _ => none } x.2 [.finish none 0xFFFDFFFD]).bind fun y =>
    (Toy.runOps { Toy.renv with recv := fun _ => some [6, 0xFD, 0xFF, 0xFD, 0xFF, 1, 2, 3, 4, 5] } x.2 [.finish none 0xFFFDFFFD]).map fun z =>
      (y.1, z.1, (x.2.session? 0xFFFDFFFD).isSome, (y.2.session? 0xFFFDFFFD).isSome, (z.2.session? 0xFFFDFFFD).isSome)) =
    some ([some .receiveFail], [some .decodeAeadFail], true, false, false) := by decide +kernel

/-- the hypotheses of `C38_psk_established` are met. -/
example : ∃ c c', Runs Toy.req0 ([.connect, .pskExchange .none []].map (Toy.renv, ·)) c ∧ Req.pskFinish Toy.renv 0xFFFDFFFD c = .ok () c' :=
  toy_upto _ (.pskFinish 0xFFFDFFFD) (by decide +kernel)

end Verif.Props
