/-
What a requester knows when KEY_EXCHANGE or PSK_EXCHANGE succeeds (C36).
-/
import Verif.Props.ReqAuth

namespace Verif.Props
open Req

variable {e : REnv}

theorem dheHandshake_open {c : Ctx} {sid : UInt32} {slot mutAuth : UInt8} {certHash final root master th1 : Bytes} {x : Option HashCtx} {s1 : Session}
    (h1 : KeySched.handshakeSecret e.crypto c.neg.baseHash final = .ok root)
    (h2 : KeySched.masterSecret e.crypto c.neg.version c.neg.baseHash root = .ok master)
    (h : Session.genHandshake e.crypto c.neg.version th1 { dheOpen e.toEnv c sid slot mutAuth certHash final root master with th := x } = .ok () s1) :
    DheHandshakeKeys e.crypto c.neg.version c.neg.baseHash c.neg.aead final th1 s1 ∧
      s1 = { dheOpen e.toEnv c sid slot mutAuth certHash final root master with th := x, hs := s1.hs } := by
  obtain ⟨n, salt, g1, g2, g3, g4, -⟩ := C20_root_secrets e.crypto c.neg.version final { Session.new with hash := c.neg.baseHash } _
    (Session.setDheSecret_ok.2 ⟨root, master, h1, h2, rfl⟩)
  obtain ⟨m, k1, k2, k3, k4, k5, ⟨ks, is, k6, k7, k8, k9⟩, ⟨ks', is', j6, j7, j8, j9⟩, k10, k11, k12⟩ := C20_handshake_secrets _ _ _ _ _ h
  have hm : m = n := Option.some.inj (k1.symm.trans g1)
  subst hm
  have hk : ks' = ks := Option.some.inj (j6.symm.trans k6)
  have hi : is' = is := Option.some.inj (j7.symm.trans k7)
  subst hk hi
  refine ⟨⟨m, root, salt, g1, g2, g3, ?_, k2, k3, k4, k5, ⟨ks', is', k6, k7, k8, k9, j8, j9⟩, k10, k11⟩, k12⟩
  rw [k12]; exact g4

/-- KEY_EXCHANGE returned a session: the answer's signature verified under the certificates stored for the slot over the hash of the session
transcript (the negotiation, the hash of the stored chain, request and response up to the signature); unless the handshake is in the clear the
answer's HMAC verified over that transcript with the signature; and the session is in the handshake phase with the keys of the
Diffie-Hellman secret and that transcript. -/
theorem C36_authentic {n : Nat} {e0 e : REnv} {c0 c c1 c2 : Ctx} {h : List (REnv × Op)} {slot : UInt8} {t : SummaryHashType} {sid : UInt32} (hn : n < 0xFFFD)
    (h0 : Req.Reachable n c0) (hc : initConnection e0 c0 = .ok () c) (hr : Runs c h c1) (hh : ∀ x ∈ h, x.2.restart = false)
    (hx : Req.keyExchange e slot t c1 = .ok sid c2) :
    ∃ ts, Past e0 c0 c h c1 ts ∧ ∃ reqId random exchange opaq fin p m rest chain certHash final d certs th1 s cx,
      let req := keyExAsk c1 t slot reqId random exchange opaq; let body := keyExHeard c1.neg.version.get p m; let transcript := ts.a ++ certHash ++ req ++ body
      Ctx.random e.toEnv 32 = some random ∧ e.dheGen c1.neg.dhe = some (exchange, fin) ∧
      Said e none (Ctx.resetBuffers .reqKeyExchange none c1) req (body ++ m.signature ++ m.verify ++ rest) cx ∧ Took c1.neg (body ++ m.signature ++ m.verify ++ rest) (body ++ m.signature ++ m.verify) ∧
      sid = Rsp.joinId m.rspSession reqId ∧ fin m.exchange = some final ∧
      (∃ i : Fin 8, i.val = slot.toNat ∧ c1.peer.chain i = some chain) ∧ e.crypto.hash c1.neg.baseHash chain = some certHash ∧ CertsOf c1 slot certs ∧
      e.crypto.hash c1.neg.baseHash transcript = some d ∧ e.verify c1.neg.baseHash c1.neg.baseAsym certs (Spec.signedData .keyExchangeRsp d) m.signature = true ∧
      e.crypto.hash c1.neg.baseHash (transcript ++ m.signature) = some th1 ∧
      (c1.cc.inClear = true → m.verify = []) ∧ (c1.cc.inClear = false → e.crypto.hmacVerify c1.neg.baseHash s.hs.rspFinished th1 m.verify = true) ∧
      c2.session? sid = some s ∧ s.state = .handshaking ∧ s.usePsk = false ∧ s.mutAuth = m.mutAuth ∧ s.hash = c1.neg.baseHash ∧ s.aead = c1.neg.aead ∧ s.app = {} ∧
      c2.neg = c1.neg ∧ s.heartbeat = m.heartbeat ∧ s.th = some ⟨c1.neg.baseHash, transcript ++ m.signature ++ m.verify⟩ ∧
      DheHandshakeKeys e.crypto c1.neg.version c1.neg.baseHash c1.neg.aead final th1 s := by
  obtain ⟨ts, hp, hf, hlen, htab⟩ := past_of hn h0 hc hr hh
  obtain ⟨-, i, reqId, random, exchange, opaq, fin, pkt, bytes, rest, p, m, version, certHash, final, root, master, d, certs, th1, s0, s1, g1, g2, g3, g4, g5, g6, rfl, g8, rfl, g10, g11,
    g12, g13, g14, g15, g16, gneg⟩ := keyExchange_ok htab (by omega) hx
  dsimp only at g16
  obtain ⟨k1, k2, k3, k4, k5, k6, k7, k8, k9⟩ := g16
  obtain ⟨chain, j1, j2⟩ := Option.bind_eq_some_iff.1 g12
  rw [hf.a] at k1 k5 k6 k9
  rw [g15] at k6
  obtain ⟨d1, d2⟩ := dheHandshake_open g13 g14 k6
  refine ⟨ts, hp, reqId, random, exchange, opaq, fin, p, m, rest, chain, certHash, final, d, certs, th1, started version m.heartbeat { s1 with th := some ⟨c1.neg.baseHash, ts.a ++ certHash ++ keyExAsk c1 t slot reqId random exchange opaq ++ keyExHeard c1.neg.version.get p m ++ m.signature ++ m.verify⟩ }, _, g3, g4, g6, g8, rfl, g10, ⟨i, g1, j1⟩, j2, k2, k1, k4, k5, k7, k8, k9, rfl, ?_, ?_, ?_, ?_, ?_, ?_, rfl, rfl, d1⟩
  all_goals first | (unfold started; rw [d2]; done) | (unfold started; rw [d2]; rfl) | (obtain ⟨l, rfl⟩ := gneg; rfl)

/-- the hypotheses of `C36_authentic` are met. -/
def toyBefore : List Op := [.certificate 20 none 0]

theorem toy_connects (op : Op) (h : (Toy.runOps Toy.renv Toy.req0 (.connect :: (toyBefore ++ [op]))).map (·.1) = some [none, none, none]) :
    ∃ c c1 c2, initConnection Toy.renv Toy.req0 = .ok () c ∧ Runs c (toyBefore.map (Toy.renv, ·)) c1 ∧ op.run Toy.renv c1 = .ok () c2 := by
  obtain ⟨c, h1, g1⟩ := toyStep h
  obtain ⟨c1, h2, g2⟩ := toyStep g1
  obtain ⟨c2, h3, -⟩ := toyStep g2
  exact ⟨c, c1, c2, h1, .cons (.inl h2) .nil, h3⟩

example : ∃ c c1 c2 sid, initConnection Toy.renv Toy.req0 = .ok () c ∧ Runs c (toyBefore.map (Toy.renv, ·)) c1 ∧ Req.keyExchange Toy.renv 0 .none c1 = .ok sid c2 := by
  obtain ⟨c, c1, c2, h1, h2, h3⟩ := toy_connects (.keyExchange 0 .none) (by decide +kernel)
  obtain ⟨sid, h4⟩ := quiet_ok h3
  exact ⟨c, c1, c2, sid, h1, h2, h4⟩

theorem pskDone_phase {c : Ctx} {version hb : UInt8} {hint tr : Bytes} {s s' : Session} (hth : s.th = some ⟨c.neg.baseHash, tr⟩) (hh : s.hash = c.neg.baseHash) (ha : s.aead = c.neg.aead)
    (happ : s.app = {}) (hp : s.usePsk = true) (hhint : s.pskHint = some hint) (h : PskDone e c version hb s s') :
    PskPhase e.crypto c.neg.version c.neg.baseHash c.neg.aead c.cc.pskNoContext hint tr s' ∧ s'.hs = s.hs ∧ s'.th = s.th ∧ s'.usePsk = true ∧ s'.heartbeat = hb ∧
      s'.hash = c.neg.baseHash ∧ s'.aead = c.neg.aead ∧ s'.pskHint = some hint := by
  unfold PskDone at h
  unfold PskPhase
  split at h
  · rename_i hnc
    rw [if_pos hnc]
    obtain ⟨x, th2, s2, h1, h2, h3, rfl⟩ := h
    rw [hth] at h1; cases h1
    obtain ⟨m, k1, k2, k3, k4, ⟨ks, is, k6, k7, k8, k9⟩, ⟨ks', is', j6, j7, j8, j9⟩, k10, k11, k12⟩ := C20_data_secrets _ _ _ _ _ h3
    have hk : ks' = ks := Option.some.inj (j6.symm.trans k6)
    have hi : is' = is := Option.some.inj (j7.symm.trans k7)
    subst hk hi
    simp only [Derived, hp, if_true, hhint, Option.some.injEq, exists_eq_left'] at k2 k3
    simp only [hh, ha, happ] at k1 k2 k3 k6 k7 k8 k9 j8 j9 k10 k11
    refine ⟨⟨rfl, m, th2, h2, k1, k2, k3, ⟨ks', is', k6, k7, k8, k9, j8, j9⟩, k10, k11⟩, ?_, ?_, ?_, rfl, ?_, ?_, ?_⟩
    · rw [k12]
    · rw [k12]
    · rw [k12]; exact hp
    · rw [k12]; exact hh
    · rw [k12]; exact ha
    · rw [k12]; exact hhint
  · rename_i hnc
    rw [if_neg hnc]
    subst h
    exact ⟨⟨rfl, happ⟩, rfl, rfl, hp, rfl, hh, ha, hhint⟩

/-- PSK_EXCHANGE returned a session: the answer's HMAC verified, under the response finished key of the pre-shared key named by the hint, over the hash
of the session transcript (the negotiation, the request, the response up to the HMAC).  The session holds those keys; it is in the
handshake phase, or established with the data keys if the responder has no context. -/
theorem C36_psk_authentic {n : Nat} {e0 e : REnv} {c0 c c1 c2 : Ctx} {h : List (REnv × Op)} {t : SummaryHashType} {hint : Bytes} {sid : UInt32} (hn : n < 0xFFFD)
    (h0 : Req.Reachable n c0) (hc : initConnection e0 c0 = .ok () c) (hr : Runs c h c1) (hh : ∀ x ∈ h, x.2.restart = false)
    (hx : Req.pskExchange e t hint c1 = .ok sid c2) :
    ∃ ts, Past e0 c0 c h c1 ts ∧ ∃ reqId context opaq p q m rest th1 s cx,
      let req := pskExAsk c1 t reqId hint context opaq; let body := pskHeard c1.neg.version.get p q m; let transcript := ts.a ++ req ++ body
      (∃ x, Ctx.random e.toEnv 64 = some x ∧ context <+: x) ∧ BaseHash.size? c1.neg.baseHash = some context.length ∧
      Said e none (Ctx.resetBuffers .reqPskExchange none c1) req (body ++ m.verify ++ rest) cx ∧ Took c1.neg (body ++ m.verify ++ rest) (body ++ m.verify) ∧
      sid = Rsp.joinId m.rspSession reqId ∧ e.crypto.hash c1.neg.baseHash transcript = some th1 ∧ e.crypto.hmacVerify c1.neg.baseHash s.hs.rspFinished th1 m.verify = true ∧
      c2.session? sid = some s ∧ s.usePsk = true ∧ s.hash = c1.neg.baseHash ∧ s.aead = c1.neg.aead ∧ s.pskHint = some hint ∧ c2.neg = c1.neg ∧
      s.heartbeat = m.heartbeat ∧ s.th = some ⟨c1.neg.baseHash, transcript ++ m.verify⟩ ∧
      PskHandshakeKeys e.crypto c1.neg.version c1.neg.baseHash c1.neg.aead hint th1 s ∧
      PskPhase e.crypto c1.neg.version c1.neg.baseHash c1.neg.aead c1.cc.pskNoContext hint (transcript ++ m.verify) s := by
  obtain ⟨ts, hp, hf, hlen, htab⟩ := past_of hn h0 hc hr hh
  obtain ⟨reqId, context, opaq, hsz, pkt, bytes, rest, p, q, m, version, th1, s0, s1, s', g1, g2, g3, g4, g5, rfl, g7, rfl, g9, g10, g11, gneg⟩ := pskExchange_ok htab (by omega) hx
  dsimp only at g11
  obtain ⟨k1, k2, k3, k4, k5⟩ := g11
  rw [hf.a] at k1 k2 k4
  rw [g10] at k2
  obtain ⟨d1, d2⟩ := pskHandshake_of k2
  obtain ⟨p1, p2, p3, p4, p5, p6, p7, p8⟩ := pskDone_phase (hint := hint) (tr := ts.a ++ pskExAsk c1 t reqId hint (context.take hsz) opaq ++ pskHeard c1.neg.version.get p q m ++ m.verify) rfl
    (by rw [d2]; rfl) (by rw [d2]; rfl) (by rw [d2]; rfl) (by rw [d2]; rfl) (by rw [d2]; rfl) k4
  have hs64 := Rsp.hashSize_le (c := c1.cc) g3
  have hrl := Rsp.random_length g2
  refine ⟨ts, hp, reqId, context.take hsz, opaq, p, q, m, rest, th1, s', _, ⟨context, g2, List.take_prefix _ _⟩, ?_, g5, g7, rfl, k1, ?_, k5, p4, p6, p7, p8, (by obtain ⟨l, rfl⟩ := gneg; rfl), p5, p3, ?_, p1⟩
  · rw [g3, List.length_take, hrl]; congr 1; omega
  · rw [p2]; exact k3
  · unfold PskHandshakeKeys at d1 ⊢
    rw [p2]; exact d1

example : ∃ c c1 c2 sid, initConnection Toy.renv Toy.req0 = .ok () c ∧ Runs c (toyBefore.map (Toy.renv, ·)) c1 ∧ Req.pskExchange Toy.renv .none [] c1 = .ok sid c2 := by
  obtain ⟨c, c1, c2, h1, h2, h3⟩ := toy_connects (.pskExchange .none []) (by decide +kernel)
  obtain ⟨sid, h4⟩ := quiet_ok h3
  exact ⟨c, c1, c2, sid, h1, h2, h4⟩

/-- A KEY_EXCHANGE refused because of its signature leaves its session slot taken: after two such answers a requester with two slots can open no
session, although it never had one. -/
theorem C36_leak_violated : ((Toy.runOps suspicious Toy.req0 [.connect, .certificate 20 none 0, .keyExchange 0 .none, .keyExchange 0 .none, .keyExchange 0 .none]).map fun x =>
    (x.1, x.2.sessions.map (·.state), x.2.sessions.map (·.id != 0))) =
    some ([none, none, some .verifFail, some .verifFail, some .sessionNumberExceed], [.notStarted, .notStarted], [true, true]) := by decide +kernel

end Verif.Props
