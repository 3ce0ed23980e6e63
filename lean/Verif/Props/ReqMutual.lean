/-
FINISH at the requester with and without mutual authentication (C38).
-/
import Verif.Props.ReqFinish
import Verif.Props.Encap
import Verif.Props.EncapRsp
import Verif.Requester.FinishMutual

namespace Verif.Props
open Req

variable {e : REnv}

/-- What FINISH adds for mutual authentication: `pre` and `sig` enter the session transcript, `field` is on the wire.  Without it, nothing.  With it `pre` is the hash of the
requester's own certificate chain, `sig` the requester's signature over the transcript with the header of FINISH, checked before it is sent; on the wire it has the size of the
negotiated signature algorithms of both sides, which must agree.  (The library signs with the responder's algorithm, and cuts its own certificates at the length of the *peer's*
chain.) -/
def FinishProof (e : REnv) (c : Ctx) (s : Session) (x : HashCtx) (head pre sig field : Bytes) : Prop :=
  (s.mutAuth = 0 ∧ pre = [] ∧ sig = [] ∧ field = []) ∨
  (s.mutAuth ≠ 0 ∧ ∃ (i : Fin 8) (own peer : Bytes) (n k : Nat) (d : Bytes),
    i.val = c.rt.localSlot.toNat ∧ c.prov.chain i = some own ∧ e.crypto.hash c.neg.baseHash own = some pre ∧
    ReqAsym.size? c.neg.reqAsym = some n ∧ BaseAsym.size? c.neg.baseAsym = some n ∧
    e.crypto.hash x.algo (x.data ++ pre ++ head) = some d ∧ e.sign c.neg.baseHash c.neg.baseAsym (Spec.signedData .finish d) = some sig ∧
    field = (sig ++ List.replicate n 0).take n ∧
    c.peer.chain i = some peer ∧ BaseHash.size? c.neg.baseHash = some k ∧
    e.verify c.neg.baseHash c.neg.baseAsym (((own ++ List.replicate (4164 - own.length) 0).drop (4 + k)).take (peer.length - (4 + k))) (Spec.signedData .finish d) sig = true)

theorem ownCerts_ok {c : Ctx} {certs : Bytes} (h : ownCerts c = .ok certs) : ∃ i own peer k, Ctx.slot? c.rt.localSlot = some i ∧ c.prov.chain i = some own ∧
    c.peer.chain i = some peer ∧ BaseHash.size? c.neg.baseHash = some k ∧
    certs = ((own ++ List.replicate (4164 - own.length) 0).drop (4 + k)).take (peer.length - (4 + k)) := by
  unfold ownCerts at h
  obtain ⟨i, h1, h⟩ := Res.bind_ok.1 h
  obtain ⟨own, h2, h⟩ := Res.bind_ok.1 h
  obtain ⟨k, h3, h⟩ := Res.bind_ok.1 h
  obtain ⟨peer, h4, h⟩ := Res.bind_ok.1 h
  split at h
  · cases h
    refine ⟨i, own, peer, k, ?_, Res.ofOption_ok.1 h2, Res.ofOption_ok.1 h4, ?_, rfl⟩
    · cases hz : Ctx.slot? c.rt.localSlot with
      | none => rw [hz] at h1; cases h1
      | some j => rw [hz] at h1; cases h1; rfl
    · cases hz : c.cc.hashSize? with
      | none => rw [hz] at h3; cases h3
      | some j => rw [hz] at h3; cases h3; exact hz
  · cases h

theorem slot?_val {b : UInt8} {i : Fin 8} (h : Ctx.slot? b = some i) : i.val = b.toNat := by
  unfold Ctx.slot? at h
  split at h
  · cases h; rfl
  · cases h

theorem finishSlot_getD {c : Ctx} {slot : Option UInt8} {sl : UInt8} (h : finishSlot c slot = some sl) : sl = slot.getD 0 := by
  unfold finishSlot at h
  cases slot with
  | none => exact (Option.some.inj h).symm
  | some b =>
    dsimp only at h
    split at h
    · exact (Option.some.inj h).symm
    · cases h

/-- **C38** `finish` succeeded on a DHE session in the handshake phase, with or without mutual authentication: FINISH carried the HMAC of the session transcript under the request
finished key, and the requester's signature when the responder asked for it (`FinishProof`); the answer was received in that session - or in the clear, and then its HMAC verified
under the response finished key over the transcript with FINISH; and the session is established with the data keys of its master secret and the whole transcript. -/
theorem C38_established {c c' : Ctx} {slot : Option UInt8} {sid : UInt32} {s : Session} (hs : c.session? sid = some s) (hst : s.state = .handshaking)
    (hp : s.usePsk = false) (happ : s.app = {}) (hf : s.fInit = false) (h : Req.finish e slot sid c = .ok () c') :
    ∃ x pre sig field th mac bytes v p q rmac t th2 s' c0 c1,
      let head := [c.neg.version.get, 0xE5, if s.mutAuth = 0 then 0 else 1, slot.getD 0]
      let rsp := [v, 0x65, p, q]
      let told := x.data ++ pre ++ head ++ sig ++ mac
      s.th = some x ∧ FinishProof e c s x head pre sig field ∧
      e.crypto.hash x.algo (x.data ++ pre ++ head ++ sig) = some th ∧ e.crypto.hmac s.hash s.hs.reqFinished th = some mac ∧
      Said e (if c.cc.inClear then none else some sid) c0 (head ++ field ++ mac) bytes c1 ∧ c0.sent = c.sent ∧ (∃ s0, c0.session? sid = some s0 ∧ s0.hs = s.hs ∧ s0.state = s.state) ∧
      bytes = rsp ++ rmac ++ t ∧ (c.cc.inClear = false → rmac = []) ∧
      (c.cc.inClear = true → ∃ th', e.crypto.hash x.algo (told ++ rsp) = some th' ∧ e.crypto.hmacVerify s.hash s.hs.rspFinished th' rmac = true) ∧
      e.crypto.hash x.algo (told ++ rsp ++ rmac) = some th2 ∧
      c'.session? sid = some s' ∧ s'.state = .established ∧ DheDataKeys e.crypto c.neg.version s.hash s.aead s.master th2 s' := by
  by_cases hm : s.mutAuth = 0
  · obtain ⟨sl, x, th, mac, bytes, v, p, q, rmac, t, th2, s', c0, c1, rfl, g⟩ := C38_established_plain hs hst hm hp happ h
    obtain ⟨g2, g3, g4, g5, g6, g7, g8, g9, g10, g11, g12, g13, g14⟩ := g
    refine ⟨x, [], [], [], th, mac, bytes, v, p, q, rmac, t, th2, s', c0, c1, ?_⟩
    rw [if_pos hm]
    simp only [List.append_nil]
    exact ⟨g2, .inl ⟨hm, rfl, rfl, rfl⟩, g3, g4, g5, g6, g7, g8, g9, g10, g11, g12, g13, g14⟩
  · obtain ⟨sl, x, i, own, pre, n, d, sig, certs, th, mac, bytes, v, p, q, rmac, t, th2, s1, s', c0, c1, a1, a2, a3, a4, a5, a6, a7, a8, a9, a10, a11, a12, a13, a14, a15, a16, a17,
      a18, a19, a20, a21, a22, a23, a24⟩ := finish_own hs hm hp hf h
    obtain rfl := finishSlot_getD a1
    obtain ⟨i', own', peer, k, b1, b2, b3, b4, rfl⟩ := ownCerts_ok a11
    rw [a3] at b1; cases b1
    rw [a4] at b2; cases b2
    have hp1 : s1.usePsk = false := by rw [a22.same]; exact hp
    have happ1 : s1.app = {} := (a22.app hst).trans happ
    obtain ⟨d1, -⟩ := dheData_of hp1 happ1 a23
    have e1 : s1.hash = s.hash := by rw [a22.same]
    have e2 : s1.aead = s.aead := by rw [a22.same]
    have e3 : s1.master = s.master := by rw [a22.same]
    rw [e1, e2, e3] at d1
    refine ⟨x, pre, sig, (sig ++ List.replicate n 0).take n, th, mac, bytes, v, p, q, rmac, t, th2, { s' with state := .established }, c0, c1, ?_⟩
    rw [if_neg hm]
    refine ⟨a2, .inr ⟨hm, i, own, peer, n, k, d, slot?_val a3, a4, a5, a6, a7, a9, a10, rfl, b3, b4, a12⟩, a13, a14, a17, a16, ⟨_, a15, rfl, rfl⟩, a18, ?_, a20, a21, a24, rfl, d1⟩
    intro hc
    unfold OptOk at a19
    rw [hc] at a19
    simpa using a19

theorem counted_trans {a b c : Session} (h : Counted a b) (h' : Counted b c) : Counted a c := by
  have hst : b.state = a.state := by rw [h.same]
  refine ⟨?_, h'.reqFinished.trans h.reqFinished, h'.rspFinished.trans h.rspFinished, fun g => (h'.app (hst.trans g)).trans (h.app g)⟩
  obtain ⟨h1, -, -, -⟩ := h
  rw [h'.same, h1]

theorem counted_one (s : Session) (b : Bool) : Counted s (s.bump b) := by
  cases s with
  | mk i p m st =>
    cases st <;> cases b <;> exact ⟨rfl, rfl, rfl, fun h => by first | rfl | cases h⟩

/-- the encapsulated exchange leaves the session as it is, but for the record counters. -/
theorem serving_session {sid : UInt32} {c c' : Ctx} {s : Session} (h : Encap.Serving e sid c c') (hs : c.session? sid = some s) : ∃ s', c'.session? sid = some s' ∧ Counted s s' := by
  induction h with
  | none => exact ⟨s, hs, .refl s⟩
  | count b _ g ih =>
    obtain ⟨s1, h1, h2⟩ := ih
    rw [g] at h1; cases h1
    exact ⟨_, Rsp.session?_const g (by rw [Session.bump_id]; exact Rsp.session?_id g), counted_trans h2 (counted_one _ b)⟩
  | tell _ _ g ih =>
    obtain ⟨s1, h1, h2⟩ := ih
    obtain ⟨pkt, s2, g1, -, -, rfl⟩ := g
    rw [g1] at h1; cases h1
    exact ⟨_, Rsp.session?_const (c := _) g1 (by rw [Session.bump_id]; exact Rsp.session?_id g1), counted_trans h2 (counted_one _ true)⟩
  | slot _ _ ih => exact ih

theorem keyExchange_first {n : Nat} {e : REnv} {c c' : Ctx} {slot : UInt8} {t : SummaryHashType} {sid : UInt32} {s : Session} (hn : n < 0xFFFD) (hl : c.sessions.length = n)
    (ht : ReqTable 0 c.sessions) (h : Req.keyExchange e slot t c = .ok sid c') (hs : c'.session? sid = some s) : s.fInit = false := by
  obtain ⟨-, i, reqId, random, exchange, opaq, fin, pkt, bytes, rest, p, m, version, certHash, final, root, master, d, certs, th1, s0, s1, g1, g2, g3, g4, g5, g6, rfl, g8, rfl, g10, g11,
    g12, g13, g14, g15, g16, gneg⟩ := keyExchange_ok ht (by omega) h
  dsimp only at g16
  obtain ⟨k1, k2, k3, k4, k5, k6, k7, k8, k9⟩ := g16
  rw [g15] at k6
  obtain ⟨-, d2⟩ := dheHandshake_open g13 g14 k6
  rw [hs] at k9
  cases k9
  unfold started
  rw [d2]
  rfl

/-- **C38** KEY_EXCHANGE, then the encapsulated exchange in which the requester hands over its certificates (or none), then FINISH, all successful, on any requester that connected:
the session is established with the data keys of the Diffie-Hellman secret and the hash of the transcript of the negotiation, the certificate chain, KEY_EXCHANGE, the requester's
proof (`FinishProof`, empty exactly when the responder asked for none) and FINISH as sent and received. -/
theorem C38_session {n : Nat} {e0 e1 ex e2 : REnv} {c0 c c1 c2 d2 c3 : Ctx} {h : List (REnv × Op)} {slot : UInt8} {fslot : Option UInt8} {t : SummaryHashType} {sid : UInt32} (hn : n < 0xFFFD)
    (h0 : Req.Reachable n c0) (hc : initConnection e0 c0 = .ok () c) (hr : Runs c h c1) (hh : ∀ x ∈ h, x.2.restart = false)
    (hk : Req.keyExchange e1 slot t c1 = .ok sid c2)
    (hx : d2 = c2 ∨ (Rsp.HashLaw ex.toEnv ∧ Encap.Small c2 ∧ ∃ fuel m, Encap.exchange ex fuel sid m c2 = .ok () d2)) (hf : Req.finish e2 fslot sid d2 = .ok () c3) :
    ∃ ts, Past e0 c0 c h c1 ts ∧ ∃ reqId random exchange opaq fin p m certHash final d certs th1 k,
      let ask := keyExAsk c1 t slot reqId random exchange opaq; let heard := keyExHeard c1.neg.version.get p m
      let x := ts.a ++ certHash ++ ask ++ heard ++ m.signature ++ m.verify
      fin m.exchange = some final ∧ e1.dheGen c1.neg.dhe = some (exchange, fin) ∧ CertsOf c1 slot certs ∧
      e1.crypto.hash c1.neg.baseHash (ts.a ++ certHash ++ ask ++ heard) = some d ∧ e1.verify c1.neg.baseHash c1.neg.baseAsym certs (Spec.signedData .keyExchangeRsp d) m.signature = true ∧
      e1.crypto.hash c1.neg.baseHash (ts.a ++ certHash ++ ask ++ heard ++ m.signature) = some th1 ∧
      DheHandshakeKeys e1.crypto c1.neg.version c1.neg.baseHash c1.neg.aead final th1 k ∧
      ∃ s2 pre sig field mac v p q rmac th2 s', let head := [c1.neg.version.get, 0xE5, if m.mutAuth = 0 then 0 else 1, fslot.getD 0]; let rsp := [v, 0x65, p, q]
        d2.session? sid = some s2 ∧ s2.mutAuth = m.mutAuth ∧ d2.prov = c2.prov ∧ d2.neg = c1.neg ∧ FinishProof e2 d2 s2 ⟨c1.neg.baseHash, x⟩ head pre sig field ∧
        e2.crypto.hash c1.neg.baseHash (x ++ pre ++ head ++ sig ++ mac ++ rsp ++ rmac) = some th2 ∧
        c3.session? sid = some s' ∧ s'.state = .established ∧ DheDataKeys e2.crypto c1.neg.version c1.neg.baseHash c1.neg.aead k.master th2 s' := by
  obtain ⟨-, -, -, hlen, htab⟩ := past_of hn h0 hc hr hh
  obtain ⟨ts, hp, reqId, random, exchange, opaq, fin, p, m, rest, chain, certHash, final, d, certs, th1, s, cx, g⟩ := C36_authentic hn h0 hc hr hh hk
  dsimp only at g
  obtain ⟨-, g2, -, -, -, g6, -, -, g9, g10, g11, g12, -, -, g15, g16, g17, g18, g19, g20, g21, g22, -, g24, g25⟩ := g
  have hfi := keyExchange_first hn hlen htab hk g15
  have hmid : (∃ s', d2.session? sid = some s' ∧ Counted s s') ∧ d2.neg = c2.neg ∧ d2.prov = c2.prov := by
    rcases hx with rfl | ⟨y1, y2, fuel, q, y3⟩
    · exact ⟨⟨s, g15, .refl s⟩, rfl, rfl⟩
    · obtain ⟨z1, z2, -, z3, -⟩ := C71_only_serves ex y1 fuel sid q c2 d2 y2 (.inl ⟨(), y3⟩)
      exact ⟨serving_session z1 g15, z2, z3⟩
  obtain ⟨⟨s2, w1, w2⟩, w3, w4⟩ := hmid
  have v1 : s2.state = .handshaking := by rw [w2.same]; exact g16
  have v2 : s2.usePsk = false := by rw [w2.same]; exact g17
  have v3 : s2.app = {} := (w2.app g16).trans g21
  have v4 : s2.fInit = false := by rw [w2.same]; exact hfi
  have v5 : s2.th = s.th := by rw [w2.same]
  have v6 : s2.mutAuth = m.mutAuth := by rw [w2.same]; exact g18
  have v7 : s2.hash = c1.neg.baseHash := by rw [w2.same]; exact g19
  have v8 : s2.aead = c1.neg.aead := by rw [w2.same]; exact g20
  have v9 : s2.master = s.master := by rw [w2.same]
  have v10 : d2.neg = c1.neg := w3.trans g22
  obtain ⟨x, pre, sig, field, th, mac, bytes, v, p', q, rmac, rest', th2, s', c5, c6, k1, k2, k3, k4, -, -, -, -, -, -, k11, k12, k13, k14⟩ := C38_established w1 v1 v2 v3 v4 hf
  rw [v5, g24] at k1; cases k1
  rw [v10, v6] at k2 k11
  rw [v7, v8, v9, v10] at k14
  exact ⟨ts, hp, reqId, random, exchange, opaq, fin, p, m, certHash, final, d, certs, th1, s, g6, g2, g9, g10, g11, g12, g25, s2, pre, sig, field, mac, v, p', q, rmac, th2, s', w1, v6,
    w4, v10, k2, k11, k12, k13, k14⟩

/-! ### two peers that authenticate each other -/

/-- the environment of a responder that asks for mutual authentication. -/
def askingEnv : Env := { Toy.menv with asksMutual := true }
/-- that responder. -/
def askingRsp : Encap.Responder := { c := Ctx.new { Toy.cfg with rspCaps := 0x7AF6, reqAsym := 0x10 } { chainData := fun i => if i = 0 then some [1, 2, 3, 4, 5, 6, 7, 8] else none } 2 }
/-- a peer that is this responder. -/
def askingPeer : REnv := { askingEnv with recv := fun l => (Toy.runMutual askingEnv askingRsp l).bind fun p => p.c.sent.getLast? }
/-- a requester with a chain of its own, offering the signature algorithms `a`. -/
def askedReq (a : ReqAsym) : Ctx :=
  Ctx.new { Toy.reqCfg with reqAsym := a, reqCaps := 0x77C6 } { chain := fun i => if i = 0 then some ([45, 0, 0, 0, 127, 4, 9, 8, 7, 6] ++ List.replicate 26 0 ++ [9, 8, 7, 6, 5, 4, 3, 2, 1]) else none } 2
/-- connect, fetch the chain, KEY_EXCHANGE. -/
def askedOps (a : ReqAsym) : Option (List (Option Status) × Ctx) := Toy.runOps askingPeer (askedReq a) [.connect, .digests none, .certificate 20 none 0, .keyExchange 0 .none]
/-- then the encapsulated exchange. -/
def askedServed (a : ReqAsym) : Option Ctx := (askedOps a).bind fun x => match Encap.exchange askingPeer 20 0xFFFDFFFD 4 x.2 with | .ok _ c => some c | _ => none

/-- then FINISH. -/
def askedDone : Option Ctx := (askedServed 0x10).bind fun c => match Req.finish askingPeer none 0xFFFDFFFD c with | .ok _ c => some c | _ => none

/-- The hypotheses of `C38_established` and `C38_session` are met with mutual authentication: FINISH succeeds, and both ends have established the session. -/
theorem C38_session_case : (askedOps 0x10).map (fun x => (x.1, (x.2.session? 0xFFFDFFFD).map fun s => (s.mutAuth, s.state, s.usePsk, s.fInit))) =
      some ([none, none, none, none], some (4, .handshaking, false, false)) ∧
    askedDone.map (fun c => (c.session? 0xFFFDFFFD).map (·.state)) = some (some .established) ∧
    askedDone.map (fun c => (Toy.runMutual askingEnv askingRsp c.sent).map fun p => (p.c.session? 0xFFFDFFFD).map (·.state)) = some (some (some .established)) := by
  refine ⟨?_, ?_, ?_⟩ <;> decide +kernel

/-- Finding: the requester does not check that the responder may ask for mutual authentication.  When it asks although no signature algorithm for the requester was negotiated, the
requester accepts KEY_EXCHANGE_RSP and aborts in FINISH. -/
theorem C38_unnegotiated_violated : ∃ c, askedServed 0 = some c ∧ c.neg.reqAsym = 0 ∧ Req.finish askingPeer none 0xFFFDFFFD c = .panic := by
  have h : ((askedServed 0).map fun c => (decide (c.neg.reqAsym = 0), match Req.finish askingPeer none 0xFFFDFFFD c with | .panic => true | _ => false)) = some (true, true) := by decide +kernel
  obtain ⟨c, h1, h2⟩ := Option.map_eq_some_iff.1 h
  obtain ⟨h2, h3⟩ := Prod.mk.inj h2
  refine ⟨c, h1, by simpa using h2, ?_⟩
  generalize Req.finish askingPeer none 0xFFFDFFFD c = o at h3 ⊢
  cases o <;> first | rfl | cases h3

end Verif.Props
