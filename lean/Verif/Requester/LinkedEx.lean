/-
KEY_EXCHANGE and PSK_EXCHANGE over a link, seen from both sides.
-/
import Verif.Requester.Connect
import Verif.Requester.PskEx
import Verif.Props.ReqExchange

namespace Verif

namespace RTw

theorem of_read {α : Type} {x : Rd α} {w t : Bytes} {a b : α} {u : Nat} {r : Reader} (h : RTw x w a) (hx : x ⟨w ++ t, u⟩ = .ok b r) : b = a := (h _ _ _ _ hx).1

end RTw

theorem KeyEx.read_w {c : Cc} {m : KeyEx} (h1 : m.summary.WF) (h2 : c.ge12 = true) (h3 : m.random.length = 32) (h4 : c.DheOk m.exchange) (h5 : m.opaq.length ≤ 1024) :
    RTw (KeyEx.read c) (m.wire c) m := by
  have hw : m.wire c = [m.summary.get] ++ ([m.slot] ++ (putU16 m.reqSession ++ ([m.policy] ++ ([0] ++ (m.random ++ (m.exchange ++ (opaqueWire m.opaq ++ []))))))) := by
    unfold KeyEx.wire
    rw [if_pos h2]
    simp
  rw [hw]
  refine RTw.bind rfl (.of (SummaryHashType.rt h1)) (.guard ?_)
  refine RTw.bind rfl (.of (RT.u8 _)) (RTw.bind rfl (.of (RT.u16 _)) (RTw.bind rfl (.of (RT.u8 _)) (RTw.bind rfl (.of (RT.u8 _)) ?_)))
  exact RTw.bind rfl (.of (RT.bytes _ h3)) (RTw.bind rfl (.of (rdDhe_rt h4)) (RTw.bind rfl (.of (rdOpaque_rt h5)) (.of (RT.pure _))))

theorem KeyExRsp.read_w {c : Cc} {m : KeyExRsp} (h2 : m.random.length = 32) (h3 : c.DheOk m.exchange) (h4 : OptOk c.needSummary c.DigestOk m.summary)
    (h5 : m.opaq.length ≤ 1024) (h6 : c.SigOk m.signature) (h7 : OptOk (!c.inClear) c.DigestOk m.verify) : RTw (KeyExRsp.read c) (m.wire c) m := by
  have hw : m.wire c = [m.heartbeat] ++ ([0] ++ (putU16 m.rspSession ++ ([m.mutAuth] ++ ([m.reqSlot] ++ (m.random ++ (m.exchange ++
      (optWire c.needSummary m.summary ++ (opaqueWire m.opaq ++ (m.signature ++ (optWire (!c.inClear) m.verify ++ [])))))))))) := by
    unfold KeyExRsp.wire; simp
  rw [hw]
  refine RTw.bind rfl (.of (RT.u8 _)) (RTw.bind rfl (.of (RT.u8 _)) (RTw.bind rfl (.of (RT.u16 _)) (RTw.bind rfl (.of (RT.u8 _)) (.guard ?_))))
  refine RTw.bind rfl (.of (RT.u8 _)) (.guard ?_)
  refine RTw.bind rfl (.of (RT.bytes _ h2)) (RTw.bind rfl (.of (rdDhe_rt h3)) (RTw.bind rfl (.of (rdOpt_rt h4 fun h => rdDigest_rt h)) ?_))
  exact RTw.bind rfl (.of (rdOpaque_rt h5)) (RTw.bind rfl (.of (rdSignature_rt h6)) (RTw.bind rfl (.of (rdOpt_rt h7 fun h => rdDigest_rt h)) (.of (RT.pure _))))

theorem PskEx.read_w {c : Cc} {m : PskEx} (h1 : m.summary.WF) (h2 : m.hint.length ≤ 32) (h3 : m.context.length ≤ 64) (h4 : m.opaq.length ≤ 1024) :
    RTw (PskEx.read c) m.wire m := by
  have l1 := (len16 h2 (by omega)).symm
  have l2 := (len16 h3 (by omega)).symm
  have l3 := (len16 h4 (by omega)).symm
  have hw : m.wire = [m.summary.get] ++ ([0] ++ (putU16 m.reqSession ++ (putU16 m.hint.length.toUInt16 ++ (putU16 m.context.length.toUInt16 ++
      (putU16 m.opaq.length.toUInt16 ++ (m.hint ++ (m.context ++ (m.opaq ++ [])))))))) := by
    unfold PskEx.wire; simp
  rw [hw]
  refine RTw.bind rfl (.of (SummaryHashType.rt h1)) (.guard ?_)
  refine RTw.bind rfl (.of (RT.u8 _)) (RTw.bind rfl (.of (RT.u16 _)) (RTw.bind rfl (.of (RT.u16 _)) (.guard ?_)))
  refine RTw.bind rfl (.of (RT.u16 _)) (.guard (RTw.bind rfl (.of (RT.u16 _)) (.guard ?_)))
  exact RTw.bind rfl (.of (RT.bytes _ l1)) (RTw.bind rfl (.of (RT.bytes _ l2)) (RTw.bind rfl (.of (RT.bytes _ l3)) (.of (RT.pure _))))

theorem PskExRsp.read_w {c : Cc} {m : PskExRsp} (h1 : OptOk c.needSummary c.DigestOk m.summary) (h2 : m.context.length ≤ 64) (h4 : m.opaq.length ≤ 1024)
    (h5 : c.DigestOk m.verify) : RTw (PskExRsp.read c) (m.wire c) m := by
  have l2 := (len16 h2 (by omega)).symm
  have l3 := (len16 h4 (by omega)).symm
  have hw : m.wire c = [m.heartbeat] ++ ([0] ++ (putU16 m.rspSession ++ (putU16 0 ++ (putU16 m.context.length.toUInt16 ++ (putU16 m.opaq.length.toUInt16 ++
      (optWire c.needSummary m.summary ++ (m.context ++ (m.opaq ++ (m.verify ++ []))))))))) := by
    unfold PskExRsp.wire; simp
  rw [hw]
  refine RTw.bind rfl (.of (RT.u8 _)) (RTw.bind rfl (.of (RT.u8 _)) (RTw.bind rfl (.of (RT.u16 _)) (RTw.bind rfl (.of (RT.u16 _)) (RTw.bind rfl (.of (RT.u16 _)) ?_))))
  refine .guard (.guard (RTw.bind rfl (.of (RT.u16 _)) (.guard ?_)))
  refine RTw.bind rfl (.of (rdOpt_rt h1 fun h => rdDigest_rt h)) (RTw.bind rfl (.of (RT.bytes _ l2)) (RTw.bind rfl (.of (RT.bytes _ l3)) ?_))
  exact RTw.bind rfl (.of (rdDigest_rt h5)) (.of (RT.pure _))

namespace Req
open Rsp

variable {e : REnv} {f : Env} {r0 : Ctx}

/-- one plain exchange over the link, with a handler that sends nothing when it fails. -/
theorem Linked.exchange (hl : Linked e f r0) {x : Bytes → M Status Ctx Bytes} {c : Ctx} {pkt bytes t t' : Bytes} {v v' k r : UInt8}
    (hs : Said e none c (v :: k :: t) bytes (withSent pkt c)) (hb : bytes = v' :: r :: t')
    (hd : ∀ t, dispatchCode f (ReqRespCode.ofCode k) (v :: k :: t) = (do let b ← x (v :: k :: t); Rsp.sendMessage f b))
    (hc : ∀ t, Post (Starts r) (x (v :: k :: t))) (hr : r ≠ 0x65) (hr' : r ≠ 0x7F) :
    ∃ rc rc' pad pad' b c1 pktr, Toy.runAll f r0 c.sent = some rc ∧ Toy.runAll f r0 (c.sent ++ [pkt]) = some rc' ∧ bytes = b ++ pad' ∧
      x (v :: k :: (t ++ pad)) rc = .ok b c1 ∧ rc' = withState (afterState r c1.rt.state) (withSent pktr c1) := by
  obtain ⟨pkt', p, h1, h2, h3, h4⟩ := hs
  have hpk : pkt' = pkt := by
    have := congrArg Ctx.sent h4
    simp [withSent] at this
    exact this.symm
  subst hpk
  obtain ⟨rc, rc', g1, g2, g3⟩ := hl.answers _ _ _ h1
  obtain ⟨pad, g4⟩ := hl.out _ _ h2
  rw [List.cons_append, List.cons_append] at g4
  obtain ⟨b, c1, pktr, k0, k1, k2⟩ := Props.plain_exchanged g4 (hd _) (hc _) hr g2
  have hsent : rc'.sent = c1.sent ++ [pktr] := by rw [k2]; rfl
  have hp : p = pktr := by
    rw [g3] at hsent
    have := congrArg List.getLast? hsent
    simpa using this
  subst hp
  obtain ⟨pad', hpad⟩ := hl.back _ _ _ k1 h3
  have hfit : tooLarge c1 b = false := by
    cases ht : tooLarge c1 b with
    | false => rfl
    | true =>
      unfold outgoing at hpad
      rw [ht, if_pos rfl, hb] at hpad
      simp [errorBytes] at hpad
      exact absurd hpad.2.1 hr'
  have hout : outgoing c1 b = b := by unfold outgoing; rw [hfit]; rfl
  rw [hout] at hpad
  rw [hfit] at k2
  exact ⟨rc, rc', pad, pad', b, c1, p, g1, runAll_snoc g1 g2, hpad, k0, k2⟩

/-- The two endpoints use the same transport and cryptography: the primitives are the same functions, Diffie-Hellman works, and outputs have the
lengths of their algorithms. -/
structure Peers (e f : Env) : Prop where
  tr : e.tr = f.tr
  crypto : e.crypto = f.crypto
  shared : ∀ g x a y b, e.dheGen g = some (x, a) → f.dheGen g = some (y, b) → a y = b x
  exchange : ∀ g x a, e.dheGen g = some (x, a) ∨ f.dheGen g = some (x, a) → Dhe.size? g = some x.length
  signature : ∀ h a m s, f.sign h a m = some s → BaseAsym.size? a = some s.length
  hmac : ∀ h k m x, f.crypto.hmac h k m = some x → BaseHash.size? h = some x.length
  summary : SummaryLaw f
  /-- the responder is compiled without `mut-auth` -/
  alone : f.asksMutual = false

theorem Peers.mutAuth {e f : Env} (h : Peers e f) : f.mutAuth = 0 := by unfold Env.mutAuth; rw [h.alone]; rfl

/-- The two ends of a session hold the same thing: id, kind, algorithms, secrets, keys, sequence numbers, transcripts, phase.  Only the noted
certificate slot and version of secured messages may differ. -/
def SameSession (s s' : Session) : Prop := { s' with slotId := s.slotId, secureVersion := s.secureVersion } = s

theorem dheKeys_unique {p : Crypto} {v : SpdmVersion} {hash : BaseHash} {aead : Aead} {dhe th1 : Bytes} {s s' : Session}
    (h : Props.DheHandshakeKeys p v hash aead dhe th1 s) (h' : Props.DheHandshakeKeys p v hash aead dhe th1 s') : s.hs = s'.hs ∧ s.master = s'.master := by
  obtain ⟨n, root, salt, a1, a2, a3, a4, a5, a6, a7, a8, ⟨ks, is, a9, a10, a11, a12, a13, a14⟩, a15, a16⟩ := h
  obtain ⟨n', root', salt', b1, b2, b3, b4, b5, b6, b7, b8, ⟨ks', is', b9, b10, b11, b12, b13, b14⟩, b15, b16⟩ := h'
  cases a1.symm.trans b1
  cases a2.symm.trans b2
  cases a3.symm.trans b3
  cases a9.symm.trans b9
  cases a10.symm.trans b10
  have e4 := Option.some.inj (a4.symm.trans b4)
  have e5 := Option.some.inj (a5.symm.trans b5)
  have e6 := Option.some.inj (a6.symm.trans b6)
  rw [e5] at a7 a11 a12
  rw [e6] at a8 a13 a14
  have e7 := Option.some.inj (a7.symm.trans b7)
  have e8 := Option.some.inj (a8.symm.trans b8)
  have e11 := Option.some.inj (a11.symm.trans b11)
  have e12 := Option.some.inj (a12.symm.trans b12)
  have e13 := Option.some.inj (a13.symm.trans b13)
  have e14 := Option.some.inj (a14.symm.trans b14)
  refine ⟨?_, e4⟩
  generalize s.hs = x at *
  generalize s'.hs = y at *
  obtain ⟨x1, x2, x3, x4, ⟨x5, x6, x7⟩, ⟨x8, x9, x10⟩⟩ := x
  obtain ⟨y1, y2, y3, y4, ⟨y5, y6, y7⟩, ⟨y8, y9, y10⟩⟩ := y
  simp_all

theorem pickLocal_len {n : Neg} {v : UInt8} {ls : List UInt8} {acc o : Bytes} (ha : acc.length ≤ 16) (h : Opaque.pickLocal n v ls acc = .ok o) : o.length ≤ 16 := by
  induction ls generalizing acc with
  | nil => cases h; exact ha
  | cons l ls ih =>
    unfold Opaque.pickLocal at h
    split at h
    · split at h
      · rename_i o' ho
        refine ih ?_ h
        unfold Opaque.answer at ho
        split at ho
        · cases ho; simp [Opaque.setLast, Opaque.rspSel277]
        · split at ho
          · cases ho; simp [Opaque.setLast, Opaque.rspSelFmt1]
          · cases ho
      · cases h
    · exact ih ha h

theorem pick_len {n : Neg} {ls vs : List UInt8} {acc o : Bytes} (ha : acc.length ≤ 16) (h : Opaque.pick n ls vs acc = .ok o) : o.length ≤ 16 := by
  induction vs generalizing acc with
  | nil => cases h; exact ha
  | cons v vs ih =>
    obtain ⟨x, h1, h2⟩ := Res.bind_ok.1 h
    exact ih (pickLocal_len ha h1) h2

theorem respond_len {c : Cc} {ls : List UInt8} {q o : Bytes} (h : Opaque.respond c ls q = .ok o) : o.length ≤ 16 := by
  unfold Opaque.respond at h
  split at h
  · cases h
  · cases h; simp
  · split at h
    · cases h
    · exact pick_len (by simp) h

theorem opaqueRequest_len {c : Ctx} {o : Bytes} (h : opaqueRequest c = some o) : o.length ≤ 20 := by
  unfold opaqueRequest at h
  split at h
  · cases h; decide
  · split at h
    · cases h; decide
    · cases h

/-- The responder `rc` has what the requester `c` negotiated: everything but the termination policy, which KEY_EXCHANGE sets at the responder
only. -/
structure Settled (rc c : Ctx) : Prop where
  neg : { rc.neg with terminationPolicy := c.neg.terminationPolicy } = c.neg
  transcript : rc.rt.messageA = c.rt.messageA

/-- any property of the negotiated parameters that does not look at the termination policy. -/
theorem Settled.same {rc c : Ctx} (h : Settled rc c) {α : Type} (F : Neg → α) (hF : ∀ n b, F { n with terminationPolicy := b } = F n) : F rc.neg = F c.neg := by
  rw [← hF rc.neg c.neg.terminationPolicy]
  exact congrArg F h.neg

theorem genHandshake_slot {p : Crypto} {v : SpdmVersion} {th1 : Bytes} {s s' : Session} (x : UInt8) (h : Session.genHandshake p v th1 s = .ok () s') :
    Session.genHandshake p v th1 { s with slotId := x } = .ok () { s' with slotId := x } := by
  obtain ⟨a, b, fa, fb, ka, kb, h1, h2, h3, h4, h5, h6, rfl⟩ := Session.genHandshake_ok.1 h
  exact Session.genHandshake_ok.2 ⟨a, b, fa, fb, ka, kb, h1, h2, h3, h4, h5, h6, rfl⟩

/-- KEY_EXCHANGE over the link leaves the same session at both ends. -/
theorem linked_keyExchange (hl : Linked e f r0) (hp : Peers e.toEnv f) {c c' rc : Ctx} {slot : UInt8} {t : SummaryHashType} {sid : UInt32}
    (ht : ReqTable 0 c.sessions) (hn : c.sessions.length < 0xFFFD) (ht' : TableOk 0 rc.sessions) (hn' : rc.sessions.length < 0xFFFD)
    (hrun : Toy.runAll f r0 c.sent = some rc) (hs : Settled rc c) (hw : t.WF) (hclear : c.cc.inClear = false)
    (hchain : ∀ i : Fin 8, i.val = slot.toNat → c.peer.chain i = rc.prov.chain i) (h : keyExchange e slot t c = .ok sid c') :
    ∃ rc' s s', Toy.runAll f r0 c'.sent = some rc' ∧ Settled rc' c' ∧ c'.session? sid = some s ∧ rc'.session? sid = some s' ∧ SameSession s s' ∧
      s.state = .handshaking ∧ s.usePsk = false ∧ s.mutAuth = 0 ∧ s.app = {} ∧ s.hash = c.neg.baseHash ∧ s.aead = c.neg.aead ∧
      rc'.rt.state = rc.rt.state ∧ rc'.prov = rc.prov ∧ c'.peer = c.peer ∧ c'.neg = c.neg := by
  obtain ⟨-, i, reqId, random, exchange, opaq, fin, pkt, bytes, rest, p, m, version, certHash, final, root, master, d, certs, th1, s0, s1, a1, a2, a3, a4, a5, a6, a7, a8, a9, a10, ⟨-, tl, r1, a11, a11'⟩,
    a12, a13, a14, a15, a16, l, a17⟩ := keyExchange_ok ht hn h
  dsimp only at a16
  obtain ⟨b1, b2, b3, b4, b5, b6, b7, b8, b9⟩ := a16
  have hrs := reset_keyEx .reqKeyExchange (.inl rfl) c
  have hsent : (Ctx.resetBuffers .reqKeyExchange none c).sent = c.sent := by rw [hrs]
  obtain ⟨rc0, rc', pad, pad', b, c1, pktr, g1, g2, g3, g4, g5⟩ := hl.exchange (x := keyExchangeRsp f) (k := 0xE4) (r := 0x64) a6 a11 (fun _ => rfl) (fun _ => post_keyExchangeRsp _)
    (by decide) (by decide)
  rw [hsent] at g1 g2
  rw [hrun] at g1
  cases g1
  obtain ⟨m', req, sum, opaq', certHash', exchange', final', rspId, s2, c2, root', master', hv, k1, k2, k3, k4, k5, k6⟩ := Props.keyExchangeRsp_ok ht' hn' g4
  obtain ⟨f1, f2, f3, f4, f5, f6, f7, f8, f9, f10, f11⟩ := Props.exchangeCtx_fields rc m'
  -- what was negotiated
  have n1 : rc.neg.version = c.neg.version := hs.same Neg.version fun _ _ => rfl
  have n2 : rc.neg.baseHash = c.neg.baseHash := hs.same Neg.baseHash fun _ _ => rfl
  have n3 : rc.neg.dhe = c.neg.dhe := hs.same Neg.dhe fun _ _ => rfl
  have n4 : rc.neg.aead = c.neg.aead := hs.same Neg.aead fun _ _ => rfl
  have n5 : rc.neg.keySchedule = c.neg.keySchedule := hs.same Neg.keySchedule fun _ _ => rfl
  have n6 : rc.cc.inClear = false := by
    rw [← hclear]
    exact hs.same (fun n => Cc.inClear ⟨n, false, false⟩) fun _ _ => rfl
  have n7 : rc.cc.ge12 = true := by
    rw [← b3]
    exact hs.same (fun n => Cc.ge12 ⟨n, false, false⟩) fun _ _ => rfl
  have n8 : rc.neg.baseAsym = c.neg.baseAsym := hs.same Neg.baseAsym fun _ _ => rfl
  -- the request arrives as it was sent
  obtain ⟨v, k, t0, r', w1, w2, w3, w4⟩ := hv.wire
  injection w1 with _ w1
  injection w1 with _ w1
  subst w1
  have hdhe : ∀ x fn, e.dheGen c.neg.dhe = some (x, fn) ∨ f.dheGen c.neg.dhe = some (x, fn) → rc.cc.DheOk x := by
    intro x fn hx
    show Dhe.size? rc.neg.dhe = _
    rw [n3]; exact hp.exchange _ _ _ hx
  have hwire : KeyEx.wire c.cc ⟨t, slot, reqId, c.config.sessionPolicy, random, exchange, opaq⟩ =
      KeyEx.wire rc.cc ⟨t, slot, reqId, c.config.sessionPolicy, random, exchange, opaq⟩ := by
    unfold KeyEx.wire
    rw [b3, n7]
  rw [hwire] at w3
  obtain ⟨rfl, rfl⟩ := KeyEx.read_w (m := ⟨t, slot, reqId, c.config.sessionPolicy, random, exchange, opaq⟩) hw n7 (random_length a3) (hdhe _ _ (.inl a4))
    (by have := opaqueRequest_len a5; show opaq.length ≤ 1024; omega) _ _ _ _ w3
  have hreq : req = keyExAsk c t slot reqId random exchange opaq := by
    rw [w4]
    unfold keyExAsk
    rw [hwire]
    exact append_take (a := c.neg.version.get :: 0xE4 :: KeyEx.wire rc.cc ⟨t, slot, reqId, c.config.sessionPolicy, random, exchange, opaq⟩) (by simp; omega)
  -- the answer arrives as it was sent
  obtain ⟨random', sig, th, th1', s3, q1, q2, q3, q4, -, q6, -, q8⟩ := Rsp.keyExchangeBody_ok k5 (by rw [k3]; rfl) k6
  obtain ⟨l2, rfl⟩ := k4
  obtain ⟨mac, j1, rfl, j3, l3, rfl⟩ := q8 (by show (exchangeCtx rc _).cc.inClear = false; rw [f8]; exact n6)
  have hhb : (exchangeCtx rc ⟨t, slot, reqId, c.config.sessionPolicy, random, exchange, opaq⟩).config.heartbeat = rc.config.heartbeat := by rw [f6]
  have hvv : (exchangeCtx rc ⟨t, slot, reqId, c.config.sessionPolicy, random, exchange, opaq⟩).neg.version = c.neg.version := by rw [f2]; exact n1
  dsimp only at q2 q4 q6 g3 j1 j3 g4
  rw [hp.mutAuth] at q4 q6 g3 j3
  obtain ⟨fn, dh1, dh2⟩ := hv.dhe
  rw [n3] at dh1
  have hss : s2.hash = c.neg.baseHash := by rw [k3]; exact n2
  rw [hss] at j1 q4 q6 j3
  have hsum : OptOk (wantsSummary t) rc.cc.DigestOk sum := by
    have := hv.summary
    unfold SummaryIs at this
    unfold OptOk
    show if wantsSummary t = true then _ else _
    split
    · rename_i hx
      rw [if_pos (by exact hx)] at this
      exact hp.summary _ _ _ _ _ _ this.1
    · rename_i hx
      rw [if_neg (by exact hx)] at this
      exact this
  have hdig : ∀ x, rc.cc.DigestOk x ↔ BaseHash.size? c.neg.baseHash = some x.length := by
    intro x
    show BaseHash.size? rc.neg.baseHash = some x.length ↔ _
    rw [n2]
  have hbody : ∀ v hb, v :: 0x64 :: KeyExRsp.wire ⟨c.neg, wantsSummary t, c.rt.needSig⟩ ⟨hb, rspId, 0, 0, random', exchange', sum, opaq', sig, mac⟩ =
      keyExchangeRspBody v hb rspId 0 random' exchange' (optWire (wantsSummary t) sum) opaq' ++ sig ++ mac := by
    intro v hb
    have hic : Cc.inClear ⟨c.neg, wantsSummary t, c.rt.needSig⟩ = false := hclear
    have hz : opaqueWire opaq' = putU16 (UInt16.ofNat opaq'.length) ++ opaq' := rfl
    unfold KeyExRsp.wire keyExchangeRspBody
    rw [hz, hic]
    simp [optWire]
  rw [hhb, hvv] at g3
  have hg3 := g3.trans (congrArg (· ++ pad') (hbody _ _).symm)
  have htl : tl = KeyExRsp.wire ⟨c.neg, wantsSummary t, c.rt.needSig⟩ ⟨rc.config.heartbeat, rspId, 0, 0, random', exchange', sum, opaq', sig, mac⟩ ++ pad' := by
    rw [a11] at hg3
    simpa using hg3
  rw [htl] at a11'
  have hm := (KeyExRsp.read_w (c := ⟨c.neg, wantsSummary t, c.rt.needSig⟩) (m := ⟨rc.config.heartbeat, rspId, 0, 0, random', exchange', sum, opaq', sig, mac⟩) (random_length q1)
    (by show Dhe.size? c.neg.dhe = _; exact hp.exchange _ _ _ (.inr dh1)) (by unfold OptOk at hsum ⊢; simp only [hdig] at hsum; exact hsum)
    (by have := respond_len hv.opaq; show opaq'.length ≤ 1024; omega)
    (by show BaseAsym.size? c.neg.baseAsym = _; rw [← n8]; exact hp.signature _ _ _ _ q3)
    (by
      have hic : Cc.inClear ⟨c.neg, wantsSummary t, c.rt.needSig⟩ = false := hclear
      rw [hic]
      exact hp.hmac _ _ _ _ j1)).of_read a11'
  subst hm
  have hp0 : p = 0 := by
    rw [g3] at a7
    simp [keyExHeard, keyExchangeRspBody] at a7
    exact a7.1.symm
  subst hp0
  have hheard : keyExHeard c.neg.version.get 0 ⟨rc.config.heartbeat, rspId, 0, 0, random', exchange', sum, opaq', sig, mac⟩ =
      keyExchangeRspBody c.neg.version.get rc.config.heartbeat rspId 0 random' exchange' (optWire (wantsSummary t) sum) opaq' := by
    have hz : opaqueWire opaq' = putU16 (UInt16.ofNat opaq'.length) ++ opaq' := rfl
    have ho : optWire (wantsSummary t) sum = sum := by
      unfold OptOk at hsum
      unfold optWire
      split
      · rfl
      · rename_i hx; rw [if_neg hx] at hsum; exact hsum.symm
    unfold keyExHeard keyExchangeRspBody
    rw [hz, ho]
    simp
  -- both hold the same secrets
  have hcert : certHash' = certHash := by
    obtain ⟨chain, u1, u2⟩ := hv.chain
    have hsl : Ctx.slot? slot = some i := by
      unfold Ctx.slot?
      have : slot.toNat < 8 := by rw [← a1]; exact i.2
      rw [dif_pos this]
      congr 1
      exact Fin.ext a1.symm
    unfold localChain at u1
    rw [hsl] at u1
    obtain ⟨chain', u3, u4⟩ := Option.bind_eq_some_iff.1 a12
    rw [hchain i a1] at u3
    have u1' : rc.prov.chain i = some chain := u1
    rw [u3] at u1'
    cases u1'
    rw [n2, ← hp.crypto, u4] at u2
    exact (Option.some.inj u2).symm
  subst hcert
  have hfin : final' = final := by
    have := hp.shared _ _ _ _ _ a4 dh1
    rw [a10, dh2] at this
    exact (Option.some.inj this).symm
  subst hfin
  rw [n2, ← hp.crypto] at k1
  cases Res.ok.inj (k1.symm.trans a13)
  rw [n1, n2, ← hp.crypto] at k2
  cases Res.ok.inj (k2.symm.trans a14)
  have hs2 : s0 = { s2 with slotId := s0.slotId } := by
    refine a15.trans ?_
    rw [k3, a9]
    generalize hM : (⟨t, slot, reqId, c.config.sessionPolicy, random, exchange, opaq⟩ : KeyEx) = M at *
    unfold dheOpen dheOpened
    have e2 : (exchangeCtx rc M).neg.baseHash = c.neg.baseHash := n2
    have e3 : (exchangeCtx rc M).neg.dhe = c.neg.dhe := n3
    have e4 : (exchangeCtx rc M).neg.aead = c.neg.aead := n4
    have e5 : (exchangeCtx rc M).neg.keySchedule = c.neg.keySchedule := n5
    rw [e2, e3, e4, e5, f1, hp.tr, ← hs.transcript, ← hM, hp.mutAuth]
  have hma : s2.messageA = c.rt.messageA := by rw [k3, ← hs.transcript]; exact f1
  have hrc : s2.rspCertHash = some certHash' := by rw [k3]; rfl
  have hneed : ({ exchangeCtx rc ⟨t, slot, reqId, c.config.sessionPolicy, random, exchange, opaq⟩ with sessions := l2 } : Ctx).cc.needSummary = wantsSummary t := f7
  rw [hma, hrc, hreq, hhb, hvv, hneed, Option.getD_some, ← hheard, ← hp.crypto] at q4 q6
  rw [hma, hrc, hreq, hhb, hvv, hneed, Option.getD_some, ← hheard] at j3
  cases Option.some.inj (q4.symm.trans b5)
  have q7 := genHandshake_slot s0.slotId q6
  generalize hT : c.rt.messageA ++ certHash' ++ keyExAsk c t slot reqId random exchange opaq ++
    keyExHeard c.neg.version.get 0 ⟨rc.config.heartbeat, rspId, 0, 0, random', exchange', sum, opaq', sig, mac⟩ = T at *
  rw [hs2] at b6
  dsimp only at b6 q7
  rw [hss, hma, hrc] at b6
  have hs1 : s1 = { s3 with slotId := s0.slotId } := by
    injection b6.symm.trans q7
  have j4 : rc'.session? sid = some (handshaking opaq' rc.config.heartbeat { s3 with th := some ⟨c.neg.baseHash, T ++ sig ++ mac⟩ }) := by
    rw [a9, g5]
    exact j3
  obtain ⟨_, _, _, _, _, _, -, -, -, -, -, -, he⟩ := Session.genHandshake_ok.1 q6
  refine ⟨rc', _, _, ?_, ⟨?_, ?_⟩, b9, j4, ?_, rfl, ?_, ?_, ?_, ?_, ?_, ?_, ?_, ?_, ?_⟩
  · rw [a17]; exact g2
  · rw [a17, g5]; exact hs.neg
  · rw [a17, g5]; exact f1.trans hs.transcript
  · unfold SameSession handshaking started
    rw [hs1]
  · show s1.usePsk = false
    rw [hs1, he, k3]; rfl
  · show s1.mutAuth = 0
    rw [hs1, he, k3]; exact hp.mutAuth
  · show s1.app = {}
    rw [hs1, he, k3]; rfl
  · show s1.hash = _
    rw [hs1, he]
  · show s1.aead = _
    rw [hs1, he, k3]; exact n4
  · rw [g5]
    show (Ctx.resetBuffers .reqKeyExchange none rc).rt.state = rc.rt.state
    unfold Ctx.resetBuffers Ctx.resetM Ctx.resetM1M2
    dsimp only
    split <;> split <;> (try split) <;> rfl
  · rw [g5]; exact (reset_fields .reqKeyExchange rc).2.2.1
  · rw [a17]
  · rw [a17]

theorem genData_slot {p : Crypto} {v : SpdmVersion} {th2 : Bytes} {s s' : Session} (x : UInt8) (h : Session.genData p v th2 s = .ok () s') :
    Session.genData p v th2 { s with slotId := x } = .ok () { s' with slotId := x } := by
  obtain ⟨a, b, ka, kb, em, h1, h2, h3, h4, h5, rfl⟩ := Session.genData_ok.1 h
  exact Session.genData_ok.2 ⟨a, b, ka, kb, em, h1, h2, h3, h4, h5, rfl⟩

theorem u16_zero {q : UInt16} (h1 : q.toUInt8 = 0) (h2 : (q >>> 8).toUInt8 = 0) : q = 0 := by
  have := congrArg UInt8.toNat h1
  have := congrArg UInt8.toNat h2
  apply UInt16.toNat_inj.1
  have := q.toNat_lt
  simp [Nat.shiftRight_eq_div_pow] at *
  omega

/-- PSK_EXCHANGE over the link leaves the same session at both ends. -/
theorem linked_pskExchange (hl : Linked e f r0) (hp : Peers e.toEnv f) {c c' rc : Ctx} {hint : Bytes} {t : SummaryHashType} {sid : UInt32}
    (ht : ReqTable 0 c.sessions) (hn : c.sessions.length < 0xFFFD) (ht' : TableOk 0 rc.sessions) (hn' : rc.sessions.length < 0xFFFD)
    (hrun : Toy.runAll f r0 c.sent = some rc) (hs : Settled rc c) (hw : t.WF) (hh : hint.length ≤ 32) (h : pskExchange e t hint c = .ok sid c') :
    ∃ rc' s s', Toy.runAll f r0 c'.sent = some rc' ∧ Settled rc' c' ∧ c'.session? sid = some s ∧ rc'.session? sid = some s' ∧ SameSession s s' ∧
      s.state = (if c.cc.pskNoContext then .established else .handshaking) ∧ s.usePsk = true ∧ s.mutAuth = 0 ∧ s.pskHint = some hint ∧ s.hash = c.neg.baseHash ∧ s.aead = c.neg.aead ∧
      rc'.rt.state = rc.rt.state ∧ rc'.prov = rc.prov ∧ c'.peer = c.peer ∧ c'.neg = c.neg := by
  obtain ⟨reqId, context, opaq, hsz, pkt, bytes, rest, p, q, m, version, th1, s0, s1, sf, a1, a2, a3, a4, a5, a6, -, a8, ⟨-, tl, r1, a9, a10⟩, a11, a12, l, a17⟩ := pskExchange_ok ht hn h
  dsimp only at a12
  obtain ⟨b1, b2, b3, b4, b5⟩ := a12
  have hrs := reset_keyEx .reqPskExchange (.inr rfl) c
  have hsent : (Ctx.resetBuffers .reqPskExchange none c).sent = c.sent := by rw [hrs]
  obtain ⟨rc0, rc', pad, pad', b, c1, pktr, g1, g2, g3, g4, g5⟩ := hl.exchange (x := pskExchangeRsp f) (k := 0xE6) (r := 0x66) a5 a9 (fun _ => rfl) (fun _ => post_pskExchangeRsp _)
    (by decide) (by decide)
  rw [hsent] at g1 g2
  rw [hrun] at g1
  cases g1
  obtain ⟨m', req, sum, opaq', context', rspId, s2, c2, slot, hv, k3, k4, k5, k6⟩ := Props.pskExchangeRsp_ok ht' hn' g4
  obtain ⟨f1, f6, f10⟩ := Props.pskCtx_fields rc m'
  -- what was negotiated
  have n1 : rc.neg.version = c.neg.version := hs.same Neg.version fun _ _ => rfl
  have n2 : rc.neg.baseHash = c.neg.baseHash := hs.same Neg.baseHash fun _ _ => rfl
  have n3 : rc.neg.dhe = c.neg.dhe := hs.same Neg.dhe fun _ _ => rfl
  have n4 : rc.neg.aead = c.neg.aead := hs.same Neg.aead fun _ _ => rfl
  have n5 : rc.neg.keySchedule = c.neg.keySchedule := hs.same Neg.keySchedule fun _ _ => rfl
  have n6 : rc.cc.pskNoContext = c.cc.pskNoContext := hs.same (fun n => Cc.pskNoContext ⟨n, false, false⟩) fun _ _ => rfl
  -- the request arrives as it was sent
  obtain ⟨v, k, t0, r', w1, w2, w3, w4⟩ := hv.wire
  injection w1 with _ w1
  injection w1 with _ w1
  subst w1
  have hcl : (context.take hsz).length ≤ 64 := by
    have := random_length a2
    rw [List.length_take]; omega
  obtain ⟨rfl, rfl⟩ := PskEx.read_w (m := ⟨t, reqId, hint, context.take hsz, opaq⟩) hw hh hcl
    (by have := opaqueRequest_len a4; show opaq.length ≤ 1024; omega) _ _ _ _ w3
  have hreq : req = pskExAsk c t reqId hint (context.take hsz) opaq := by
    rw [w4]
    unfold pskExAsk
    exact append_take (a := c.neg.version.get :: 0xE6 :: PskEx.wire ⟨t, reqId, hint, context.take hsz, opaq⟩) (by simp; omega)
  -- the answer arrives as it was sent
  have hctx : rc.cc.pskNoContext = true → context' = [] := by
    intro hx
    have := hv.context
    unfold PskContextIs at this
    rw [if_pos hx] at this
    exact this.2
  have hctl : context'.length ≤ 64 := by
    have := hv.context
    unfold PskContextIs at this
    split at this
    · rw [this.2]; simp
    · rw [this]; simp
  obtain ⟨l2, rfl⟩ := k4
  obtain ⟨th1', mac, s3, sf', q4, q6, j1, rfl, j3, j4, l3, rfl⟩ := Rsp.pskExchangeBody_ok k5 (by rw [k3]; rfl) hctx k6
  have hhb : (pskCtx rc ⟨t, reqId, hint, context.take hsz, opaq⟩).config.heartbeat = rc.config.heartbeat := by rw [f6]
  have hvv : (pskCtx rc ⟨t, reqId, hint, context.take hsz, opaq⟩).neg.version = c.neg.version := n1
  dsimp only at q4 q6 g3 j1 j3 j4 g4
  have hss : s2.hash = c.neg.baseHash := by rw [k3]; exact n2
  rw [hss] at j1 q4 q6 j3
  have hsum : OptOk (wantsSummary t) rc.cc.DigestOk sum := by
    have := hv.summary
    unfold SummaryIs at this
    unfold OptOk
    show if wantsSummary t = true then _ else _
    split
    · rename_i hx
      rw [if_pos (by exact hx)] at this
      exact hp.summary _ _ _ _ _ _ this.1
    · rename_i hx
      rw [if_neg (by exact hx)] at this
      exact this
  have hdig : ∀ x, rc.cc.DigestOk x ↔ BaseHash.size? c.neg.baseHash = some x.length := by
    intro x
    show BaseHash.size? rc.neg.baseHash = some x.length ↔ _
    rw [n2]
  have hneed : ({ pskCtx rc ⟨t, reqId, hint, context.take hsz, opaq⟩ with sessions := l2 } : Ctx).cc.needSummary = wantsSummary t := rfl
  have hbody : ∀ v hb, v :: 0x66 :: PskExRsp.wire ⟨c.neg, wantsSummary t, c.rt.needSig⟩ ⟨hb, rspId, sum, context', opaq', mac⟩ =
      pskExchangeRspBody v hb rspId context' (optWire (wantsSummary t) sum) opaq' ++ mac := by
    intro v hb
    unfold PskExRsp.wire pskExchangeRspBody
    simp [optWire, putU16]
  rw [hhb, hvv, hneed] at g3
  have hg3 := g3.trans (congrArg (· ++ pad') (hbody _ _).symm)
  have htl : tl = PskExRsp.wire ⟨c.neg, wantsSummary t, c.rt.needSig⟩ ⟨rc.config.heartbeat, rspId, sum, context', opaq', mac⟩ ++ pad' := by
    rw [a9] at hg3
    simpa using hg3
  rw [htl] at a10
  have hm := (PskExRsp.read_w (c := ⟨c.neg, wantsSummary t, c.rt.needSig⟩) (m := ⟨rc.config.heartbeat, rspId, sum, context', opaq', mac⟩)
    (by unfold OptOk at hsum ⊢; simp only [hdig] at hsum; exact hsum) hctl
    (by have := respond_len hv.opaq; show opaq'.length ≤ 1024; omega)
    (hp.hmac _ _ _ _ j1)).of_read a10
  subst hm
  have hp0 : p = 0 ∧ q = 0 := by
    rw [g3] at a6
    simp only [pskHeard, pskExchangeRspBody, List.cons_append, List.nil_append, List.append_assoc, putU16] at a6
    simp only [List.cons.injEq] at a6
    obtain ⟨-, -, -, a61, -, -, a62, a63, -⟩ := a6
    exact ⟨a61.symm, u16_zero a62.symm a63.symm⟩
  obtain ⟨rfl, rfl⟩ := hp0
  have ho : optWire (wantsSummary t) sum = sum := by
    unfold OptOk at hsum
    unfold optWire
    split
    · rfl
    · rename_i hx; rw [if_neg hx] at hsum; exact hsum.symm
  have hheard : pskHeard c.neg.version.get 0 0 ⟨rc.config.heartbeat, rspId, sum, context', opaq', mac⟩ =
      pskExchangeRspBody c.neg.version.get rc.config.heartbeat rspId context' (optWire (wantsSummary t) sum) opaq' := by
    rw [ho]
    unfold pskHeard pskExchangeRspBody
    simp [putU16]
  have hs2 : s0 = { s2 with slotId := s0.slotId } := by
    refine a11.trans ?_
    rw [k3, a8]
    generalize hM : (⟨t, reqId, hint, context.take hsz, opaq⟩ : PskEx) = M at *
    unfold pskOpened
    have e2 : (pskCtx rc M).neg.baseHash = c.neg.baseHash := n2
    have e3 : (pskCtx rc M).neg.dhe = c.neg.dhe := n3
    have e4 : (pskCtx rc M).neg.aead = c.neg.aead := n4
    have e5 : (pskCtx rc M).neg.keySchedule = c.neg.keySchedule := n5
    rw [e2, e3, e4, e5, f1, hp.tr, ← hs.transcript, ← hM]
  have hma : s2.messageA = c.rt.messageA := by rw [k3, ← hs.transcript]; exact f1
  have hrc : s2.rspCertHash = none := by rw [k3]; rfl
  rw [hma, hrc, hreq, hhb, hvv, hneed, Option.getD_none, List.append_nil, ← hheard, ← hp.crypto] at q4 q6
  rw [hma, hrc, hreq, hhb, hvv, hneed, Option.getD_none, List.append_nil, ← hheard] at j3
  cases Option.some.inj (q4.symm.trans b1)
  have q7 := genHandshake_slot s0.slotId q6
  generalize hT : c.rt.messageA ++ pskExAsk c t reqId hint (context.take hsz) opaq ++
    pskHeard c.neg.version.get 0 0 ⟨rc.config.heartbeat, rspId, sum, context', opaq', mac⟩ = T at *
  rw [hs2] at b2
  dsimp only at b2 q7
  rw [hss, hma, hrc] at b2
  have hs1 : s1 = { s3 with slotId := s0.slotId } := by
    injection b2.symm.trans q7
  obtain ⟨_, _, _, _, _, _, -, -, -, -, -, -, he⟩ := Session.genHandshake_ok.1 q6
  have hfin : SameSession sf sf' ∧ sf.state = (if c.cc.pskNoContext then .established else .handshaking) ∧ sf.usePsk = true ∧ sf.mutAuth = 0 ∧ sf.pskHint = some hint ∧ sf.hash = c.neg.baseHash ∧
      sf.aead = c.neg.aead := by
    have u1 : s1.usePsk = true := by rw [hs1, he, k3]; rfl
    have um : s1.mutAuth = 0 := by rw [hs1, he, k3]; rfl
    have u2 : s1.pskHint = some hint := by rw [hs1, he, k3]; rfl
    have u3 : s1.hash = c.neg.baseHash := by rw [hs1, he]
    have u4 : s1.aead = c.neg.aead := by rw [hs1, he, k3]; exact n4
    unfold PskDone at b4
    unfold PskLeft at j3
    have hnc : ({ pskCtx rc ⟨t, reqId, hint, context.take hsz, opaq⟩ with sessions := l2 } : Ctx).cc.pskNoContext = c.cc.pskNoContext := n6
    rw [hnc] at j3
    cases hx : c.cc.pskNoContext with
    | false =>
      rw [hx, if_neg (by decide)] at b4 j3
      rw [b4, j3]
      refine ⟨?_, rfl, u1, um, u2, u3, u4⟩
      unfold SameSession handshaking started
      rw [hs1]
      dsimp only
      rw [hhb]
    | true =>
      rw [hx, if_pos rfl] at b4 j3
      obtain ⟨x, th2, sd, x1, x2, x3, x4⟩ := b4
      obtain ⟨x', th2', sd', y1, y2, y3, y4⟩ := j3
      dsimp only at x1 y1
      cases Option.some.inj (x1.symm.trans y1)
      rw [← hp.crypto] at y2 y3
      cases Option.some.inj (x2.symm.trans y2)
      have y5 := genData_slot s0.slotId y3
      have hvv' : ({ pskCtx rc ⟨t, reqId, hint, context.take hsz, opaq⟩ with sessions := l2 } : Ctx).neg.version = c.neg.version := hvv
      rw [hvv'] at y5
      rw [hs1] at x3
      dsimp only at x3 y5
      have hd : sd = { sd' with slotId := s0.slotId } := by injection x3.symm.trans y5
      obtain ⟨_, _, _, _, _, -, -, -, -, -, hf⟩ := Session.genData_ok.1 x3
      rw [x4, y4]
      refine ⟨?_, rfl, ?_, ?_, ?_, ?_, ?_⟩
      · unfold SameSession handshaking
        rw [hd]
        dsimp only
        rw [hhb]
      · show sd.usePsk = _
        rw [hf, ← u1, hs1]
      · show sd.mutAuth = _
        rw [hf, ← um, hs1]
      · show sd.pskHint = _
        rw [hf, ← u2, hs1]
      · show sd.hash = _
        rw [hf, ← u3, hs1]
      · show sd.aead = _
        rw [hf, ← u4, hs1]
  refine ⟨rc', _, _, ?_, ⟨?_, ?_⟩, b5, (by rw [a8, g5]; exact j4), hfin.1, hfin.2.1, hfin.2.2.1, hfin.2.2.2.1, hfin.2.2.2.2.1, hfin.2.2.2.2.2.1, hfin.2.2.2.2.2.2, ?_, ?_, ?_, ?_⟩
  · rw [a17]; exact g2
  · rw [a17, g5]; exact hs.neg
  · rw [a17, g5]; exact f1.trans hs.transcript
  · rw [g5]
    show (Ctx.resetBuffers .reqPskExchange none rc).rt.state = rc.rt.state
    unfold Ctx.resetBuffers Ctx.resetM Ctx.resetM1M2
    dsimp only
    split <;> split <;> (try split) <;> rfl
  · rw [g5]; exact (reset_fields .reqPskExchange rc).2.2.1
  · rw [a17]
  · rw [a17]

end Req
end Verif
