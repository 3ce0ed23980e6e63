import Verif.Props.Attest
import Verif.Props.Exchange
import Verif.Props.ReqExchange
/-! C58: every answer and request that is to be fresh contains bytes drawn for it, so that an old answer is not accepted again. -/
namespace Verif.Props
open Verif.Spec

/-- Two different inputs with the same hash. -/
def HashCollision (p : Crypto) : Prop := ∃ (a b : BaseHash) (x y d : Bytes), x ≠ y ∧ p.hash a x = some d ∧ p.hash b y = some d

/-- A signature that verifies for two different messages. -/
def SignsTwo (e : REnv) (purpose : Spec.Purpose) (sig : Bytes) : Prop :=
  ∃ (h1 h2 : BaseHash) (a1 a2 : BaseAsym) (certs1 certs2 d1 d2 : Bytes), d1 ≠ d2 ∧
    e.verify h1 a1 certs1 (Spec.signedData purpose d1) sig = true ∧ e.verify h2 a2 certs2 (Spec.signedData purpose d2) sig = true

/-- What the requester received in answer to the request it sent in state `c` (inside the session `sid`, if any). -/
def HeardFrom (e : REnv) (sid : Option UInt32) (c : Ctx) (bytes : Bytes) : Prop := ∃ req c', Req.Said e sid c req bytes c'

/-- The requester took the message `rsp` as the answer. -/
def AcceptedFrom (e : REnv) (sid : Option UInt32) (c : Ctx) (rsp : Bytes) : Prop := ∃ bytes, HeardFrom e sid c bytes ∧ Req.Took c.neg bytes rsp

theorem same_tail {a b x y s t : Bytes} (h : a ++ x ++ s = b ++ y ++ t) (hx : x.length = y.length) (hs : s.length = t.length) : x = y ∧ s = t := by
  have h1 := List.append_inj' h hs
  exact ⟨(List.append_inj' h1.1 hx).2, h1.2⟩

/-- `d1`, `d2` are the hashes of inputs that differ: a collision, or a signature over both is a signature over two messages. -/
theorem collide_or_two {e : REnv} {purpose : Spec.Purpose} {a1 a2 h1 h2 : BaseHash} {k1 k2 : BaseAsym} {x y d1 d2 certs1 certs2 sig : Bytes} (hne : x ≠ y)
    (hx : e.crypto.hash a1 x = some d1) (hy : e.crypto.hash a2 y = some d2)
    (v1 : e.verify h1 k1 certs1 (Spec.signedData purpose d1) sig = true) (v2 : e.verify h2 k2 certs2 (Spec.signedData purpose d2) sig = true) :
    HashCollision e.crypto ∨ SignsTwo e purpose sig := by
  by_cases hd : d1 = d2
  · subst hd; exact .inl ⟨_, _, _, _, _, hne, hx, hy⟩
  · exact .inr ⟨_, _, _, _, _, _, _, _, hd, v1, v2⟩

/-- **C58**, requester, CHALLENGE: if the bytes drawn differ, the same CHALLENGE_AUTH is not accepted for two requests - whatever happened before or between them -
unless two inputs of the hash collide or one signature verifies for two messages. -/
theorem C58_challenge_replay {e1 e2 : REnv} {slot1 slot2 : UInt8} {t1 t2 : SummaryHashType} {c1 c2 c1' c2' : Ctx} (hcr : e2.crypto = e1.crypto) (hv : e2.verify = e1.verify)
    (hneg : c2.neg = c1.neg) (h1 : Req.challenge e1 slot1 t1 c1 = .ok () c1') (h2 : Req.challenge e2 slot2 t2 c2 = .ok () c2')
    (hf : Ctx.random e1.toEnv 32 ≠ Ctx.random e2.toEnv 32) :
    ∃ rsp1 rsp2, AcceptedFrom e1 none c1 rsp1 ∧ AcceptedFrom e2 none c2 rsp2 ∧
      (rsp1 = rsp2 → HashCollision e1.crypto ∨ ∃ sig, SignsTwo e1 .challengeAuth sig) := by
  obtain ⟨-, nonce1, pkt1, bytes1, rest1, pre1, sig1, x1, d1, certs1, req1, a1, rfl, a3, rfl, a5, a6, rfl, a8, a9, -, a11, -⟩ := Req.challenge_ok h1
  obtain ⟨-, nonce2, pkt2, bytes2, rest2, pre2, sig2, x2, d2, certs2, req2, b1, rfl, b3, rfl, b5, b6, rfl, b8, b9, -, b11, -⟩ := Req.challenge_ok h2
  refine ⟨_, _, ⟨_, ⟨_, _, a3⟩, a5⟩, ⟨_, ⟨_, _, b3⟩, b5⟩, fun heq => ?_⟩
  rw [hneg] at heq b6 b8
  rw [hcr] at b8
  rw [hv] at b11
  have hlen : sig1.length = sig2.length := Option.some.inj (a6.symm.trans b6)
  injection heq with _ heq
  injection heq with _ heq
  obtain ⟨rfl, rfl⟩ := List.append_inj' heq hlen
  have := collide_or_two (sig := sig1) ?_ a8 b8 a11 b11
  · exact this.imp id fun h => ⟨_, h⟩
  · intro hx
    apply hf
    rw [a1, b1]
    have l1 := Rsp.random_length a1
    have l2 := Rsp.random_length b1
    have hx' : ((Req.m1m2Of c1).data ++ [c1.neg.version.get, 0x83, slot1, t1.get]) ++ nonce1 ++ (c1.neg.version.get :: 0x03 :: pre1) =
        ((Req.m1m2Of c2).data ++ [c1.neg.version.get, 0x83, slot2, t2.get]) ++ nonce2 ++ (c1.neg.version.get :: 0x03 :: pre1) := by simpa using hx
    rw [(same_tail hx' (by omega) rfl).1]

/-- **C58**, requester, GET_MEASUREMENTS with signature, in a session or outside: likewise. -/
theorem C58_measurements_replay {e1 e2 : REnv} {sid1 sid2 : Option UInt32} {slot1 slot2 attr1 attr2 : UInt8} {op1 op2 : MeasOperation} {o1 o2 : UInt8 × MeasRecord} {c1 c2 c1' c2' : Ctx}
    (hcr : e2.crypto = e1.crypto) (hv : e2.verify = e1.verify) (hneg : c2.neg = c1.neg) (s1 : attr1 &&& 1 = 1) (s2 : attr2 &&& 1 = 1)
    (h1 : Req.getMeasurements e1 sid1 slot1 attr1 op1 c1 = .ok o1 c1') (h2 : Req.getMeasurements e2 sid2 slot2 attr2 op2 c2 = .ok o2 c2')
    (hf : Ctx.random e1.toEnv 32 ≠ Ctx.random e2.toEnv 32) :
    ∃ rsp1 rsp2, AcceptedFrom e1 sid1 (Ctx.resetBuffers .reqGetMeasurements sid1 c1) rsp1 ∧ AcceptedFrom e2 sid2 (Ctx.resetBuffers .reqGetMeasurements sid2 c2) rsp2 ∧
      (rsp1 = rsp2 → HashCollision e1.crypto ∨ ∃ sig, SignsTwo e1 .measurements sig) := by
  obtain ⟨-, nonce1, bytes1, rest1, x1, n1, p1, m1, a1, a2, rfl, a4, -, a6⟩ := Req.getMeasurements_ok h1
  obtain ⟨-, nonce2, bytes2, rest2, x2, n2, p2, m2, b1, b2, rfl, b4, -, b6⟩ := Req.getMeasurements_ok h2
  have hs1 : Req.signatureRequested attr1 = true := by unfold Req.signatureRequested; rw [s1]; rfl
  have hs2 : Req.signatureRequested attr2 = true := by unfold Req.signatureRequested; rw [s2]; rfl
  dsimp only at a6 b6
  rw [if_pos hs1] at a6
  rw [if_pos hs2] at b6
  obtain ⟨d1, certs1, f1, f2, f3, f4, f5, -⟩ := a6
  obtain ⟨d2, certs2, g1, g2, g3, g4, g5, -⟩ := b6
  have r1 : (Ctx.resetBuffers .reqGetMeasurements sid1 c1).neg = c1.neg := by rw [Rsp.resetMeas_fields]
  have r2 : (Ctx.resetBuffers .reqGetMeasurements sid2 c2).neg = c2.neg := by rw [Rsp.resetMeas_fields]
  refine ⟨_, _, ⟨_, ⟨_, _, a2⟩, by rw [r1]; exact a4⟩, ⟨_, ⟨_, _, b2⟩, by rw [r2]; exact b4⟩, fun heq => ?_⟩
  have hcc : c2.cc.ge11 = c1.cc.ge11 := by show Cc.ge11 ⟨c2.neg, _, _⟩ = Cc.ge11 ⟨c1.neg, _, _⟩; rw [hneg]; rfl
  have h11 : c1.cc.ge11 = true := by
    have : c1.cc.ge12 = decide (0x12 ≤ c1.neg.version.get) := rfl
    rw [this] at f4
    have h12 : 0x12 ≤ c1.neg.version.get := of_decide_eq_true f4
    show decide (0x11 ≤ c1.neg.version.get) = true
    simp only [UInt8.le_iff_toNat_le] at h12 ⊢
    simp at h12 ⊢
    omega
  rw [hneg] at heq g1 g2
  rw [hcr] at g2
  rw [hv] at g5
  have hlen : m1.signature.length = m2.signature.length := Option.some.inj (f1.symm.trans g1)
  obtain ⟨hbody, hsig⟩ := List.append_inj' heq hlen
  rw [← hbody] at g2
  rw [← hsig] at g5
  have := collide_or_two (sig := m1.signature) ?_ f2 g2 f5 g5
  · exact this.imp id fun h => ⟨_, h⟩
  · intro hx
    apply hf
    rw [a1, b1]
    have l1 := Rsp.random_length a1
    have l2 := Rsp.random_length b1
    have w1 : Req.measRequest c1 slot1 attr1 op1 nonce1 = [c1.neg.version.get, 0xE0, attr1, op1.get] ++ nonce1 ++ [slot1] := by
      simp [Req.measRequest, GetMeas.wire, s1, h11]
    have w2 : Req.measRequest c2 slot2 attr2 op2 nonce2 = [c1.neg.version.get, 0xE0, attr2, op2.get] ++ nonce2 ++ [slot2] := by
      simp [Req.measRequest, GetMeas.wire, s2, h11, hcc, hneg]
    rw [w1, w2] at hx
    generalize Req.measHeardBody c1.neg.version.get n1 p1 m1 = body at hx
    have hx' : ((Req.l1l2Start x1 sid1).data ++ [c1.neg.version.get, 0xE0, attr1, op1.get]) ++ nonce1 ++ (slot1 :: body) =
        ((Req.l1l2Start x2 sid2).data ++ [c1.neg.version.get, 0xE0, attr2, op2.get]) ++ nonce2 ++ (slot2 :: body) := by simpa using hx
    rw [(same_tail hx' (by omega) (by simp)).1]

/-- **C58**, requester, KEY_EXCHANGE: likewise, for exchange data of the length of the group. -/
theorem C58_key_exchange_replay {e1 e2 : REnv} {slot1 slot2 : UInt8} {t1 t2 : SummaryHashType} {n : Nat} {c1 c2 c1' c2' : Ctx} {sid1 sid2 : UInt32} (hn : n < 0xFFFD)
    (r1 : Req.Reachable n c1) (r2 : Req.Reachable n c2) (hcr : e2.crypto = e1.crypto) (hv : e2.verify = e1.verify) (hneg : c2.neg = c1.neg)
    (hd : ∀ x f y g, e1.dheGen c1.neg.dhe = some (x, f) → e2.dheGen c1.neg.dhe = some (y, g) → x.length = y.length)
    (h1 : Req.keyExchange e1 slot1 t1 c1 = .ok sid1 c1') (h2 : Req.keyExchange e2 slot2 t2 c2 = .ok sid2 c2')
    (hf : Ctx.random e1.toEnv 32 ≠ Ctx.random e2.toEnv 32) :
    ∃ rsp1 rsp2, AcceptedFrom e1 none (Ctx.resetBuffers .reqKeyExchange none c1) rsp1 ∧ AcceptedFrom e2 none (Ctx.resetBuffers .reqKeyExchange none c2) rsp2 ∧
      (rsp1 = rsp2 → HashCollision e1.crypto ∨ ∃ sig, SignsTwo e1 .keyExchangeRsp sig) := by
  obtain ⟨hl1, ht1⟩ := r1.table hn
  obtain ⟨hl2, ht2⟩ := r2.table hn
  obtain ⟨-, i1, reqId1, random1, exchange1, opaq1, fin1, pkt1, bytes1, rest1, p1, m1, version1, certHash1, final1, root1, master1, d1, certs1, th1, s01, s11, a1, a2, a3, a4, a5, a6, rfl, a8, rfl, a10, a11,
    a12, a13, a14, a15, a16, -⟩ := Req.keyExchange_ok ht1 (by omega) h1
  obtain ⟨-, i2, reqId2, random2, exchange2, opaq2, fin2, pkt2, bytes2, rest2, p2, m2, version2, certHash2, final2, root2, master2, d2, certs2, th2, s02, s12, b1, b2, b3, b4, b5, b6, rfl, b8, rfl, b10, b11,
    b12, b13, b14, b15, b16, -⟩ := Req.keyExchange_ok ht2 (by omega) h2
  dsimp only at a16 b16
  obtain ⟨f1, f2, f3, f4, -⟩ := a16
  obtain ⟨g1, g2, g3, g4, -⟩ := b16
  refine ⟨_, _, ⟨_, ⟨_, _, a6⟩, by rw [(Rsp.reset_fields .reqKeyExchange c1).2.2.2.2]; exact a8⟩, ⟨_, ⟨_, _, b6⟩, by rw [(Rsp.reset_fields .reqKeyExchange c2).2.2.2.2]; exact b8⟩, fun heq => ?_⟩
  obtain ⟨-, _, _, -, ra⟩ := a11
  obtain ⟨-, _, _, -, rb⟩ := b11
  obtain ⟨u1, u2, -⟩ := Req.KeyExRsp.read_body ra
  obtain ⟨w1, w2, -⟩ := Req.KeyExRsp.read_body rb
  have hsl : m1.signature.length = m2.signature.length := by
    have w1 : BaseAsym.size? c2.neg.baseAsym = some m2.signature.length := w1
    rw [hneg] at w1
    exact Option.some.inj (u1.symm.trans w1)
  have hvl : m1.verify.length = m2.verify.length := by
    have w2 : OptOk (!Cc.inClear ⟨c2.neg, false, false⟩) (Cc.DigestOk ⟨c2.neg, false, false⟩) m2.verify := w2
    have u2 : OptOk (!Cc.inClear ⟨c1.neg, false, false⟩) (Cc.DigestOk ⟨c1.neg, false, false⟩) m1.verify := u2
    rw [hneg] at w2
    unfold OptOk at u2 w2
    split at u2
    · rename_i hb
      rw [if_pos hb] at w2
      exact Option.some.inj (u2.symm.trans w2)
    · rename_i hb
      rw [if_neg hb] at w2
      rw [u2, w2]
  rw [hneg] at heq g1 g4 b4
  obtain ⟨heq, -⟩ := List.append_inj' heq hvl
  obtain ⟨hbody, hsig⟩ := List.append_inj' heq hsl
  rw [hcr] at g1
  rw [hv] at g4
  rw [← hbody] at g1
  rw [← hsig] at g4
  have := collide_or_two (sig := m1.signature) ?_ f1 g1 f4 g4
  · exact this.imp id fun h => ⟨_, h⟩
  · intro hx
    apply hf
    rw [a3, b3]
    have l1 := Rsp.random_length a3
    have l2 := Rsp.random_length b3
    have hl := hd _ _ _ _ a4 b4
    have ho : opaq1 = opaq2 := by
      have b5 : (if Cc.ge12 ⟨c2.neg, false, false⟩ = false then some Opaque.reqList277 else if c2.neg.opaqueSupport = 2 then some Opaque.reqListFmt1 else none) = some opaq2 := b5
      rw [hneg] at b5
      exact Option.some.inj (a5.symm.trans b5)
    generalize Req.keyExHeard c1.neg.version.get p1 m1 = body at hx
    unfold Req.keyExAsk KeyEx.wire at hx
    subst ho
    have hx' : (c1.rt.messageA ++ certHash1 ++ [c1.neg.version.get, 0xE4, t1.get, slot1] ++ putU16 reqId1 ++ [if c1.cc.ge12 = true then c1.config.sessionPolicy else 0, 0]) ++ random1 ++
        (exchange1 ++ opaqueWire opaq1 ++ body) = (c2.rt.messageA ++ certHash2 ++ [c2.neg.version.get, 0xE4, t2.get, slot2] ++ putU16 reqId2 ++ [if c2.cc.ge12 = true then c2.config.sessionPolicy else 0, 0]) ++ random2 ++
        (exchange2 ++ opaqueWire opaq1 ++ body) := by simpa using hx
    rw [(same_tail hx' (by omega) (by simp [hl])).1]

/-- An HMAC that verifies under two keys or for two messages. -/
def MacsTwo (p : Crypto) (mac : Bytes) : Prop :=
  ∃ (h1 h2 : BaseHash) (k1 k2 d1 d2 : Bytes), d1 ≠ d2 ∧ p.hmacVerify h1 k1 d1 mac = true ∧ p.hmacVerify h2 k2 d2 mac = true

/-- **C58**, requester, PSK_EXCHANGE: likewise, with the HMAC in place of the signature; the context sent is as long as a digest. -/
theorem C58_psk_exchange_replay {e1 e2 : REnv} {t1 t2 : SummaryHashType} {hint1 hint2 : Bytes} {n hs : Nat} {c1 c2 c1' c2' : Ctx} {sid1 sid2 : UInt32} (hn : n < 0xFFFD)
    (r1 : Req.Reachable n c1) (r2 : Req.Reachable n c2) (hcr : e2.crypto = e1.crypto) (hneg : c2.neg = c1.neg) (hsz : BaseHash.size? c1.neg.baseHash = some hs)
    (h1 : Req.pskExchange e1 t1 hint1 c1 = .ok sid1 c1') (h2 : Req.pskExchange e2 t2 hint2 c2 = .ok sid2 c2')
    (hf : (Ctx.random e1.toEnv 64).map (·.take hs) ≠ (Ctx.random e2.toEnv 64).map (·.take hs)) :
    ∃ rsp1 rsp2, AcceptedFrom e1 none (Ctx.resetBuffers .reqPskExchange none c1) rsp1 ∧ AcceptedFrom e2 none (Ctx.resetBuffers .reqPskExchange none c2) rsp2 ∧
      (rsp1 = rsp2 → HashCollision e1.crypto ∨ ∃ mac, MacsTwo e1.crypto mac) := by
  obtain ⟨hl1, ht1⟩ := r1.table hn
  obtain ⟨hl2, ht2⟩ := r2.table hn
  obtain ⟨reqId1, context1, opaq1, hs1, pkt1, bytes1, rest1, p1, q1, m1, version1, th1, s01, s11, s1', a1, a2, a3, a4, a5, rfl, a7, rfl, a9, a10, a11, -⟩ := Req.pskExchange_ok ht1 (by omega) h1
  obtain ⟨reqId2, context2, opaq2, hs2, pkt2, bytes2, rest2, p2, q2, m2, version2, th2, s02, s12, s2', b1, b2, b3, b4, b5, rfl, b7, rfl, b9, b10, b11, -⟩ := Req.pskExchange_ok ht2 (by omega) h2
  dsimp only at a11 b11
  obtain ⟨f1, f2, f3, -⟩ := a11
  obtain ⟨g1, g2, g3, -⟩ := b11
  rw [hneg] at b3
  cases hsz.symm.trans a3
  cases hsz.symm.trans b3
  refine ⟨_, _, ⟨_, ⟨_, _, a5⟩, by rw [(Rsp.reset_fields .reqPskExchange c1).2.2.2.2]; exact a7⟩, ⟨_, ⟨_, _, b5⟩, by rw [(Rsp.reset_fields .reqPskExchange c2).2.2.2.2]; exact b7⟩, fun heq => ?_⟩
  obtain ⟨-, _, _, -, ra⟩ := a9
  obtain ⟨-, _, _, -, rb⟩ := b9
  obtain ⟨u1, -⟩ := Req.PskExRsp.read_body ra
  obtain ⟨w1, -⟩ := Req.PskExRsp.read_body rb
  have hvl : m1.verify.length = m2.verify.length := by
    have w1 : BaseHash.size? c2.neg.baseHash = some m2.verify.length := w1
    rw [hneg] at w1
    exact Option.some.inj (u1.symm.trans w1)
  rw [hneg] at heq g1
  obtain ⟨hbody, hmac⟩ := List.append_inj' heq hvl
  rw [hcr] at g1 g3
  rw [← hbody] at g1
  rw [← hmac] at g3
  by_cases hth : th1 = th2
  · subst hth
    refine .inl ⟨_, _, _, _, _, ?_, f1, g1⟩
    intro hx
    apply hf
    rw [a2, b2]
    have l1 := Rsp.random_length a2
    have l2 := Rsp.random_length b2
    have ho : opaq1 = opaq2 := by
      have b4 : (if Cc.ge12 ⟨c2.neg, false, false⟩ = false then some Opaque.reqList277 else if c2.neg.opaqueSupport = 2 then some Opaque.reqListFmt1 else none) = some opaq2 := b4
      rw [hneg] at b4
      exact Option.some.inj (a4.symm.trans b4)
    generalize Req.pskHeard c1.neg.version.get p1 q1 m1 = body at hx
    unfold Req.pskExAsk PskEx.wire at hx
    subst ho
    have hx' : ∃ a b : Bytes, a ++ context1.take hs ++ (opaq1 ++ body) = b ++ context2.take hs ++ (opaq1 ++ body) := by
      simp only [← List.cons_append, ← List.append_assoc] at hx ⊢
      exact ⟨_, _, hx⟩
    obtain ⟨a, b, hx'⟩ := hx'
    have := (same_tail hx' (by simp [l1, l2]) rfl).1
    simp [this]
  · exact .inr ⟨_, _, _, _, _, _, _, hth, f3, g3⟩

/-! ### The responder -/

section
open Rsp
variable {e e1 e2 : Env}

/-- **C58**, responder, CHALLENGE_AUTH: two of them, in any states of any two histories with the same algorithms, differ if the bytes drawn for them do. -/
theorem C58_challenge_auth (hl1 : DialogueLaws e1) (hl2 : DialogueLaws e2) (c1 c1' c2 c2' : Ctx) (rx1 rx2 : Bytes) (v1 v2 : UInt8) (t1 t2 : Bytes) (hneg : c2.neg = c1.neg)
    (p1 : Plain e1 rx1 (v1 :: 0x83 :: t1)) (h1 : processMessage e1 rx1 c1 = .ok true c1') (a1 : Answered e1 c1 c1')
    (p2 : Plain e2 rx2 (v2 :: 0x83 :: t2)) (h2 : processMessage e2 rx2 c2 = .ok true c2') (a2 : Answered e2 c2 c2') (hf : Ctx.random e1 32 ≠ Ctx.random e2 32) :
    ∃ b1 b2, SentOne e1 b1 c1 c1' ∧ SentOne e2 b2 c2 c2' ∧ b1 ≠ b2 := by
  obtain ⟨slot, ty, theirs, rest, chain, ch, nonce, sum, sig, asym, -, -, -, -, -, g6, g7, -, -, -, g11, -⟩ := C50_challenge hl1 c1 c1' rx1 v1 t1 p1 h1 a1
  obtain ⟨slot', ty', theirs', rest', chain', ch', nonce', sum', sig', asym', -, -, -, -, -, k6, k7, -, -, -, k11, -⟩ := C50_challenge hl2 c2 c2' rx2 v2 t2 p2 h2 a2
  refine ⟨_, _, g11, k11, fun heq => hf ?_⟩
  rw [hneg] at k6
  have hch : ch.length = ch'.length := Option.some.inj ((hl1.hash _ _ _ g6).symm.trans (hl2.hash _ _ _ k6))
  have l1 := random_length g7
  have l2 := random_length k7
  unfold challengeAuth at heq
  simp only [List.append_assoc] at heq
  have := (List.append_inj (List.append_inj (List.append_inj heq rfl).2 hch).2 (by omega)).1
  rw [g7, k7, this]

/-- **C58**, responder, MEASUREMENTS outside sessions: likewise. -/
theorem C58_measurements (hl1 : DialogueLaws e1) (hl2 : DialogueLaws e2) (c1 c1' c2 c2' : Ctx) (rx1 rx2 : Bytes) (v1 v2 : UInt8) (t1 t2 : Bytes)
    (p1 : Plain e1 rx1 (v1 :: 0xE0 :: t1)) (h1 : processMessage e1 rx1 c1 = .ok true c1') (a1 : Answered e1 c1 c1')
    (p2 : Plain e2 rx2 (v2 :: 0xE0 :: t2)) (h2 : processMessage e2 rx2 c2 = .ok true c2') (a2 : Answered e2 c2 c2') (hf : Ctx.random e1 32 ≠ Ctx.random e2 32) :
    ∃ b1 b2, SentOne e1 b1 c1 c1' ∧ SentOne e2 b2 c2 c2' ∧ b1 ≠ b2 := by
  obtain ⟨attr, op, slot, theirs, rest, number, r, nonce, sig, asym, -, -, -, -, -, g6, g7, -, -, g10, -⟩ := C51_measurements hl1 c1 c1' rx1 v1 t1 p1 h1 a1
  obtain ⟨attr', op', slot', theirs', rest', number', r', nonce', sig', asym', -, -, -, -, -, k6, k7, -, -, k10, -⟩ := C51_measurements hl2 c2 c2' rx2 v2 t2 p2 h2 a2
  refine ⟨_, _, g10, k10, fun heq => hf ?_⟩
  have l1 := random_length g7
  have l2 := random_length k7
  have hr : ∀ {e : Env} {c : Ctx} {op number : UInt8} {r : MeasRecord}, DialogueLaws e → Reported e c op number r → r.data.length ≤ 3500 := by
    rintro e c op number r hl ⟨total, g1, g2⟩
    split at g2
    · rw [g2.2]; simp
    · split at g2
      · exact hl.record _ _ _ _ _ g2.2
      · exact hl.record _ _ _ _ _ g2.2.2
  have n1 := hr hl1 g6
  have n2 := hr hl2 k6
  unfold measurements at heq
  simp only [List.append_assoc] at heq
  have h3 := (List.append_inj heq (by simp)).2
  obtain ⟨-, h4⟩ := List.append_inj h3 (by simp)
  obtain ⟨h5, h6⟩ := List.append_inj h4 (by simp [putU24])
  have hlen : r.data.length = r'.data.length := by
    simp only [putU24, List.cons.injEq, and_true] at h5
    obtain ⟨x1, x2, x3⟩ := h5
    have x1 := congrArg UInt8.toNat x1
    have x2 := congrArg UInt8.toNat x2
    simp [UInt32.toNat_shiftRight] at x1 x2
    rw [Nat.shiftRight_eq_div_pow, Nat.shiftRight_eq_div_pow] at x2
    omega
  have := (List.append_inj (List.append_inj h6 hlen).2 (by omega)).1
  rw [g7, k7, this]

/-- **C58**, responder, KEY_EXCHANGE_RSP: likewise (unless the answer does not fit and is replaced by ERROR). -/
theorem C58_key_exchange_rsp (n : Nat) (hn : n < 0xFFFD) (c1 c1' c2 c2' : Ctx) (r1 : Reachable n c1) (r2 : Reachable n c2) (rx1 rx2 : Bytes) (v1 v2 : UInt8) (t1 t2 : Bytes)
    (p1 : Plain e1 rx1 (v1 :: 0xE4 :: t1)) (hc1 : c1.cc.inClear = false) (h1 : processMessage e1 rx1 c1 = .ok true c1')
    (p2 : Plain e2 rx2 (v2 :: 0xE4 :: t2)) (hc2 : c2.cc.inClear = false) (h2 : processMessage e2 rx2 c2 = .ok true c2') (hf : Ctx.random e1 32 ≠ Ctx.random e2 32) :
    ∃ b1 b2, SentOne e1 b1 c1 c1' ∧ SentOne e2 b2 c2 c2' ∧ (IsError b1 ∨ IsError b2 ∨ b1 ≠ b2) := by
  obtain ⟨m, req, sum, opaq, ch, ex, final, rspId, random, th, sig, th1, mac, s, -, g2, -, -, -, -, g7, -⟩ := C52_key_exchange_partial n hn c1 c1' r1 rx1 v1 t1 p1 hc1 h1
  obtain ⟨m', req', sum', opaq', ch', ex', final', rspId', random', th', sig', th1', mac', s', -, k2, -, -, -, -, k7, -⟩ := C52_key_exchange_partial n hn c2 c2' r2 rx2 v2 t2 p2 hc2 h2
  refine ⟨_, _, g7, k7, ?_⟩
  unfold outgoing
  split
  · exact .inl ⟨_, _, rfl⟩
  split
  · exact .inr (.inl ⟨_, _, rfl⟩)
  refine .inr (.inr fun heq => hf ?_)
  have l1 := random_length g2
  have l2 := random_length k2
  unfold keyExchangeRspBody at heq
  simp only [List.append_assoc] at heq
  have h3 := (List.append_inj heq (by simp)).2
  have h4 := (List.append_inj h3 (by simp [putU16])).2
  have h5 := (List.append_inj h4 (by simp)).2
  rw [g2, k2, (List.append_inj h5 (by omega)).1]

/-- **C58**, responder, PSK_EXCHANGE_RSP: the claim is false (finding F5).  When a context is sent it is 64 zero bytes, in every reachable state and
whatever bytes could be drawn; the exchange draws random bytes exactly when it does not send them. -/
theorem C58_psk_context_violated (n : Nat) (hn : n < 0xFFFD) (c c' : Ctx) (hr : Reachable n c) (rx : Bytes) (v : UInt8) (t : Bytes)
    (hp : Plain e rx (v :: 0xE6 :: t)) (hctx : c.cc.pskNoContext = false) (h : processMessage e rx c = .ok true c') :
    ∃ rspId sum opaq mac, SentOne e (outgoing c ([c.neg.version.get, 0x66, c.config.heartbeat, 0] ++ putU16 rspId ++ [0, 0] ++ [64, 0] ++ putU16 (UInt16.ofNat opaq.length) ++
      sum ++ List.replicate 64 0 ++ opaq ++ mac)) c c' := by
  obtain ⟨m, req, sum, opaq, context, rspId, th1, mac, s, hv, -, -, g3, -⟩ := C52_psk_exchange n hn c c' hr rx v t hp h
  have hx := hv.context
  unfold PskContextIs at hx
  rw [hctx] at hx
  simp only [Bool.false_eq_true, if_false] at hx
  subst hx
  exact ⟨rspId, sum, opaq, mac, g3⟩

/-- the toy device with other random bytes. -/
def otherRandom : Env := { Toy.env with random := fun n => some (List.replicate n 0x99) }

/-- ... so that a recorded PSK_EXCHANGE sent again to a device in its initial connection gets the same answer and opens a session with the same keys, although
the device has other random bytes now; the answer contains 64 zero bytes. -/
theorem C58_psk_replay_violated : ∃ c, Reachable 2 c ∧ c.cc.pskNoContext = false ∧ Ctx.random Toy.env 64 ≠ Ctx.random otherRandom 64 ∧
    ∃ c1 c2, processMessage Toy.env pskExchange c = .ok true c1 ∧ processMessage otherRandom pskExchange c = .ok true c2 ∧ c1.sent = c2.sent ∧ c1.sessions = c2.sessions ∧
      c1.sessions.map (·.state) = [.handshaking, .notStarted] := by
  refine ⟨toyWithRun 0x8F6 [Toy.version, Toy.capabilities, Toy.algorithms], toyWith_reachable _ _ (by decide +kernel), by decide +kernel, by decide +kernel, ?_⟩
  have hd : ((after? Toy.env (toyWithRun 0x8F6 [Toy.version, Toy.capabilities, Toy.algorithms]) pskExchange).bind fun c1 =>
      (after? otherRandom (toyWithRun 0x8F6 [Toy.version, Toy.capabilities, Toy.algorithms]) pskExchange).map fun c2 =>
        (decide (c1.sent = c2.sent), decide (c1.sessions = c2.sessions), c1.sessions.map (·.state))) = some (true, true, [.handshaking, .notStarted]) := by decide +kernel
  obtain ⟨c1, h1, h2⟩ := Option.bind_eq_some_iff.1 hd
  obtain ⟨c2, h3, h4⟩ := Option.map_eq_some_iff.1 h2
  simp only [Prod.mk.injEq, decide_eq_true_eq] at h4
  exact ⟨c1, c2, after?_ok h1, after?_ok h3, h4⟩

/-- concrete: the toy device answers two CHALLENGEs with different random bytes, and the requirements of the claims above are met. -/
example : ∃ c, Reachable 2 c ∧ DialogueLaws Toy.env ∧ Ctx.random Toy.env 32 ≠ Ctx.random otherRandom 32 ∧
    (∃ c', processMessage Toy.env challengePacket c = .ok true c' ∧ Answered Toy.env c c') := by
  refine ⟨Toy.negotiated, negotiated_reachable, toy_laws, by decide +kernel, toy_answers (by decide +kernel)⟩

end

section
open Req

/-- a toy requester environment with other random bytes. -/
def otherReq : REnv := { Toy.renv with random := fun n => some (List.replicate n 0x99) }

/-- concrete: with the toy libraries both of two requesters with different random bytes complete CHALLENGE, signed GET_MEASUREMENTS, and KEY_EXCHANGE. -/
example : Ctx.random Toy.renv.toEnv 32 ≠ Ctx.random otherReq.toEnv 32 ∧
    ((Toy.runOps Toy.renv Toy.req0 [.connect, .certificate 20 none 0, .challenge 0 .none, .measurements none 0 1 (.requestAll), .keyExchange 0 .none]).map (·.1)) = some [none, none, none, none, none] ∧
    ((Toy.runOps otherReq Toy.req0 [.connect, .certificate 20 none 0, .challenge 0 .none, .measurements none 0 1 (.requestAll), .keyExchange 0 .none]).map (·.1)) = some [none, none, none, none, none] := by
  decide +kernel

end

end Verif.Props
