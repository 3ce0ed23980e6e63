/-
The requester's operations outside sessions: what a success means, exactly.
-/
import Verif.Requester.Heard
import Verif.Responder.Negotiated
import Verif.Props.Signing

namespace Verif
namespace Req
open Rsp

variable {e : REnv}

theorem readMsg_ok' {α : Type} {x : Cc → Rd α} {bytes req : Bytes} {r : Reader} {a : α} {c c' : Ctx} (h : Rsp.readMsg x bytes r c = .ok (a, req) c') :
    c' = c ∧ ∃ r', x c.cc r = .ok a r' ∧ req = bytes.take r'.used := Rsp.readMsg_ok h

/-! ### Negotiation -/

theorem getVersion_ok {c c' : Ctx} {u : Unit} (h : getVersion e c = .ok u c') :
    ∃ pkt bytes t v m r', Said e none c [0x10, 0x84, 0, 0] bytes (withSent pkt c) ∧ bytes = v :: 0x04 :: t ∧ VersionRsp.read ⟨t, 2⟩ = .ok m r' ∧
      isUnknown (selectVersion c.config m) = false ∧
      c' = { c with neg := { c.neg with version := selectVersion c.config m },
                    rt := { messageA := [0x10, 0x84, 0, 0] ++ bytes.take r'.used }, sent := c.sent ++ [pkt] } := by
  obtain ⟨_, c0, h0, h1⟩ := M.bind_ok.1 h
  cases h0
  obtain ⟨req, c1, h2, h3⟩ := M.bind_ok.1 h1
  obtain ⟨rfl, rfl⟩ := encodeAs_ok (p := .getVersion) (w := [0, 0]) encNoParams_writes h2
  obtain ⟨bytes, c2, h4, h5⟩ := M.bind_ok.1 h3
  obtain ⟨pkt, p, h6, h7, h8, rfl⟩ := transact_ok h4
  obtain ⟨r, c3, h9, h10⟩ := M.bind_ok.1 h5
  obtain ⟨rfl, v, t, rfl, rfl⟩ := expectAny_ok h9
  obtain ⟨⟨m, rsp⟩, c4, h11, h12⟩ := M.bind_ok.1 h10
  obtain ⟨rfl, r', h13, rfl⟩ := readMsg_ok' h11
  obtain ⟨_, c5, h14, h15⟩ := M.bind_ok.1 h12
  rw [M.modify_apply] at h14
  injection h14 with _ h14
  subst h14
  obtain ⟨c6, c7, h16, h17⟩ := M.bind_ok.1 h15
  cases h16
  by_cases hu : isUnknown (selectVersion c.config m) = true
  · have h17' := h17
    rw [if_pos (by exact hu)] at h17'
    cases h17'
  · rw [if_neg (by exact hu)] at h17
    obtain ⟨_, c8, h18, h19⟩ := M.bind_ok.1 h17
    rw [M.modify_apply] at h18
    injection h18 with _ h18
    subst h18
    obtain ⟨_, c9, h20, h21⟩ := M.bind_ok.1 h19
    obtain ⟨_, rfl⟩ := appendA_ok h20
    obtain ⟨_, rfl⟩ := appendA_ok h21
    exact ⟨pkt, _, t, v, m, r', ⟨pkt, p, h6, h7, h8, rfl⟩, rfl, h13, by simpa using hu, rfl⟩

theorem getCapabilities_ok {c c' : Ctx} {u : Unit} (h : getCapabilities e c = .ok u c') :
    ∃ req pkt bytes t m r', Said e none c req bytes (withSent pkt c) ∧ req = c.neg.version.get :: 0xE1 :: getCapsWire c.cc (capsRequest c.config) ∧
      bytes = c.neg.version.get :: 0x61 :: t ∧ SpdmVersion.ofCode c.neg.version.get = c.neg.version ∧ rdCaps c.cc ⟨t, 2⟩ = .ok m r' ∧
      c' = { setCaps m c with rt := { c.rt with l1l2 := none, messageA := c.rt.messageA ++ req ++ bytes.take r'.used }, sent := c.sent ++ [pkt] } := by
  obtain ⟨_, c0, h0, h1⟩ := M.bind_ok.1 h
  cases h0
  obtain ⟨c00, c01, h00, h01⟩ := M.bind_ok.1 h1
  cases h00
  obtain ⟨req, c1, h2, h3⟩ := M.bind_ok.1 h01
  obtain ⟨rfl, rfl⟩ := encodeReq_ok (p := .getCaps _) (encGetCaps_writes _ _) h2
  obtain ⟨bytes, c2, h4, h5⟩ := M.bind_ok.1 h3
  obtain ⟨pkt, p, h6, h7, h8, rfl⟩ := transact_ok h4
  obtain ⟨r, c3, h9, h10⟩ := M.bind_ok.1 h5
  obtain ⟨rfl, v, t, rfl, hv, rfl⟩ := expect_ok h9
  obtain ⟨⟨m, rsp⟩, c4, h11, h12⟩ := M.bind_ok.1 h10
  obtain ⟨rfl, r', h13, rfl⟩ := readMsg_ok' h11
  obtain ⟨_, c5, h14, h15⟩ := M.bind_ok.1 h12
  rw [M.modify_apply] at h14
  injection h14 with _ h14
  subst h14
  obtain ⟨_, c6, h16, h17⟩ := M.bind_ok.1 h15
  obtain ⟨_, rfl⟩ := appendA_ok h16
  obtain ⟨_, rfl⟩ := appendA_ok h17
  have hv' := version_byte hv
  change v = c.neg.version.get at hv'
  subst hv'
  refine ⟨_, pkt, _, t, m, r', ⟨pkt, p, h6, h7, h8, rfl⟩, rfl, rfl, hv, h13, ?_⟩
  rfl

theorem encNegAlgs_writes' {c : Cc} {m : NegAlgs} (h : m.algs.length ≤ 4) (h' : ∀ a ∈ m.algs, a.alg ≠ .unknown) :
    Writes (encNegAlgs c m) (negAlgsWire c m) := by
  have ha : Writes (encN AlgStruct.encode m.algs) (m.algs.flatMap AlgStruct.wire) :=
    Writes.repeat _ fun a ha => AlgStruct.encode_writes (h' a ha)
  have h1 := MeasSpec.writes m.measSpec
  have h2 := BaseAsym.writes m.asym
  have h3 := BaseHash.writes m.hash
  unfold encNegAlgs
  apply Writes.cast
  · wr
  have hl : (32 + (4 * m.algs.length.toUInt8).toUInt16 : UInt16) = 32 + 4 * m.algs.length.toUInt16 := by
    have : m.algs.length = 0 ∨ m.algs.length = 1 ∨ m.algs.length = 2 ∨ m.algs.length = 3 ∨ m.algs.length = 4 := by omega
    rcases this with h | h | h | h | h <;> rw [h] <;> decide
  simp only [negAlgsWire, hl]
  by_cases g1 : c.ge11 = true <;> by_cases g2 : c.ge12 = true <;> simp [g1, g2, putU16]

theorem algsRequest_writes (cc : Cc) (cfg : Config) : Writes (encNegAlgs cc (algsRequest cfg)) (negAlgsWire cc (algsRequest cfg)) := by
  refine encNegAlgs_writes' (by simp [algsRequest]) ?_
  intro a ha
  simp only [algsRequest, List.mem_cons, List.not_mem_nil, or_false] at ha
  rcases ha with rfl | rfl | rfl | rfl <;> simp

theorem negotiateAlgorithms_ok {c c' : Ctx} {u : Unit} (h : negotiateAlgorithms e c = .ok u c') :
    ∃ req pkt bytes t m r', Said e none c req bytes (withSent pkt c) ∧ req = c.neg.version.get :: 0xE3 :: negAlgsWire c.cc (algsRequest c.config) ∧
      bytes = c.neg.version.get :: 0x63 :: t ∧ SpdmVersion.ofCode c.neg.version.get = c.neg.version ∧ rdAlgsRsp c.cc ⟨t, 2⟩ = .ok m r' ∧ m.hash ≠ 0 ∧ m.asym ≠ 0 ∧
      c' = { c with neg := (takeAlgs m c.neg).1, rt := { c.rt with l1l2 := none, messageA := c.rt.messageA ++ req ++ bytes.take r'.used }, sent := c.sent ++ [pkt] } := by
  obtain ⟨_, c0, h0, h1⟩ := M.bind_ok.1 h
  cases h0
  obtain ⟨c00, c01, h00, h01⟩ := M.bind_ok.1 h1
  cases h00
  obtain ⟨req, c1, h2, h3⟩ := M.bind_ok.1 h01
  obtain ⟨rfl, rfl⟩ := encodeReq_ok (p := .negAlgs _) (algsRequest_writes _ _) h2
  obtain ⟨bytes, c2, h4, h5⟩ := M.bind_ok.1 h3
  obtain ⟨pkt, p, h6, h7, h8, rfl⟩ := transact_ok h4
  obtain ⟨r, c3, h9, h10⟩ := M.bind_ok.1 h5
  obtain ⟨rfl, v, t, rfl, hv, rfl⟩ := expect_ok h9
  obtain ⟨⟨m, rsp⟩, c4, h11, h12⟩ := M.bind_ok.1 h10
  obtain ⟨rfl, r', h13, rfl⟩ := readMsg_ok' h11
  obtain ⟨c40, c41, h40, h41⟩ := M.bind_ok.1 h12
  cases h40
  obtain ⟨_, c5, h14, h15⟩ := M.bind_ok.1 h41
  cases h14
  have hv' := version_byte hv
  change v = c.neg.version.get at hv'
  subst hv'
  by_cases ht : (takeAlgs m c.neg).2 = false
  · have h15' := h15
    rw [if_pos (by exact ht)] at h15'
    cases h15'
  · rw [if_neg (by exact ht)] at h15
    obtain ⟨_, c6, h16, h17⟩ := M.bind_ok.1 h15
    obtain ⟨_, rfl⟩ := appendA_ok h16
    obtain ⟨_, rfl⟩ := appendA_ok h17
    refine ⟨_, pkt, _, t, m, r', ⟨pkt, p, h6, h7, h8, rfl⟩, rfl, rfl, hv, h13, ?_, ?_, rfl⟩
    · intro h0; apply ht; simp [takeAlgs, h0]
    · intro h0; apply ht; by_cases hh : m.hash = 0 <;> simp [takeAlgs, h0, hh]

/-! ### Authentication -/

theorem appendBBoth_ok {sid : Option UInt32} {req rsp : Bytes} {c c' : Ctx} {u : Unit} (h : appendBBoth e sid req rsp c = .ok u c') :
    c' = if sid = none then addB rsp (addB req c) else c := by
  cases sid with
  | some i => cases h; rfl
  | none =>
    obtain ⟨_, c1, h1, h2⟩ := M.bind_ok.1 h
    have h1' := appendM1M2_ok h1
    have h2' := appendM1M2_ok h2
    subst h1'
    exact h2'

theorem getDigests_ok {sid : Option UInt32} {c c' : Ctx} {u : Unit} (h : getDigests e sid c = .ok u c') :
    ∃ bytes t m r' c1, Said e sid (Ctx.resetBuffers .reqGetDigests sid c) [c.neg.version.get, 0x81, 0, 0] bytes c1 ∧
      bytes = c.neg.version.get :: 0x01 :: t ∧ SpdmVersion.ofCode c.neg.version.get = c.neg.version ∧ Digests.read c.cc ⟨t, 2⟩ = .ok m r' ∧
      c' = if sid = none then addB (bytes.take r'.used) (addB [c.neg.version.get, 0x81, 0, 0] c1) else c1 := by
  obtain ⟨_, c0, h0, h1⟩ := M.bind_ok.1 h
  cases h0
  obtain ⟨req, c1, h2, h3⟩ := M.bind_ok.1 h1
  obtain ⟨rfl, rfl⟩ := encodeReq_ok (p := .getDigests) (w := [0, 0]) encNoParams_writes h2
  obtain ⟨bytes, c2, h4, h5⟩ := M.bind_ok.1 h3
  have hs := transact_ok h4
  obtain ⟨r, c3, h9, h10⟩ := M.bind_ok.1 h5
  obtain ⟨rfl, v, t, rfl, hv, rfl⟩ := expect_ok h9
  obtain ⟨⟨m, rsp⟩, c4, h11, h12⟩ := M.bind_ok.1 h10
  obtain ⟨rfl, r', h13, rfl⟩ := readMsg_ok' h11
  have hneg : (Ctx.resetBuffers .reqGetDigests sid c).neg = c.neg := by cases sid <;> rfl
  obtain ⟨f1, f2, -⟩ := hs.fields
  have hcc : c4.cc = c.cc := by unfold Ctx.cc; rw [f1, f2]; exact resetBuffers_cc _ _ _
  rw [hneg] at hs h12
  have hv' := version_byte hv
  rw [f1, hneg] at hv'
  subst hv'
  rw [hcc] at h13
  exact ⟨_, t, m, r', c4, hs, rfl, by rw [hv, f1, hneg], h13, appendBBoth_ok h12⟩

theorem verifyWith_ok {c : Ctx} {certs msg sig : Bytes} {u : Unit} (h : verifyWith e c certs msg sig = .ok u) :
    e.verify c.neg.baseHash c.neg.baseAsym certs msg sig = true := by
  unfold verifyWith at h
  split at h
  · assumption
  · cases h

/-- the certificates of the chain stored for a slot: what follows the four-byte header and the root hash. -/
def CertsOf (c : Ctx) (slot : UInt8) (certs : Bytes) : Prop :=
  ∃ (i : Fin 8) (chain : Bytes) (hs : Nat), i.val = slot.toNat ∧ c.peer.chain i = some chain ∧ BaseHash.size? c.neg.baseHash = some hs ∧
    4 + hs ≤ chain.length ∧ certs = chain.drop (4 + hs)

theorem slot?_val {b : UInt8} {i : Fin 8} (h : Ctx.slot? b = some i) : i.val = b.toNat := by
  unfold Ctx.slot? at h
  split at h
  · cases h; rfl
  · cases h

theorem peerCerts_ok {c : Ctx} {slot : UInt8} {certs : Bytes} (h : peerCerts c slot = .ok certs) : CertsOf c slot certs := by
  unfold peerCerts at h
  obtain ⟨i, h1, h2⟩ := Res.bind_ok.1 h
  obtain ⟨chain, h3, h4⟩ := Res.bind_ok.1 h2
  obtain ⟨hs, h5, h6⟩ := Res.bind_ok.1 h4
  split at h6
  · cases h6
  · cases h6
    refine ⟨i, chain, hs, slot?_val (Res.unwrap_ok.1 h1), Res.ofOption_ok.1 h3, Res.unwrap_ok.1 h5, by omega, rfl⟩

theorem challengeCheck_ok {slot : UInt8} {sig : Bytes} {c c' : Ctx} {u : Unit} (h : challengeCheck e slot sig c = .ok u c') :
    c' = Ctx.resetM1M2 c ∧ challengeVerify e slot sig c = .ok () := by
  simp only [challengeCheck, M.bind_apply, M.get_apply] at h
  cases hv : challengeVerify e slot sig c with
  | panic => simp [hv] at h
  | err st => simp [hv] at h
  | ok u =>
    simp only [hv, M.modify_apply] at h
    cases h
    exact ⟨rfl, rfl⟩

theorem challengeVerify_ok {slot : UInt8} {sig : Bytes} {c : Ctx} {u : Unit} (h : challengeVerify e slot sig c = .ok u) :
    ∃ x d certs, c.rt.m1m2 = some x ∧ e.crypto.hash x.algo x.data = some d ∧ CertsOf c slot certs ∧ c.cc.ge12 = true ∧
      e.verify c.neg.baseHash c.neg.baseAsym certs (Spec.signedData .challengeAuth d) sig = true := by
  unfold challengeVerify at h
  obtain ⟨x, h1, h2⟩ := Res.bind_ok.1 h
  obtain ⟨d, h3, h4⟩ := Res.bind_ok.1 h2
  obtain ⟨certs, h5, h6⟩ := Res.bind_ok.1 h4
  obtain ⟨m, h7, h8⟩ := Res.bind_ok.1 h6
  obtain ⟨g1, _, rfl⟩ := Props.C40_only_signed_data c.cc .challengeAuth d m h7
  exact ⟨x, d, certs, Res.ofOption_ok.1 h1, Res.ofOption_ok.1 h3, peerCerts_ok h5, g1, verifyWith_ok h8⟩

/-- M1/M2 before anything is appended: the hash context, or message A if there is none yet. -/
def m1m2Of (c : Ctx) : HashCtx := c.rt.m1m2.getD ⟨c.neg.baseHash, c.rt.messageA⟩

theorem addB_m1m2 (b : Bytes) (c : Ctx) : (addB b c).rt.m1m2 = some ⟨(m1m2Of c).algo, (m1m2Of c).data ++ b⟩ := by
  unfold addB m1m2Of
  cases c.rt.m1m2 <;> rfl

theorem m1m2Of_addB (b : Bytes) (c : Ctx) : m1m2Of (addB b c) = ⟨(m1m2Of c).algo, (m1m2Of c).data ++ b⟩ := by
  have := addB_m1m2 b c
  unfold m1m2Of at this ⊢
  rw [this]; rfl

/-- A successful CHALLENGE. -/
theorem challenge_ok {slot : UInt8} {t : SummaryHashType} {c c' : Ctx} {u : Unit} (h : challenge e slot t c = .ok u c') :
    slot < 8 ∧ ∃ nonce pkt bytes rest pre sig x d certs req,
      Ctx.random e.toEnv 32 = some nonce ∧ req = c.neg.version.get :: 0x83 :: slot :: t.get :: nonce ∧
      Said e none c req bytes (withSent pkt c) ∧
      bytes = c.neg.version.get :: 0x03 :: (pre ++ sig ++ rest) ∧ Took c.neg bytes (c.neg.version.get :: 0x03 :: (pre ++ sig)) ∧ BaseAsym.size? c.neg.baseAsym = some sig.length ∧
      x = m1m2Of c ∧
      e.crypto.hash x.algo (x.data ++ req ++ (c.neg.version.get :: 0x03 :: pre)) = some d ∧ CertsOf c slot certs ∧ c.cc.ge12 = true ∧
      e.verify c.neg.baseHash c.neg.baseAsym certs (Spec.signedData .challengeAuth d) sig = true ∧
      c' = { c with rt := { c.rt with l1l2 := none, m1m2 := none, needSummary := decide (t = .tcb ∨ t = .all) }, sent := c.sent ++ [pkt] } := by
  unfold challenge at h
  by_cases hsl : slot ≥ 8
  · rw [if_pos hsl] at h; cases h
  rw [if_neg hsl] at h
  refine ⟨by simpa using hsl, ?_⟩
  obtain ⟨_, c0, h0, h1⟩ := M.bind_ok.1 h
  cases h0
  obtain ⟨nonce, c00, h00, h01⟩ := M.bind_ok.1 h1
  obtain ⟨hn, rfl⟩ := ofOption_ok.1 h00
  obtain ⟨req, c1, h2, h3⟩ := M.bind_ok.1 h01
  obtain ⟨rfl, rfl⟩ := encodeReq_ok (p := .challenge _) (Challenge.encode_writes _) h2
  obtain ⟨bytes, c2, h4, h5⟩ := M.bind_ok.1 h3
  obtain ⟨pkt, p, h6, h7, h8, rfl⟩ := transact_ok h4
  obtain ⟨_, c20, h20, h21⟩ := M.bind_ok.1 h5
  rw [M.modify_apply] at h20
  injection h20 with _ h20
  subst h20
  obtain ⟨r, c3, h9, h10⟩ := M.bind_ok.1 h21
  obtain ⟨rfl, v, t', rfl, hv, rfl⟩ := expect_ok h9
  obtain ⟨⟨m, rsp⟩, c4, h11, h12⟩ := M.bind_ok.1 h10
  obtain ⟨rfl, r', h13, rfl⟩ := readMsg_ok' h11
  obtain ⟨c40, c41, h40, h41⟩ := M.bind_ok.1 h12
  cases h40
  obtain ⟨asym, c5, h14, h15⟩ := M.bind_ok.1 h41
  obtain ⟨hasym, rfl⟩ := unwrap_ok.1 h14
  obtain ⟨body, c6, h16, h17⟩ := M.bind_ok.1 h15
  obtain ⟨hbody, rfl⟩ := liftOk.1 h16
  obtain ⟨_, c7, h18, h19⟩ := M.bind_ok.1 h17
  have e1 := appendM1M2_ok h18
  subst e1
  obtain ⟨_, c8, h22, h23⟩ := M.bind_ok.1 h19
  have e2 := appendM1M2_ok h22
  subst e2
  obtain ⟨rfl, h24⟩ := challengeCheck_ok h23
  obtain ⟨x, d, certs, k1, k2, k3, k4, k5⟩ := challengeVerify_ok h24
  obtain ⟨g1, pre, g2⟩ := ChallengeAuth.read_tail h13
  have hv' := version_byte hv
  change v = c.neg.version.get at hv'
  subst hv'
  obtain ⟨g3, g4⟩ := After.message (v := c.neg.version.get) (k := 0x03) g2
  have g1' : some asym = some m.signature.length := hasym.symm.trans g1
  have hl : m.signature.length = asym := (Option.some.inj g1').symm
  have hb : body = c.neg.version.get :: 0x03 :: pre := by
    have g5 := dropTail_append (pre := c.neg.version.get :: 0x03 :: pre) hl
    change dropTail asym ((c.neg.version.get :: 0x03 :: t').take r'.used) = _ at hbody
    rw [g3] at hbody
    rw [← List.cons_append, ← List.cons_append, g5] at hbody
    exact (Res.ok.inj hbody).symm
  subst hb
  refine ⟨nonce, pkt, _, r'.rest, pre, m.signature, _, d, certs, _, hn, rfl, ⟨pkt, p, h6, h7, h8, rfl⟩, ?_, ?_, g1, rfl, ?_, k3, k4, k5, rfl⟩
  · rw [g4]; rfl
  · have ht := took_of (c := wantSummary t (withSent pkt (Ctx.resetBuffers .reqChallenge none c))) (f := .challengeAuth) (k := 0x03) (neg := c.neg) (fun _ => rfl) rfl hv h13
    rw [g3] at ht; exact ht
  · rw [addB_m1m2, m1m2Of_addB] at k1
    have k1' := Option.some.inj k1
    subst k1'
    exact k2

/-! ### GET_CERTIFICATE -/

/-- CERTIFICATE, as received. -/
def certHeard (v p : UInt8) (m : CertRsp) : Bytes := v :: 0x02 :: ([m.slot] ++ [p] ++ putU16 m.portion ++ putU16 m.remainder ++ m.data)

theorem CertRsp.read_tail {r r' : Reader} {m : CertRsp} (h : CertRsp.read r = .ok m r') :
    m.data.length = min m.portion.toNat 512 ∧ ∃ p, r.After ([m.slot] ++ [p] ++ putU16 m.portion ++ putU16 m.remainder ++ m.data) r' := by
  simp only [CertRsp.read, M.bind_ok, M.pure_ok, rdU8_ok, rdU16_ok, rdBytes_ok] at h
  obtain ⟨s, _, h1, p, _, h2, a, _, h3, b, _, h4, d, _, ⟨h5, h5'⟩, rfl, rfl⟩ := h
  exact ⟨h5, p, (((h1.trans h2).trans h3).trans h4).trans h5'⟩

/-- GET_CERTIFICATE. -/
def certAsk (v slot : UInt8) (offset length : UInt16) : Bytes := v :: 0x82 :: slot :: 0 :: (putU16 offset ++ putU16 length)

theorem getCertificatePartial_ok {sid : Option UInt32} {slot : UInt8} {total offset length : UInt16} {c c' : Ctx} {out : UInt16 × UInt16}
    (h : getCertificatePartial e sid slot total offset length c = .ok out c') :
    ∃ bytes c1 p m temp, Said e sid c (certAsk c.neg.version.get slot offset length) bytes c1 ∧ Took c.neg bytes (certHeard c.neg.version.get p m) ∧
      portionRefused total offset length m = false ∧ m.slot = slot ∧ m.data.length = min m.portion.toNat 512 ∧ out = (m.portion, m.remainder) ∧
      c.peer.temp = some temp ∧
      (let c2 := { c1 with peer := { c.peer with temp := some (storePortion offset m temp) } }
       c' = if sid = none then addB (certHeard c.neg.version.get p m) (addB (certAsk c.neg.version.get slot offset length) c2) else c2) := by
  obtain ⟨req, c1, h2, h3⟩ := M.bind_ok.1 h
  obtain ⟨rfl, rfl⟩ := encodeReq_ok (p := .getCert _) (GetCert.encode_writes _) h2
  have hreq : c1.neg.version.get :: ReqRespCode.reqGetCertificate.get :: GetCert.wire ⟨slot, offset, length⟩ = certAsk c1.neg.version.get slot offset length := by
    simp [GetCert.wire, certAsk, ReqRespCode.get]
  rw [hreq] at h3
  obtain ⟨bytes, c2, h4, h5⟩ := M.bind_ok.1 h3
  have hs := transact_ok h4
  obtain ⟨f1, f2, -, -, f5⟩ := hs.fields
  obtain ⟨r, c3, h9, h10⟩ := M.bind_ok.1 h5
  obtain ⟨rfl, v, t, rfl, hv, rfl⟩ := expect_ok h9
  obtain ⟨⟨m, rsp⟩, c4, h11, h12⟩ := M.bind_ok.1 h10
  obtain ⟨rfl, r', h13, rfl⟩ := readMsg_ok' h11
  obtain ⟨g1, p, g2⟩ := CertRsp.read_tail h13
  have hv' := version_byte hv
  rw [f1] at hv'
  subst hv'
  obtain ⟨g3, g4⟩ := After.message (v := c1.neg.version.get) (k := 0x02) g2
  have ht := took_of (f := .cert) (k := 0x02) (neg := c1.neg) (x := fun _ => CertRsp.read) (fun _ => rfl) f1 hv h13
  rw [g3] at ht
  change Rsp.readMsg _ _ _ _ = .ok (m, (c1.neg.version.get :: 0x02 :: t).take r'.used) _ at h11
  dsimp only at h12
  by_cases hp : portionRefused total offset length m = true
  · rw [if_pos hp] at h12; cases h12
  rw [if_neg hp] at h12
  by_cases hsl : m.slot ≠ slot
  · rw [if_pos hsl] at h12; cases h12
  rw [if_neg hsl] at h12
  obtain ⟨_, c5, h14, h15⟩ := M.bind_ok.1 h12
  cases h14
  obtain ⟨temp, c6, h16, h17⟩ := M.bind_ok.1 h15
  obtain ⟨htemp, rfl⟩ := ofOption_ok.1 h16
  obtain ⟨_, c7, h18, h19⟩ := M.bind_ok.1 h17
  rw [M.set_apply] at h18
  injection h18 with _ h18
  obtain ⟨_, c8, h20, h21⟩ := M.bind_ok.1 h19
  cases h21
  have h20 := appendBBoth_ok h20
  change c' = if sid = none then addB ((c1.neg.version.get :: 0x02 :: t).take r'.used) _ else _ at h20
  rw [g3] at h20
  refine ⟨_, c6, p, m, temp, hs, ht, by simpa using hp, by simpa using hsl, g1, rfl, by rw [← f5]; exact htemp, ?_⟩
  rw [h20, ← h18, f5]
  rfl

/-! ### GET_MEASUREMENTS -/

/-- L1/L2 before anything is appended, outside sessions or in one. -/
def l1l2Start (c : Ctx) (sid : Option UInt32) : HashCtx := (l1l2? c sid).getD ⟨c.neg.baseHash, if c.cc.ge12 then c.rt.messageA else []⟩

theorem nextM_start (c : Ctx) (sid : Option UInt32) (msg : Bytes) : nextM c sid msg = ⟨(l1l2Start c sid).algo, (l1l2Start c sid).data ++ msg⟩ := by
  unfold nextM l1l2Start
  cases l1l2? c sid <;> rfl

theorem l1l2Of_ok {c : Ctx} {sid : Option UInt32} {x : HashCtx} (h : l1l2Of c sid = .ok x) : l1l2? c sid = some x := by
  cases sid with
  | none => exact Res.ofOption_ok.1 h
  | some i =>
    unfold l1l2Of at h
    unfold l1l2?
    cases hs : c.session? i with
    | none => simp [hs] at h
    | some s => simp only [hs] at h; dsimp only; rw [hs, Option.bind_some]; exact Res.ofOption_ok.1 h

theorem measurementVerify_ok {sid : Option UInt32} {slot : UInt8} {sig : Bytes} {c : Ctx} {u : Unit} (h : measurementVerify e sid slot sig c = .ok u) :
    ∃ x d certs, l1l2? c sid = some x ∧ e.crypto.hash x.algo x.data = some d ∧ CertsOf c slot certs ∧ c.cc.ge12 = true ∧
      e.verify c.neg.baseHash c.neg.baseAsym certs (Spec.signedData .measurements d) sig = true := by
  unfold measurementVerify at h
  obtain ⟨x, h1, h2⟩ := Res.bind_ok.1 h
  obtain ⟨d, h3, h4⟩ := Res.bind_ok.1 h2
  obtain ⟨certs, h5, h6⟩ := Res.bind_ok.1 h4
  obtain ⟨m, h7, h8⟩ := Res.bind_ok.1 h6
  obtain ⟨g1, _, rfl⟩ := Props.C40_only_signed_data c.cc .measurements d m h7
  exact ⟨x, d, certs, l1l2Of_ok h1, Res.ofOption_ok.1 h3, peerCerts_ok h5, g1, verifyWith_ok h8⟩

theorem measurementCheck_ok {sid : Option UInt32} {slot : UInt8} {sig : Bytes} {c c' : Ctx} {u : Unit} (h : measurementCheck e sid slot sig c = .ok u c') :
    c' = Ctx.resetM sid c ∧ measurementVerify e sid slot sig c = .ok () := by
  simp only [measurementCheck, M.bind_apply, M.get_apply] at h
  cases hv : measurementVerify e sid slot sig c with
  | panic => simp [hv] at h
  | err st => simp [hv] at h
  | ok u =>
    simp only [hv, M.modify_apply] at h
    cases h
    exact ⟨rfl, rfl⟩

/-- the context the response to GET_MEASUREMENTS is added to. -/
def measHeard (attr : UInt8) (m : Meas) (c : Ctx) : Ctx := noteChanged m { c with rt := { c.rt with needSig := signatureRequested attr } }

/-- GET_MEASUREMENTS. -/
def measRequest (c : Ctx) (slot attr : UInt8) (op : MeasOperation) (nonce : Bytes) : Bytes :=
  c.neg.version.get :: 0xE0 :: GetMeas.wire c.cc ⟨attr, op, nonce, slot⟩

/-- MEASUREMENTS up to the signature, as received. -/
def measHeardBody (v n p : UInt8) (m : Meas) : Bytes := v :: 0x60 :: ([n] ++ [p] ++ m.record.wire ++ m.nonce ++ opaqueWire m.opaq)

theorem noteChanged_fields (m : Meas) (c : Ctx) : (noteChanged m c).neg = c.neg ∧ (noteChanged m c).cc = c.cc ∧ (noteChanged m c).peer = c.peer ∧
    (noteChanged m c).rt.messageA = c.rt.messageA ∧ (noteChanged m c).rt.l1l2 = c.rt.l1l2 ∧ (noteChanged m c).rt.m1m2 = c.rt.m1m2 ∧
    (noteChanged m c).rt.state = c.rt.state ∧ (noteChanged m c).sent = c.sent ∧ (noteChanged m c).sessions = c.sessions := by
  unfold noteChanged
  split <;> exact ⟨rfl, rfl, rfl, rfl, rfl, rfl, rfl, rfl, rfl⟩

theorem l1l2Start_congr {c c' : Ctx} (sid : Option UInt32) (h1 : c'.neg = c.neg) (h2 : c'.rt.messageA = c.rt.messageA) (h3 : c'.rt.l1l2 = c.rt.l1l2)
    (h4 : c'.sessions = c.sessions) : l1l2Start c' sid = l1l2Start c sid := by
  have : l1l2? c' sid = l1l2? c sid := by
    cases sid with
    | none => exact h3
    | some i => unfold l1l2? Ctx.session?; rw [h4]
  unfold l1l2Start Cc.ge12 Ctx.cc
  rw [this, h1, h2]
  rfl

theorem CertsOf.congr {c c' : Ctx} {slot : UInt8} {certs : Bytes} (h : CertsOf c slot certs) (h1 : c'.peer = c.peer) (h2 : c'.neg = c.neg) :
    CertsOf c' slot certs := by
  unfold CertsOf; rw [h1, h2]; exact h

theorem addM_peer (sid : Option UInt32) (msg : Bytes) (c : Ctx) : (addM sid msg c).peer = c.peer := by cases sid <;> rfl

/-- A successful GET_MEASUREMENTS. -/
theorem getMeasurements_bounds {sid : Option UInt32} {slot attr : UInt8} {op : MeasOperation} {c c' : Ctx} {out : UInt8 × MeasRecord}
    (h : getMeasurements e sid slot attr op c = .ok out c') :
    slot < 8 ∧ ∃ nonce bytes rest c1 n p m, Ctx.random e.toEnv 32 = some nonce ∧
      Said e sid (Ctx.resetBuffers .reqGetMeasurements sid c) (measRequest c slot attr op nonce) bytes c1 ∧
      bytes = measHeardBody c.neg.version.get n p m ++ m.signature ++ rest ∧ Took c.neg bytes (measHeardBody c.neg.version.get n p m ++ m.signature) ∧ out = measurementResult op m ∧
      (m.record.data.length ≤ 4000 ∧ m.nonce.length = 32 ∧ m.opaq.length ≤ 1024) ∧
      (let c3 := addM sid (measHeardBody c.neg.version.get n p m) (addM sid (measRequest c slot attr op nonce) (measHeard attr m c1))
      if signatureRequested attr then
        ∃ d certs, BaseAsym.size? c.neg.baseAsym = some m.signature.length ∧
          e.crypto.hash (l1l2Start c1 sid).algo ((l1l2Start c1 sid).data ++ measRequest c slot attr op nonce ++ measHeardBody c.neg.version.get n p m) = some d ∧
          CertsOf c slot certs ∧ c.cc.ge12 = true ∧
          e.verify c.neg.baseHash c.neg.baseAsym certs (Spec.signedData .measurements d) m.signature = true ∧ c' = Ctx.resetM sid c3
      else m.signature = [] ∧ c' = c3) := by
  unfold getMeasurements at h
  by_cases hsl : slot ≥ 8
  · rw [if_pos hsl] at h; cases h
  rw [if_neg hsl] at h
  refine ⟨by simpa using hsl, ?_⟩
  obtain ⟨_, c0, h0, h1⟩ := M.bind_ok.1 h
  rw [M.modify_apply] at h0
  injection h0 with _ h0
  obtain ⟨nonce, c00, h00, h01⟩ := M.bind_ok.1 h1
  obtain ⟨hn, rfl⟩ := ofOption_ok.1 h00
  obtain ⟨req, c1, h2, h3⟩ := M.bind_ok.1 h01
  obtain ⟨rfl, hreq⟩ := encodeReq_ok (p := .getMeas _) (GetMeas.encode_writes _ _) h2
  have hneg : c1.neg = c.neg := by rw [← h0, resetMeas_fields]
  have hcc : c1.cc = c.cc := by rw [← h0, resetMeas_fields]; rfl
  have hpeer : c1.peer = c.peer := by rw [← h0, resetMeas_fields]
  have hreq : req = measRequest c slot attr op nonce := by rw [hreq, hneg, hcc]; rfl
  obtain ⟨bytes, c2, h4, h5⟩ := M.bind_ok.1 h3
  have hs := transact_ok h4
  obtain ⟨f1, f2, -, -, f5⟩ := hs.fields
  obtain ⟨_, c20, h20, h21⟩ := M.bind_ok.1 h5
  rw [M.modify_apply] at h20
  injection h20 with _ h20
  have g20 : c20.neg = c2.neg := by rw [← h20]
  obtain ⟨r, c3, h9, h10⟩ := M.bind_ok.1 h21
  obtain ⟨rfl, v, t, rfl, hv, rfl⟩ := expect_ok h9
  obtain ⟨⟨m, rsp⟩, c4, h11, h12⟩ := M.bind_ok.1 h10
  obtain ⟨rfl, r', h13, rfl⟩ := readMsg_ok' h11
  obtain ⟨_, c40, h40, h41⟩ := M.bind_ok.1 h12
  rw [M.modify_apply] at h40
  injection h40 with _ h40
  have hmh : c40 = measHeard attr m c2 := by rw [← h40, ← h20]; rfl
  obtain ⟨_, c41, h42, h43⟩ := M.bind_ok.1 h41
  cases h42
  obtain ⟨asym, c5, h14, h15⟩ := M.bind_ok.1 h43
  obtain ⟨hasym, rfl⟩ := unwrap_ok.1 h14
  obtain ⟨body, c6, h16, h17⟩ := M.bind_ok.1 h15
  obtain ⟨hbody, rfl⟩ := liftOk.1 h16
  obtain ⟨_, c7, h18, h19⟩ := M.bind_ok.1 h17
  obtain ⟨rfl, hss⟩ := appendM_ok h18
  obtain ⟨_, c8, h22, h23⟩ := M.bind_ok.1 h19
  obtain ⟨rfl, hss2⟩ := appendM_ok h22
  obtain ⟨_, c9, h24, h25⟩ := M.bind_ok.1 h23
  cases h25
  obtain ⟨g1, n, p, g2⟩ := Meas.read_tail h13
  have hv' := version_byte hv
  have hv' : v = c.neg.version.get := by rw [hv', g20, f1, hneg]
  subst hv'
  obtain ⟨g3, g4⟩ := After.message (v := c.neg.version.get) (k := 0x60) g2
  have hneed : c4.cc.needSig = signatureRequested attr := by rw [← h20]; rfl
  have hn6 : c6.neg = c.neg := by rw [hmh]; unfold measHeard; rw [(noteChanged_fields _ _).1]; show c2.neg = _; rw [f1, hneg]
  have hb : body = measHeardBody c.neg.version.get n p m ∧ (if signatureRequested attr then BaseAsym.size? c.neg.baseAsym = some m.signature.length else m.signature = []) := by
    change measurementBody _ asym ((c.neg.version.get :: 0x60 :: t).take r'.used) = _ at hbody
    rw [g3] at hbody
    unfold measurementBody at hbody
    unfold OptOk at g1
    rw [hneed] at g1
    cases hsg : signatureRequested attr with
    | true =>
      rw [hsg] at hbody g1
      rw [if_pos rfl] at hbody g1
      have g1 : BaseAsym.size? c4.neg.baseAsym = some m.signature.length := g1
      rw [g20, f1, hneg] at g1
      have hl : m.signature.length = asym := by
        have : BaseAsym.size? c6.neg.baseAsym = some asym := hasym
        rw [hn6, g1] at this
        exact Option.some.inj this
      have g5 := dropTail_append (pre := measHeardBody c.neg.version.get n p m) hl
      refine ⟨?_, by rw [if_pos rfl]; exact g1⟩
      rw [← List.cons_append, ← List.cons_append] at hbody
      exact (Res.ok.inj (g5.symm.trans hbody)).symm
    | false =>
      rw [hsg] at hbody g1
      rw [if_neg (by decide)] at hbody g1
      have hbody := Res.ok.inj hbody
      refine ⟨?_, by rw [if_neg (by decide)]; exact g1⟩
      rw [← hbody, g1]; simp [measHeardBody]
  obtain ⟨rfl, hsig⟩ := hb
  subst hreq
  obtain ⟨-, y1, y2, y3, -⟩ := Meas.read_ok h13
  refine ⟨nonce, _, r'.rest, c2, n, p, m, hn, by rw [h0]; exact hs, ?_, ?_, rfl, ⟨y1, y2, y3⟩, ?_⟩
  · rw [g4]; simp [measHeardBody]
    rfl
  · have ht := took_of (f := .meas) (k := 0x60) (neg := c.neg) (fun _ => rfl) (by rw [g20, f1, hneg]) hv h13
    rw [g3] at ht; exact ht
  · subst hmh
    dsimp only
    unfold measurementCheckIf at h24
    cases hsg : signatureRequested attr with
    | false =>
      rw [hsg] at h24 hsig
      rw [if_neg (by decide)] at h24 hsig
      cases h24
      rw [if_neg (by decide)]
      exact ⟨hsig, rfl⟩
    | true =>
      rw [hsg] at h24 hsig
      rw [if_pos rfl] at h24 hsig
      rw [if_pos rfl]
      obtain ⟨rfl, h26⟩ := measurementCheck_ok h24
      obtain ⟨x, d, certs, k1, k2, k3, k4, k5⟩ := measurementVerify_ok h26
      rw [(l1l2_addM hss2).1, nextM_start] at k1
      have k1 := Option.some.inj k1
      obtain ⟨a1, a2, a3, a4, -⟩ := addM_fields sid (measHeardBody c.neg.version.get n p m) (addM sid (measRequest c slot attr op nonce) (measHeard attr m c2))
      obtain ⟨b1, b2, b3, b4, -⟩ := addM_fields sid (measRequest c slot attr op nonce) (measHeard attr m c2)
      have hst : l1l2Start (addM sid (measRequest c slot attr op nonce) (measHeard attr m c2)) sid =
          ⟨(l1l2Start c2 sid).algo, (l1l2Start c2 sid).data ++ measRequest c slot attr op nonce⟩ := by
        have hc : l1l2Start (measHeard attr m c2) sid = l1l2Start c2 sid := by
          obtain ⟨n1, _, _, n4, n5, _, _, _, n9⟩ := noteChanged_fields m { c2 with rt := { c2.rt with needSig := signatureRequested attr } }
          exact l1l2Start_congr sid n1 n4 n5 n9
        conv => lhs; unfold l1l2Start
        rw [(l1l2_addM hss).1, nextM_start, hc]; rfl
      rw [hst] at k1
      subst k1
      have hcc6 : (measHeard attr m c2).cc.ge12 = c.cc.ge12 := by
        unfold Cc.ge12 Ctx.cc; rw [hn6]; rfl
      have hp6 : (measHeard attr m c2).peer = c.peer := by
        unfold measHeard; rw [(noteChanged_fields _ _).2.2.1]; show c2.peer = _; rw [f5, hpeer]
      refine ⟨d, certs, hsig, k2, ?_, ?_, ?_, rfl⟩
      · exact k3.congr (by rw [addM_peer, addM_peer, hp6]) (by rw [a1, b1, hn6])
      · rw [a4, b4, hcc6] at k4; exact k4
      · rw [a1, b1, hn6] at k5; exact k5

theorem getMeasurements_ok {sid : Option UInt32} {slot attr : UInt8} {op : MeasOperation} {c c' : Ctx} {out : UInt8 × MeasRecord}
    (h : getMeasurements e sid slot attr op c = .ok out c') :
    slot < 8 ∧ ∃ nonce bytes rest c1 n p m, Ctx.random e.toEnv 32 = some nonce ∧
      Said e sid (Ctx.resetBuffers .reqGetMeasurements sid c) (measRequest c slot attr op nonce) bytes c1 ∧
      bytes = measHeardBody c.neg.version.get n p m ++ m.signature ++ rest ∧ Took c.neg bytes (measHeardBody c.neg.version.get n p m ++ m.signature) ∧ out = measurementResult op m ∧
      (let c3 := addM sid (measHeardBody c.neg.version.get n p m) (addM sid (measRequest c slot attr op nonce) (measHeard attr m c1))
      if signatureRequested attr then
        ∃ d certs, BaseAsym.size? c.neg.baseAsym = some m.signature.length ∧
          e.crypto.hash (l1l2Start c1 sid).algo ((l1l2Start c1 sid).data ++ measRequest c slot attr op nonce ++ measHeardBody c.neg.version.get n p m) = some d ∧
          CertsOf c slot certs ∧ c.cc.ge12 = true ∧
          e.verify c.neg.baseHash c.neg.baseAsym certs (Spec.signedData .measurements d) m.signature = true ∧ c' = Ctx.resetM sid c3
      else m.signature = [] ∧ c' = c3) := by
  obtain ⟨h0, nonce, bytes, rest, c1, n, p, m, h1, h2, h3, h4, h5, -, h6⟩ := getMeasurements_bounds h
  exact ⟨h0, nonce, bytes, rest, c1, n, p, m, h1, h2, h3, h4, h5, h6⟩

end Req
end Verif
