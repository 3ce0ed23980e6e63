/-
C08, C09: acceptance of capability messages.
-/
import Verif.Props.Layout

namespace Verif.Props
open Verif

/-! ## Specification: capability consistency rules (DSP0274), by bit number

CACHE 0, CERT 1, CHAL 2, MEAS without signature 3, MEAS with signature 4, MEAS_FRESH 5, ENCRYPT 6, MAC 7, MUT_AUTH 8,
KEY_EX 9, PSK 10/11, ENCAP 12, HBEAT 13, KEY_UPD 14, HANDSHAKE_IN_THE_CLEAR 15, PUB_KEY_ID 16, CHUNK 17, ALIAS_CERT 18,
SET_CERT 19, CSR 20, CERT_INSTALL_RESET 21. -/

/-- Rules for a requester's flags, version 1.1 and later. -/
structure ReqConsistent (version : Nat) (b : Nat → Prop) : Prop where
  /-- the second PSK bit is reserved for requesters -/
  pskReserved : ¬ b 11
  /-- a session capability implies message authentication -/
  sessionMac : b 9 ∨ b 10 → b 7
  /-- MAC, ENCRYPT, HANDSHAKE_IN_THE_CLEAR, HBEAT and KEY_UPD need a session capability -/
  needsSession : b 7 ∨ b 6 ∨ b 15 ∨ b 13 ∨ b 14 → b 9 ∨ b 10
  /-- a handshake in the clear needs KEY_EX -/
  clearKeyEx : b 15 → b 9
  /-- certificate and raw public key exclude each other -/
  oneIdentity : ¬ (b 1 ∧ b 16)
  /-- an identity is there to be used -/
  identityUsed : b 1 ∨ b 16 → b 2 ∨ b 9
  /-- challenge and mutual authentication need an identity -/
  needsIdentity : b 2 ∨ b 8 → b 1 ∨ b 16
  /-- in 1.1 mutual authentication needs encapsulated requests -/
  encap : version = 0x11 → b 8 → b 12

/-- Rules for a responder's flags. -/
structure RspConsistent (version : Nat) (b : Nat → Prop) : Prop where
  /-- at most one kind of measurement capability -/
  oneMeas : ¬ (b 3 ∧ b 4)
  /-- fresh measurements need measurements -/
  fresh : b 5 → b 3 ∨ b 4
  /-- 1.0: signed measurements need a certificate, otherwise CERT and CHAL go together -/
  v10 : version < 0x11 → (b 4 → b 1) ∧ (¬ b 4 → (b 1 ↔ b 2))
  /-- one kind of PSK -/
  onePsk : 0x11 ≤ version → ¬ (b 10 ∧ b 11)
  sessionMac : 0x11 ≤ version → b 9 ∨ b 10 ∨ b 11 → b 7
  needsSession : 0x11 ≤ version → b 7 ∨ b 6 ∨ b 15 ∨ b 13 ∨ b 14 → b 9 ∨ b 10 ∨ b 11
  clearKeyEx : 0x11 ≤ version → b 15 → b 9
  oneIdentity : 0x11 ≤ version → ¬ (b 1 ∧ b 16)
  identityUsed : 0x11 ≤ version → b 1 ∨ b 16 → b 2 ∨ b 9 ∨ b 4
  needsIdentity : 0x11 ≤ version → b 2 ∨ b 9 ∨ b 4 ∨ b 8 → b 1 ∨ b 16
  encap : version = 0x11 → b 8 → b 12
  /-- 1.2: alias and settable certificates need CERT; CSR needs SET_CERT; install-reset needs one of them -/
  certs : 0x12 ≤ version → (b 18 ∨ b 19 → b 1) ∧ (b 20 → b 19) ∧ (b 21 → b 20 ∨ b 19)

/-- Bit `i` of the flags. -/
def bitOf (f : UInt32) (i : Nat) : Prop := f.toNat.testBit i = true

/-- Outcome of a decoder: the value, or a refusal. -/
def Refused {α : Type} (o : Out Unit Reader α) : Prop := ∃ r, o = .err () r

/-! ## Connection with the model -/

private theorem hb (f b : UInt32) (i : Nat) (h : b.toNat = 2 ^ i) : Cap.has f b = true ↔ bitOf f i := by
  rw [Spec.has_bit f b i h]; rfl

theorem cap_bits (f : UInt32) :
    (Cap.has f Cap.cert = true ↔ bitOf f 1) ∧ (Cap.has f Cap.chal = true ↔ bitOf f 2) ∧
    (Cap.has f Cap.measNoSig = true ↔ bitOf f 3) ∧ (Cap.has f Cap.measSig = true ↔ bitOf f 4) ∧
    (Cap.has f Cap.measFresh = true ↔ bitOf f 5) ∧ (Cap.has f Cap.encrypt = true ↔ bitOf f 6) ∧
    (Cap.has f Cap.mac = true ↔ bitOf f 7) ∧ (Cap.has f Cap.mutAuth = true ↔ bitOf f 8) ∧
    (Cap.has f Cap.keyEx = true ↔ bitOf f 9) ∧ (Cap.has f Cap.psk = true ↔ bitOf f 10) ∧
    (Cap.has f Cap.pskNoCtx = true ↔ bitOf f 10) ∧ (Cap.has f Cap.pskRsvd = true ↔ bitOf f 11) ∧
    (Cap.has f Cap.pskCtx = true ↔ bitOf f 11) ∧ (Cap.has f Cap.encap = true ↔ bitOf f 12) ∧
    (Cap.has f Cap.hbeat = true ↔ bitOf f 13) ∧ (Cap.has f Cap.keyUpd = true ↔ bitOf f 14) ∧
    (Cap.has f Cap.inClear = true ↔ bitOf f 15) ∧ (Cap.has f Cap.pubKeyId = true ↔ bitOf f 16) ∧
    (Cap.has f Cap.aliasCert = true ↔ bitOf f 18) ∧ (Cap.has f Cap.setCert = true ↔ bitOf f 19) ∧
    (Cap.has f Cap.csr = true ↔ bitOf f 20) ∧ (Cap.has f Cap.installReset = true ↔ bitOf f 21) := by
  refine ⟨?_, ?_, ?_, ?_, ?_, ?_, ?_, ?_, ?_, ?_, ?_, ?_, ?_, ?_, ?_, ?_, ?_, ?_, ?_, ?_, ?_, ?_⟩ <;> exact hb _ _ _ rfl

theorem reqRefused_iff (v : UInt8) (f : UInt32) :
    reqFlagsRefused v f = false ↔ ReqConsistent v.toNat (bitOf f) := by
  have H := cap_bits f
  have hv : (v == 0x11) = true ↔ v.toNat = 0x11 := by
    rw [beq_iff_eq, ← UInt8.toNat_inj]; rfl
  obtain ⟨h1, h2, -, -, -, h6, h7, h8, h9, h10, -, h11, -, h12, h13, h14, h15, h16, -, -, -, -⟩ := H
  have e : ReqConsistent v.toNat (bitOf f) ↔
      ¬ bitOf f 11 ∧ (bitOf f 9 ∨ bitOf f 10 → bitOf f 7) ∧
      (bitOf f 7 ∨ bitOf f 6 ∨ bitOf f 15 ∨ bitOf f 13 ∨ bitOf f 14 → bitOf f 9 ∨ bitOf f 10) ∧ (bitOf f 15 → bitOf f 9) ∧
      ¬ (bitOf f 1 ∧ bitOf f 16) ∧ (bitOf f 1 ∨ bitOf f 16 → bitOf f 2 ∨ bitOf f 9) ∧
      (bitOf f 2 ∨ bitOf f 8 → bitOf f 1 ∨ bitOf f 16) ∧ (v.toNat = 0x11 → bitOf f 8 → bitOf f 12) :=
    ⟨fun ⟨a, b, c, d, e, f, g, h⟩ => ⟨a, b, c, d, e, f, g, h⟩, fun ⟨a, b, c, d, e, f, g, h⟩ => ⟨a, b, c, d, e, f, g, h⟩⟩
  rw [e, ← h1, ← h2, ← h6, ← h7, ← h8, ← h9, ← h10, ← h11, ← h12, ← h13, ← h14, ← h15, ← h16, ← hv]
  unfold reqFlagsRefused
  generalize Cap.has f Cap.cert = b1
  generalize Cap.has f Cap.chal = b2
  generalize Cap.has f Cap.encrypt = b6
  generalize Cap.has f Cap.mac = b7
  generalize Cap.has f Cap.mutAuth = b8
  generalize Cap.has f Cap.keyEx = b9
  generalize Cap.has f Cap.psk = b10
  generalize Cap.has f Cap.pskRsvd = b11
  generalize Cap.has f Cap.encap = b12
  generalize Cap.has f Cap.hbeat = b13
  generalize Cap.has f Cap.keyUpd = b14
  generalize Cap.has f Cap.inClear = b15
  generalize Cap.has f Cap.pubKeyId = b16
  generalize (v == 0x11) = bv
  cases b11
  · cases b9 <;> cases b10 <;> cases b7 <;> cases b15 <;> cases b1 <;> cases b16 <;> simp <;> grind
  · simp

theorem rspRefused_iff (v : UInt8) (f : UInt32) :
    rspFlagsRefused v f = false ↔ RspConsistent v.toNat (bitOf f) := by
  have H := cap_bits f
  obtain ⟨h1, h2, h3, h4, h5, h6, h7, h8, h9, -, h10, -, h11, h12, h13, h14, h15, h16, h18, h19, h20, h21⟩ := H
  have e : RspConsistent v.toNat (bitOf f) ↔
      ¬ (bitOf f 3 ∧ bitOf f 4) ∧ (bitOf f 5 → bitOf f 3 ∨ bitOf f 4) ∧
      (v.toNat < 0x11 → (bitOf f 4 → bitOf f 1) ∧ (¬ bitOf f 4 → (bitOf f 1 ↔ bitOf f 2))) ∧
      (0x11 ≤ v.toNat → ¬ (bitOf f 10 ∧ bitOf f 11)) ∧ (0x11 ≤ v.toNat → bitOf f 9 ∨ bitOf f 10 ∨ bitOf f 11 → bitOf f 7) ∧
      (0x11 ≤ v.toNat → bitOf f 7 ∨ bitOf f 6 ∨ bitOf f 15 ∨ bitOf f 13 ∨ bitOf f 14 → bitOf f 9 ∨ bitOf f 10 ∨ bitOf f 11) ∧
      (0x11 ≤ v.toNat → bitOf f 15 → bitOf f 9) ∧ (0x11 ≤ v.toNat → ¬ (bitOf f 1 ∧ bitOf f 16)) ∧
      (0x11 ≤ v.toNat → bitOf f 1 ∨ bitOf f 16 → bitOf f 2 ∨ bitOf f 9 ∨ bitOf f 4) ∧
      (0x11 ≤ v.toNat → bitOf f 2 ∨ bitOf f 9 ∨ bitOf f 4 ∨ bitOf f 8 → bitOf f 1 ∨ bitOf f 16) ∧
      (v.toNat = 0x11 → bitOf f 8 → bitOf f 12) ∧
      (0x12 ≤ v.toNat → (bitOf f 18 ∨ bitOf f 19 → bitOf f 1) ∧ (bitOf f 20 → bitOf f 19) ∧ (bitOf f 21 → bitOf f 20 ∨ bitOf f 19)) :=
    ⟨fun ⟨a, b, c, d, e, f, g, h, i, j, k, l⟩ => ⟨a, b, c, d, e, f, g, h, i, j, k, l⟩,
     fun ⟨a, b, c, d, e, f, g, h, i, j, k, l⟩ => ⟨a, b, c, d, e, f, g, h, i, j, k, l⟩⟩
  rw [e, ← h1, ← h2, ← h3, ← h4, ← h5, ← h6, ← h7, ← h8, ← h9, ← h10, ← h11, ← h12, ← h13, ← h14, ← h15, ← h16, ← h18, ← h19, ← h20, ← h21]
  unfold rspFlagsRefused
  generalize Cap.has f Cap.cert = b1
  generalize Cap.has f Cap.chal = b2
  generalize Cap.has f Cap.measNoSig = b3
  generalize Cap.has f Cap.measSig = b4
  generalize Cap.has f Cap.measFresh = b5
  generalize Cap.has f Cap.encrypt = b6
  generalize Cap.has f Cap.mac = b7
  generalize Cap.has f Cap.mutAuth = b8
  generalize Cap.has f Cap.keyEx = b9
  generalize Cap.has f Cap.pskNoCtx = b10
  generalize Cap.has f Cap.pskCtx = b11
  generalize Cap.has f Cap.encap = b12
  generalize Cap.has f Cap.hbeat = b13
  generalize Cap.has f Cap.keyUpd = b14
  generalize Cap.has f Cap.inClear = b15
  generalize Cap.has f Cap.pubKeyId = b16
  generalize Cap.has f Cap.aliasCert = b18
  generalize Cap.has f Cap.setCert = b19
  generalize Cap.has f Cap.csr = b20
  generalize Cap.has f Cap.installReset = b21
  have c1 : (v < 0x11) = (v.toNat < 17) := by simp [UInt8.lt_iff_toNat_lt]
  have c2 : (v == 0x11) = decide (v.toNat = 17) := by
    rw [Bool.eq_iff_iff, beq_iff_eq, decide_eq_true_eq, ← UInt8.toNat_inj]; rfl
  have c3 : (v ≥ 0x12) = (18 ≤ v.toNat) := by simp [UInt8.le_iff_toNat_le]
  simp only [c1, c2, c3]
  generalize v.toNat = n
  rcases Nat.lt_trichotomy n 17 with hn | hn | hn
  · have g1 : ¬ n = 17 := by omega
    have g2 : ¬ 18 ≤ n := by omega
    have g3 : ¬ 17 ≤ n := by omega
    simp only [hn, g1, g2, g3, if_true, if_false, decide_false]
    cases b1 <;> cases b2 <;> cases b3 <;> cases b4 <;> cases b5 <;> simp
  · subst hn
    simp only [Nat.lt_irrefl, Nat.le_refl, if_false, decide_true, show ¬ 18 ≤ 17 by decide, true_implies, false_implies, and_true, true_and]
    cases b1 <;> cases b16 <;> cases b9 <;> cases b4 <;> cases b7 <;> cases b10 <;> cases b11 <;> simp <;> grind
  · have g1 : ¬ n = 17 := by omega
    have g2 : 18 ≤ n := by omega
    have g3 : 17 ≤ n := by omega
    have g4 : ¬ n < 17 := by omega
    simp only [g1, g2, g3, g4, if_true, if_false, decide_false]
    cases b1 <;> cases b16 <;> cases b9 <;> cases b4 <;> cases b7 <;> cases b10 <;> cases b11 <;> simp <;> grind

/-! ## C08 -/

private theorem size_iff (dts mms : UInt32) : (dts < 42 ∨ mms < dts) ↔ ¬ (42 ≤ dts.toNat ∧ dts.toNat ≤ mms.toNat) := by
  simp only [UInt32.lt_iff_toNat_lt]
  have : (42 : UInt32).toNat = 42 := rfl
  omega

/-- Reserved flag bits of a requester are ignored. -/
def reqKnown (flags : UInt32) : UInt32 := flags &&& 0x3FFC6
/-- Reserved flag bits of a responder are ignored. -/
def rspKnown (flags : UInt32) : UInt32 := flags &&& 0x3FFFFF

/-- **C08** (1.2 and later): a GET_CAPABILITIES body of full length is accepted exactly when its flags are consistent
and 42 ≤ DataTransferSize ≤ MaxSPDMmsgSize; what is accepted carries the received values, and the bytes after it are
untouched. -/
theorem C08_get_capabilities_v12 (c : Cc) (hv : 0x12 ≤ c.neg.version.get.toNat) (p1 p2 x ct : UInt8) (y : UInt16)
    (flags dts mms : UInt32) (rest : Bytes) :
    let o := rdGetCaps c (Reader.init ([p1, p2, x, ct] ++ putU16 y ++ putU32 flags ++ putU32 dts ++ putU32 mms ++ rest))
    let good := ReqConsistent c.neg.version.get.toNat (bitOf (reqKnown flags)) ∧ 42 ≤ dts.toNat ∧ dts.toNat ≤ mms.toNat
    (good → o = .ok ⟨ct, reqKnown flags, dts, mms⟩ ⟨rest, 18⟩) ∧ (¬ good → Refused o) := by
  have g2 : c.ge12 = true := (Spec.ge12_iff c).mp hv
  have g1 := Cc.ge11_of_ge12 g2
  intro o good
  have hr : reqFlagsRefused c.ver (flags &&& Cap.reqMask) = false ↔ ReqConsistent c.neg.version.get.toNat (bitOf (reqKnown flags)) :=
    reqRefused_iff _ _
  have hs := size_iff dts mms
  constructor
  · rintro ⟨a, b⟩
    have ha := hr.mpr a
    have hb : ¬ (dts < 42 ∨ mms < dts) := by rw [hs]; exact fun h => h b
    simp [o, rdGetCaps, Reader.init, g1, g2, Cap.readReq, ha, hb, show reqKnown flags = flags &&& Cap.reqMask from rfl]
  · intro hg
    by_cases ha : reqFlagsRefused c.ver (flags &&& Cap.reqMask) = false
    · have hb : dts < 42 ∨ mms < dts := by rw [hs]; exact fun h => hg ⟨hr.mp ha, h⟩
      simp [Refused, o, rdGetCaps, Reader.init, g1, g2, Cap.readReq, ha, hb, Rd.none]
    · have ha : reqFlagsRefused c.ver (flags &&& Cap.reqMask) = true := by simpa using ha
      simp [Refused, o, rdGetCaps, Reader.init, g1, Cap.readReq, ha, Rd.none]

/-- **C08** (1.1). -/
theorem C08_get_capabilities_v11 (c : Cc) (hv : c.neg.version.get.toNat = 0x11) (p1 p2 x ct : UInt8) (y : UInt16)
    (flags : UInt32) (rest : Bytes) :
    let o := rdGetCaps c (Reader.init ([p1, p2, x, ct] ++ putU16 y ++ putU32 flags ++ rest))
    let good := ReqConsistent 0x11 (bitOf (reqKnown flags))
    (good → o = .ok ⟨ct, reqKnown flags, 0, 0⟩ ⟨rest, 10⟩) ∧ (¬ good → Refused o) := by
  have g1 : c.ge11 = true := (Spec.ge11_iff c).mp (by simp [Spec.atLeast11, hv])
  have g2 : ¬ c.ge12 = true := fun h => by have := (Spec.ge12_iff c).mpr h; simp [Spec.atLeast12, hv] at this
  intro o good
  have hr : reqFlagsRefused c.ver (flags &&& Cap.reqMask) = false ↔ good := by
    have := reqRefused_iff c.ver (flags &&& Cap.reqMask)
    rw [show c.ver.toNat = 0x11 from hv] at this
    exact this
  constructor
  · intro a
    have ha := hr.mpr a
    simp [o, rdGetCaps, Reader.init, g1, g2, Cap.readReq, ha, show reqKnown flags = flags &&& Cap.reqMask from rfl]
  · intro hg
    have ha : reqFlagsRefused c.ver (flags &&& Cap.reqMask) = true := by
      have := fun h => hg (hr.mp h); simpa using this
    simp [Refused, o, rdGetCaps, Reader.init, g1, Cap.readReq, ha, Rd.none]

/-- **C08**: a body shorter than the version requires (18 bytes from 1.2, 10 in 1.1, 2 before) is refused. -/
theorem C08_get_capabilities_short (c : Cc) (bs : Bytes)
    (h : bs.length < if 0x12 ≤ c.neg.version.get.toNat then 18 else if c.neg.version.get.toNat = 0x11 then 10 else 2) :
    Refused (rdGetCaps c (Reader.init bs)) := by
  rcases rdGetCaps_good c (Reader.init bs) with ⟨a, d, r', e, h1, h2⟩ | ⟨d, r', e, _⟩
  · exfalso
    simp only [rdGetCaps, Rd.none, Cap.readReq, M.bind_ok, rdU8_ok] at e
    obtain ⟨_, t1, e1, _, t2, e2, q, t3, e3, e4⟩ := e
    have l2 := (e1.trans e2).1
    simp [Reader.init] at l2
    by_cases g1 : c.ge11 = true
    · simp only [g1, if_true, M.bind_ok, rdU8_ok, rdU16_ok, rdU32_ok, M.guard_ok, M.pure_ok] at e3
      obtain ⟨_, u1, f1, _, u2, f2, _, u3, f3, _, u4, ⟨_, u5, f4, _, rfl⟩, _, _, rfl⟩ := e3
      have l3 := ((((e1.trans e2).trans f1).trans f2).trans f3).trans f4
      have l3' := congrArg List.length l3.1
      simp [Reader.init, putU16, putU32] at l3'
      by_cases g2 : c.ge12 = true
      · simp only [g2, if_true, M.bind_ok, rdU32_ok, M.guard_ok, M.pure_ok] at e4
        obtain ⟨_, w1, k1, _, w2, k2, _, _, rfl⟩ := e4
        have l4 := congrArg List.length ((l3.trans k1).trans k2).1
        simp [Reader.init, putU16, putU32] at l4
        split at h <;> (try split at h) <;> omega
      · have : ¬ 0x12 ≤ c.neg.version.get.toNat := fun h => g2 ((Spec.ge12_iff c).mp h)
        simp only [this, if_false] at h
        split at h <;> omega
    · have : ¬ 0x11 ≤ c.neg.version.get.toNat := fun h => g1 ((Spec.ge11_iff c).mp h)
      have l2' := congrArg List.length l2
      simp at l2'
      split at h
      · omega
      · split at h <;> omega
  · exact ⟨r', e⟩

/-! ## C09 -/

/-- **C09** (1.2 and later). -/
theorem C09_capabilities_v12 (c : Cc) (hv : 0x12 ≤ c.neg.version.get.toNat) (p1 p2 x ct : UInt8) (y : UInt16)
    (flags dts mms : UInt32) (rest : Bytes) :
    let o := rdCaps c (Reader.init ([p1, p2, x, ct] ++ putU16 y ++ putU32 flags ++ putU32 dts ++ putU32 mms ++ rest))
    let good := RspConsistent c.neg.version.get.toNat (bitOf (rspKnown flags)) ∧ 42 ≤ dts.toNat ∧ dts.toNat ≤ mms.toNat
    (good → o = .ok ⟨ct, rspKnown flags, dts, mms⟩ ⟨rest, 18⟩) ∧ (¬ good → Refused o) := by
  have g2 : c.ge12 = true := (Spec.ge12_iff c).mp hv
  intro o good
  have hr : rspFlagsRefused c.ver (flags &&& Cap.rspMask) = false ↔ RspConsistent c.neg.version.get.toNat (bitOf (rspKnown flags)) :=
    rspRefused_iff _ _
  have hs := size_iff dts mms
  constructor
  · rintro ⟨a, b⟩
    have ha := hr.mpr a
    have hb : ¬ (dts < 42 ∨ mms < dts) := by rw [hs]; exact fun h => h b
    simp [o, rdCaps, Reader.init, g2, Cap.readRsp, ha, hb, show rspKnown flags = flags &&& Cap.rspMask from rfl]
  · intro hg
    by_cases ha : rspFlagsRefused c.ver (flags &&& Cap.rspMask) = false
    · have hb : dts < 42 ∨ mms < dts := by rw [hs]; exact fun h => hg ⟨hr.mp ha, h⟩
      simp [Refused, o, rdCaps, Reader.init, g2, Cap.readRsp, ha, hb, Rd.none]
    · have ha : rspFlagsRefused c.ver (flags &&& Cap.rspMask) = true := by simpa using ha
      simp [Refused, o, rdCaps, Reader.init, Cap.readRsp, ha, Rd.none]

/-- **C09** (1.0 and 1.1). -/
theorem C09_capabilities_before_v12 (c : Cc) (hv : c.neg.version.get.toNat < 0x12) (p1 p2 x ct : UInt8) (y : UInt16)
    (flags : UInt32) (rest : Bytes) :
    let o := rdCaps c (Reader.init ([p1, p2, x, ct] ++ putU16 y ++ putU32 flags ++ rest))
    let good := RspConsistent c.neg.version.get.toNat (bitOf (rspKnown flags))
    (good → o = .ok ⟨ct, rspKnown flags, 0, 0⟩ ⟨rest, 10⟩) ∧ (¬ good → Refused o) := by
  have g2 : ¬ c.ge12 = true := fun h => by have := (Spec.ge12_iff c).mpr h; simp only [Spec.atLeast12] at this; omega
  intro o good
  have hr : rspFlagsRefused c.ver (flags &&& Cap.rspMask) = false ↔ good := rspRefused_iff _ _
  constructor
  · intro a
    have ha := hr.mpr a
    simp [o, rdCaps, Reader.init, g2, Cap.readRsp, ha, show rspKnown flags = flags &&& Cap.rspMask from rfl]
  · intro hg
    have ha : rspFlagsRefused c.ver (flags &&& Cap.rspMask) = true := by
      have := fun h => hg (hr.mp h); simpa using this
    simp [Refused, o, rdCaps, Reader.init, Cap.readRsp, ha, Rd.none]

/-- **C09**: a body shorter than the version requires (18 bytes from 1.2, 10 before) is refused. -/
theorem C09_capabilities_short (c : Cc) (bs : Bytes)
    (h : bs.length < if 0x12 ≤ c.neg.version.get.toNat then 18 else 10) : Refused (rdCaps c (Reader.init bs)) := by
  rcases rdCaps_good c (Reader.init bs) with ⟨a, d, r', e, h1, h2⟩ | ⟨d, r', e, _⟩
  · exfalso
    simp only [rdCaps, Rd.none, Cap.readRsp, M.bind_ok, rdU8_ok, rdU16_ok, rdU32_ok, M.pure_ok, M.guard_ok] at e
    obtain ⟨_, t1, e1, _, t2, e2, _, t3, e3, _, t4, e4, _, t5, e5, _, t6, ⟨_, t7, e7, _, rfl⟩, _, e8⟩ := e
    have l := ((((e1.trans e2).trans e3).trans e4).trans e5).trans e7
    have l' := congrArg List.length l.1
    simp [Reader.init, putU16, putU32] at l'
    by_cases g2 : c.ge12 = true
    · simp only [g2, if_true, M.bind_ok, rdU32_ok, M.guard_ok, M.pure_ok] at e8
      obtain ⟨_, w1, k1, _, w2, k2, _, _, rfl⟩ := e8
      have l4 := congrArg List.length ((l.trans k1).trans k2).1
      simp [Reader.init, putU16, putU32] at l4
      split at h <;> omega
    · have : ¬ 0x12 ≤ c.neg.version.get.toNat := fun h => g2 ((Spec.ge12_iff c).mp h)
      simp only [this, if_false] at h
      omega
  · exact ⟨r', e⟩

/-- Flags of a typical requester (CERT, CHAL, ENCRYPT, MAC, KEY_EX, HBEAT, KEY_UPD) are consistent, and dropping MAC from
them is not. -/
example : reqFlagsRefused 0x12 0x62C6 = false ∧ reqFlagsRefused 0x12 0x6246 = true := by decide
example : ReqConsistent 0x12 (bitOf 0x62C6) ∧ ¬ ReqConsistent 0x12 (bitOf 0x6246) :=
  ⟨(reqRefused_iff 0x12 _).mp (by decide), fun h => absurd ((reqRefused_iff 0x12 _).mpr h) (by decide)⟩
example : RspConsistent 0x12 (bitOf 0x62F6) ∧ ¬ RspConsistent 0x12 (bitOf 0x62FE) :=
  ⟨(rspRefused_iff 0x12 _).mp (by decide), fun h => absurd ((rspRefused_iff 0x12 _).mpr h) (by decide)⟩

end Verif.Props
