/-
Negotiation messages: GET_VERSION/VERSION, GET_CAPABILITIES/CAPABILITIES, NEGOTIATE_ALGORITHMS/ALGORITHMS
(spdmlib/src/message/version.rs, capability.rs, algorithm.rs).
-/
import Verif.Msg.Parts

namespace Verif

/-! ### A payload consisting of two ignored parameter bytes

GET_VERSION (message/version.rs:14-35), GET_DIGESTS (message/digest.rs), HEARTBEAT, HEARTBEAT_ACK (message/heartbeat.rs),
END_SESSION_ACK (message/end_session.rs), PSK_FINISH_RSP (message/psk_finish.rs). -/

/-- Two zero parameter bytes are written; the returned count is the constant 2. -/
def encNoParams : Enc Nat := do
  let _ ← encU8 0
  let _ ← encU8 0
  pure 2
/-- Two parameter bytes are read and ignored. -/
def rdNoParams : Rd Unit := do
  let _ ← rdU8
  let _ ← rdU8
  pure ()

theorem encNoParams_writes : Writes encNoParams [0, 0] :=
  Writes.then (Writes.push 0) (Writes.then (Writes.push 0) (Writes.pure_tail 2))

theorem rdNoParams_rt (a b : UInt8) : RT rdNoParams [a, b] () := by intro t u; simp [rdNoParams]
theorem rdNoParams_good : Rd.Good rdNoParams := by unfold rdNoParams; rd_good

/-! ### VERSION -/

/-- `SpdmVersionStruct` (message/version.rs:37-41). -/
structure VersionEntry where
  update : UInt8
  version : SpdmVersion
  deriving Repr, DecidableEq

/-- `SpdmVersionStruct::encode` (message/version.rs:44-49). -/
def VersionEntry.encode (v : VersionEntry) : Enc Nat := Enc.seq [encU8 v.update, v.version.encode]
/-- `SpdmVersionStruct::read` (message/version.rs:50-54). -/
def VersionEntry.read : Rd VersionEntry := do
  let update ← rdU8
  let version ← SpdmVersion.read
  pure ⟨update, version⟩
/-- Wire image: update/alpha byte, version byte. -/
def VersionEntry.wire (v : VersionEntry) : Bytes := [v.update, v.version.get]

/-- `SpdmVersionResponsePayload` (message/version.rs:57-61): the first `version_number_entry_count` entries. -/
structure VersionRsp where
  entries : List VersionEntry
  deriving Repr, DecidableEq

/-- `SpdmVersionResponsePayload::spdm_encode` (message/version.rs:63-88), count at most 3. -/
def VersionRsp.encode (m : VersionRsp) : Enc Nat :=
  Enc.seq [encU8 0, encU8 0, encU8 0, encU8 m.entries.length.toUInt8, encN VersionEntry.encode m.entries]
/-- `SpdmVersionResponsePayload::spdm_read` (message/version.rs:90-121). -/
def VersionRsp.read : Rd VersionRsp := do
  let _ ← rdU8
  let _ ← rdU8
  let _ ← rdU8
  let n ← rdU8
  if n < 1 ∨ n > 3 then Rd.none else do
  let es ← rdN n.toNat VersionEntry.read
  pure ⟨es⟩
/-- Wire image: two parameters, reserved, entry count, entries. -/
def VersionRsp.wire (m : VersionRsp) : Bytes := [0, 0, 0, m.entries.length.toUInt8] ++ m.entries.flatMap VersionEntry.wire
/-- One to three entries. -/
def VersionRsp.WF (m : VersionRsp) : Prop := 1 ≤ m.entries.length ∧ m.entries.length ≤ 3 ∧ ∀ e ∈ m.entries, e.version.WF

theorem VersionRsp.encode_writes (m : VersionRsp) : Writes m.encode m.wire := by
  have h : Writes (encN VersionEntry.encode m.entries) (m.entries.flatMap VersionEntry.wire) :=
    Writes.repeat _ fun e _ => by
      have := SpdmVersion.writes e.version
      unfold VersionEntry.encode
      apply Writes.cast
      · wr
      simp [VersionEntry.wire]
  unfold VersionRsp.encode
  apply Writes.cast
  · wr
  simp [VersionRsp.wire]

theorem VersionRsp.read_rt {m : VersionRsp} (h : m.WF) : RT VersionRsp.read m.wire m := by
  obtain ⟨h1, h2, h3⟩ := h
  have hl : m.entries.length.toUInt8.toNat = m.entries.length := by simp; omega
  have hr : RT (rdN m.entries.length VersionEntry.read) (m.entries.flatMap VersionEntry.wire) m.entries := by
    refine RT.repeat _ fun e he => ?_
    intro t u
    have := h3 e he
    simp only [SpdmVersion.WF] at this
    simp [VersionEntry.read, VersionEntry.wire, this]
  unfold VersionRsp.read VersionRsp.wire
  refine RT.bind' (w1 := [0]) rfl (RT.u8 _) (RT.bind' (w1 := [0]) rfl (RT.u8 _) (RT.bind' (w1 := [0]) rfl (RT.u8 _)
    (RT.bind' (w1 := [m.entries.length.toUInt8]) rfl (RT.u8 _) (RT.guard ?_ ?_))))
  · simp only [UInt8.lt_iff_toNat_lt, gt_iff_lt, hl]
    have : (1 : UInt8).toNat = 1 := rfl
    have : (3 : UInt8).toNat = 3 := rfl
    omega
  · rw [hl]
    exact RT.bind' (List.append_nil _).symm hr (RT.pure _)

theorem VersionEntry.read_good : Rd.Good VersionEntry.read := by
  have := SpdmVersion.good
  unfold VersionEntry.read; rd_good
theorem VersionRsp.read_good : Rd.Good VersionRsp.read := by
  have := fun n => Rd.Good.repeat VersionEntry.read_good n
  unfold VersionRsp.read
  refine Rd.Good.bind Rd.Good.u8 fun _ => Rd.Good.bind Rd.Good.u8 fun _ => Rd.Good.bind Rd.Good.u8 fun _ =>
    Rd.Good.bind Rd.Good.u8 fun n => Rd.Good.ite Rd.Good.none (Rd.Good.bind (this _) fun _ => Rd.Good.pure _)

theorem VersionRsp.read_bounds {r r' : Reader} {m : VersionRsp} (h : VersionRsp.read r = .ok m r') :
    1 ≤ m.entries.length ∧ m.entries.length ≤ 3 ∧ ∀ e ∈ m.entries, e.version.WF := by
  simp only [VersionRsp.read, Rd.none, M.bind_ok, M.guard_ok, M.pure_ok] at h
  obtain ⟨_, _, _, _, _, _, _, _, _, n, _, _, hn, es, _, hes, rfl, rfl⟩ := h
  have hl := rdN_length hes
  simp only [UInt8.lt_iff_toNat_lt, gt_iff_lt] at hn
  have : (1 : UInt8).toNat = 1 := rfl
  have : (3 : UInt8).toNat = 3 := rfl
  refine ⟨by simp; omega, by simp; omega, ?_⟩
  refine rdN_forall (P := fun e => e.version.WF) ?_ hes
  intro r a r' h
  simp only [VersionEntry.read, M.bind_ok, M.pure_ok] at h
  obtain ⟨_, _, _, v, _, hv, rfl, _⟩ := h
  exact (SpdmVersion.read_ok.mp hv).1

/-! ### GET_CAPABILITIES -/

/-- `SpdmGetCapabilitiesRequestPayload` (message/capability.rs:11-18) and `SpdmCapabilitiesResponsePayload`
(message/capability.rs:145-151). -/
structure Caps where
  ct : UInt8
  flags : UInt32
  dts : UInt32
  mms : UInt32
  deriving Repr, DecidableEq

/-- `SpdmGetCapabilitiesRequestPayload::spdm_encode` (message/capability.rs:20-56). -/
def encGetCaps (c : Cc) (m : Caps) : Enc Nat :=
  Enc.seq [encU8 0, encU8 0,
    if c.ge11 = true then Enc.seq [encU8 0, encU8 m.ct, encU16 0, encU32 m.flags] else pure 0,
    if c.ge12 = true then Enc.seq [encU32 m.dts, encU32 m.mms] else pure 0]

/-- The flag checks of `SpdmGetCapabilitiesRequestPayload::spdm_read` (message/capability.rs:72-121); `true` is
`return None`. -/
def reqFlagsRefused (ver : UInt8) (f : UInt32) : Bool :=
  if Cap.has f Cap.pskRsvd then true else
  if (if Cap.has f Cap.keyEx || Cap.has f Cap.psk then !Cap.has f Cap.mac
      else Cap.has f Cap.mac || Cap.has f Cap.encrypt || Cap.has f Cap.inClear || Cap.has f Cap.hbeat || Cap.has f Cap.keyUpd)
    then true else
  if !Cap.has f Cap.keyEx && Cap.has f Cap.psk && Cap.has f Cap.inClear then true else
  if (if Cap.has f Cap.cert || Cap.has f Cap.pubKeyId then
        (Cap.has f Cap.cert && Cap.has f Cap.pubKeyId) || (!Cap.has f Cap.chal && !Cap.has f Cap.keyEx)
      else Cap.has f Cap.chal || Cap.has f Cap.mutAuth) then true else
  ver == 0x11 && Cap.has f Cap.mutAuth && !Cap.has f Cap.encap

/-- `SpdmGetCapabilitiesRequestPayload::spdm_read` (message/capability.rs:58-143). -/
def rdGetCaps (c : Cc) : Rd Caps := do
  let _ ← rdU8
  let _ ← rdU8
  let (ct, flags) ← (if c.ge11 = true then do
      let _ ← rdU8
      let ct ← rdU8
      let _ ← rdU16
      let flags ← Cap.readReq
      if reqFlagsRefused c.ver flags = true then Rd.none else pure (ct, flags)
    else pure (0, 0))
  if c.ge12 = true then do
    let dts ← rdU32
    let mms ← rdU32
    if dts < 42 ∨ mms < dts then Rd.none else pure ⟨ct, flags, dts, mms⟩
  else pure ⟨ct, flags, 0, 0⟩

/-- Wire image of GET_CAPABILITIES: parameters; from 1.1 reserved, CTExponent, reserved, flags; from 1.2 the two sizes. -/
def getCapsWire (c : Cc) (m : Caps) : Bytes :=
  [0, 0] ++ (if c.ge11 = true then [0, m.ct] ++ putU16 0 ++ putU32 m.flags else []) ++
  (if c.ge12 = true then putU32 m.dts ++ putU32 m.mms else [])

/-- A request the decoder accepts unchanged: defined flags, not refused, consistent sizes; fields absent from the
negotiated version are zero. -/
def GetCapsWF (c : Cc) (m : Caps) : Prop :=
  (if c.ge11 = true then m.flags &&& Cap.reqMask = m.flags ∧ reqFlagsRefused c.ver m.flags = false
   else m.ct = 0 ∧ m.flags = 0) ∧
  (if c.ge12 = true then 42 ≤ m.dts.toNat ∧ m.dts.toNat ≤ m.mms.toNat else m.dts = 0 ∧ m.mms = 0)

theorem encGetCaps_writes (c : Cc) (m : Caps) : Writes (encGetCaps c m) (getCapsWire c m) := by
  unfold encGetCaps
  apply Writes.cast
  · wr
  simp [getCapsWire]

theorem rdGetCaps_rt {c : Cc} {m : Caps} (h : GetCapsWF c m) : RT (rdGetCaps c) (getCapsWire c m) m := by
  obtain ⟨ct, flags, dts, mms⟩ := m
  obtain ⟨h1, h2⟩ := h
  intro t u
  by_cases g1 : c.ge11 = true <;> by_cases g2 : c.ge12 = true
  · simp only [g1, g2, if_true] at h1 h2
    have h3 : ¬ (dts < 42 ∨ mms < dts) := by
      simp only [UInt32.lt_iff_toNat_lt]
      have : (42 : UInt32).toNat = 42 := rfl
      omega
    simp [rdGetCaps, getCapsWire, g1, g2, Cap.readReq, h1.1, h1.2, h3, Nat.add_assoc]
  · simp only [g1, g2, if_true] at h1 h2
    obtain ⟨rfl, rfl⟩ := h2
    simp [rdGetCaps, getCapsWire, g1, g2, Cap.readReq, h1.1, h1.2, Nat.add_assoc]
  · exact absurd (Cc.ge11_of_ge12 g2) g1
  · simp only [g1, g2] at h1 h2
    obtain ⟨rfl, rfl⟩ := h2
    obtain ⟨rfl, rfl⟩ := h1
    simp [rdGetCaps, getCapsWire, g1, g2]

theorem rdGetCaps_good (c : Cc) : Rd.Good (rdGetCaps c) := by
  have := Cap.goodReq
  unfold rdGetCaps; rd_good

/-! ### CAPABILITIES -/

/-- `SpdmCapabilitiesResponsePayload::spdm_encode` (message/capability.rs:153-187). -/
def encCaps (c : Cc) (m : Caps) : Enc Nat :=
  Enc.seq [encU8 0, encU8 0, encU8 0, encU8 m.ct, encU16 0, encU32 m.flags,
    if c.ge12 = true then Enc.seq [encU32 m.dts, encU32 m.mms] else pure 0]

/-- The flag checks of `SpdmCapabilitiesResponsePayload::spdm_read` (message/capability.rs:201-290); `true` is
`return None`. -/
def rspFlagsRefused (ver : UInt8) (f : UInt32) : Bool :=
  if Cap.has f Cap.measNoSig && Cap.has f Cap.measSig then true else
  if (!Cap.has f Cap.measNoSig && !Cap.has f Cap.measSig) && Cap.has f Cap.measFresh then true else
  if (if ver < 0x11 then
        (if !Cap.has f Cap.measSig then Cap.has f Cap.cert != Cap.has f Cap.chal else !Cap.has f Cap.cert)
      else
        if Cap.has f Cap.pskNoCtx && Cap.has f Cap.pskCtx then true else
        if (if Cap.has f Cap.keyEx || Cap.has f Cap.pskNoCtx || Cap.has f Cap.pskCtx then !Cap.has f Cap.mac
            else Cap.has f Cap.mac || Cap.has f Cap.encrypt || Cap.has f Cap.inClear || Cap.has f Cap.hbeat || Cap.has f Cap.keyUpd)
          then true else
        if !Cap.has f Cap.keyEx && (Cap.has f Cap.pskNoCtx || Cap.has f Cap.pskCtx) && Cap.has f Cap.inClear then true else
        if Cap.has f Cap.cert || Cap.has f Cap.pubKeyId then
          (Cap.has f Cap.cert && Cap.has f Cap.pubKeyId) ||
          (!Cap.has f Cap.chal && !Cap.has f Cap.keyEx && !Cap.has f Cap.measSig)
        else Cap.has f Cap.chal || Cap.has f Cap.keyEx || Cap.has f Cap.measSig || Cap.has f Cap.mutAuth)
    then true else
  if ver == 0x11 && Cap.has f Cap.mutAuth && !Cap.has f Cap.encap then true else
  if ver ≥ 0x12 then
    (!Cap.has f Cap.cert && (Cap.has f Cap.aliasCert || Cap.has f Cap.setCert)) ||
    (Cap.has f Cap.csr && !Cap.has f Cap.setCert) ||
    (Cap.has f Cap.installReset && !Cap.has f Cap.csr && !Cap.has f Cap.setCert)
  else false

/-- `SpdmCapabilitiesResponsePayload::spdm_read` (message/capability.rs:189-322). -/
def rdCaps (c : Cc) : Rd Caps := do
  let _ ← rdU8
  let _ ← rdU8
  let _ ← rdU8
  let ct ← rdU8
  let _ ← rdU16
  let flags ← Cap.readRsp
  if rspFlagsRefused c.ver flags = true then Rd.none else
  if c.ge12 = true then do
    let dts ← rdU32
    let mms ← rdU32
    if dts < 42 ∨ mms < dts then Rd.none else pure ⟨ct, flags, dts, mms⟩
  else pure ⟨ct, flags, 0, 0⟩

/-- Wire image of CAPABILITIES. -/
def capsWire (c : Cc) (m : Caps) : Bytes :=
  [0, 0, 0, m.ct] ++ putU16 0 ++ putU32 m.flags ++ (if c.ge12 = true then putU32 m.dts ++ putU32 m.mms else [])

/-- A response the decoder accepts unchanged. -/
def CapsWF (c : Cc) (m : Caps) : Prop :=
  m.flags &&& Cap.rspMask = m.flags ∧ rspFlagsRefused c.ver m.flags = false ∧
  (if c.ge12 = true then 42 ≤ m.dts.toNat ∧ m.dts.toNat ≤ m.mms.toNat else m.dts = 0 ∧ m.mms = 0)

theorem encCaps_writes (c : Cc) (m : Caps) : Writes (encCaps c m) (capsWire c m) := by
  unfold encCaps
  apply Writes.cast
  · wr
  simp [capsWire]

theorem rdCaps_rt {c : Cc} {m : Caps} (h : CapsWF c m) : RT (rdCaps c) (capsWire c m) m := by
  obtain ⟨ct, flags, dts, mms⟩ := m
  obtain ⟨h0, h1, h2⟩ := h
  intro t u
  by_cases g2 : c.ge12 = true
  · simp only [g2, if_true] at h1 h2
    have h3 : ¬ (dts < 42 ∨ mms < dts) := by
      simp only [UInt32.lt_iff_toNat_lt]
      have : (42 : UInt32).toNat = 42 := rfl
      omega
    simp only at h0
    simp [rdCaps, capsWire, g2, Cap.readRsp, h0, h1, h3, Nat.add_assoc]
  · simp only [g2] at h1 h2
    obtain ⟨rfl, rfl⟩ := h2
    simp only at h0
    simp [rdCaps, capsWire, g2, Cap.readRsp, h0, h1, Nat.add_assoc]

theorem rdCaps_good (c : Cc) : Rd.Good (rdCaps c) := by
  have := Cap.goodRsp
  unfold rdCaps; rd_good

/-! ### NEGOTIATE_ALGORITHMS -/

/-- `SpdmOpaqueSupport::read` (common/opaque.rs:618-622): `from_bits` refuses undefined bits (only `0` and `2` decode). -/
def rdOpaqueSupport : Rd UInt8 := do
  let b ← rdU8
  if b = 0 ∨ b = 2 then pure b else Rd.none
/-- `SpdmOpaqueSupport::is_no_more_than_one_selected` (common/opaque.rs:628-630). -/
def opaqueNoMoreThanOne (x : UInt8) : Bool := x == 0 || x &&& (x - 1) == 0
/-- `SpdmOpaqueSupport::is_valid_one_select` (common/opaque.rs:632-638). -/
def opaqueValidOne (x : UInt8) : Bool := opaqueNoMoreThanOne x && (x &&& 2 != 0)

/-- `SpdmNegotiateAlgorithmsRequestPayload` (message/algorithm.rs:14-22): `alg_struct[..alg_struct_count]`. -/
structure NegAlgs where
  measSpec : MeasSpec
  other : UInt8
  asym : BaseAsym
  hash : BaseHash
  algs : List AlgStruct
  deriving Repr, DecidableEq

/-- `SpdmNegotiateAlgorithmsRequestPayload::spdm_encode` (message/algorithm.rs:24-87). The length field is
`32 + (4 * count) as u16`, the product taken in `u8` (count at most 4). -/
def encNegAlgs (c : Cc) (m : NegAlgs) : Enc Nat :=
  Enc.seq [
    if c.ge11 = true then encU8 m.algs.length.toUInt8 else encU8 0,
    encU8 0,
    encU16 (if c.ge11 = true then 32 + (4 * m.algs.length.toUInt8).toUInt16 else 32),
    MeasSpec.encode m.measSpec,
    if c.ge12 = true then encU8 m.other else encU8 0,
    BaseAsym.encode m.asym, BaseHash.encode m.hash,
    encBytes (List.replicate 12 0), encU8 0, encU8 0, encU16 0,
    if c.ge11 = true then encN AlgStruct.encode m.algs else pure 0]

/-- Loop over the algorithm structures (message/algorithm.rs:133-176, 459-576): types strictly increasing, then the
per-family `check`. The `…_present` flags are implied by the strictly increasing types and never reject on their own. -/
def rdAlgs (check : Alg → Bool) : Nat → UInt8 → Rd (List AlgStruct)
  | 0, _ => pure []
  | n + 1, cur => do
    let a ← AlgStruct.read
    if cur ≥ a.type.get then Rd.none else
    if check a.alg = false then Rd.none else do
    let as ← rdAlgs check n a.type.get
    pure (a :: as)

/-- `SpdmNegotiateAlgorithmsRequestPayload::spdm_read` (message/algorithm.rs:89-198). -/
def rdNegAlgs (c : Cc) : Rd NegAlgs := do
  let n ← rdU8
  let n := if c.ge11 = true then n else 0
  if n > 4 then Rd.none else do
  let _ ← rdU8
  let len ← rdU16
  let measSpec ← MeasSpec.read
  let other ← (if c.ge12 = true then rdOpaqueSupport else do let _ ← rdU8; pure 0)
  let asym ← BaseAsym.read
  let hash ← BaseHash.read
  let _ ← rdBytes 12
  let ea ← rdU8
  if ea ≠ 0 then Rd.none else do
  let eh ← rdU8
  if eh ≠ 0 then Rd.none else do
  let _ ← rdU16
  let algs ← (if c.ge11 = true then rdAlgs (fun _ => true) n.toNat 0 else pure [])
  if len ≠ (if c.ge11 = true then 32 + (4 * n).toUInt16 else 32) then Rd.none else
  pure ⟨measSpec, other, asym, hash, algs⟩

/-- Wire image of NEGOTIATE_ALGORITHMS. -/
def negAlgsWire (c : Cc) (m : NegAlgs) : Bytes :=
  [if c.ge11 = true then m.algs.length.toUInt8 else 0, 0] ++
  putU16 (if c.ge11 = true then 32 + 4 * m.algs.length.toUInt16 else 32) ++
  [m.measSpec, if c.ge12 = true then m.other else 0] ++ putU32 m.asym ++ putU32 m.hash ++
  List.replicate 12 0 ++ [0, 0, 0, 0] ++
  (if c.ge11 = true then m.algs.flatMap AlgStruct.wire else [])

/-- At most four structures, in increasing type order, with defined bits only; fields absent from the negotiated version are empty. -/
def AlgListWF (c : Cc) (algs : List AlgStruct) : Prop :=
  algs.length ≤ 4 ∧ (∀ a ∈ algs, a.WF) ∧ (algs.map (·.type.get)).Pairwise (· < ·) ∧ (c.ge11 = false → algs = [])
/-- A request the decoder returns unchanged. -/
def NegAlgsWF (c : Cc) (m : NegAlgs) : Prop :=
  MeasSpec.WF m.measSpec ∧ BaseAsym.WF m.asym ∧ BaseHash.WF m.hash ∧
  (m.other = 0 ∨ (c.ge12 = true ∧ m.other = 2)) ∧ AlgListWF c m.algs

theorem AlgStruct.WF.ne_unknown {a : AlgStruct} (h : a.WF) : a.alg ≠ .unknown := by
  intro h'
  have := h.2
  rw [h'] at this
  exact this

private theorem len_mul {n : Nat} (h : n ≤ 4) :
    (32 + (4 * n.toUInt8).toUInt16 : UInt16) = 32 + 4 * n.toUInt16 ∧
    (36 + (4 * n.toUInt8).toUInt16 : UInt16) = 36 + 4 * n.toUInt16 := by
  have : n = 0 ∨ n = 1 ∨ n = 2 ∨ n = 3 ∨ n = 4 := by omega
  rcases this with rfl | rfl | rfl | rfl | rfl <;> decide

theorem encNegAlgs_writes {c : Cc} {m : NegAlgs} (h : m.algs.length ≤ 4 ∧ ∀ a ∈ m.algs, a.WF) :
    Writes (encNegAlgs c m) (negAlgsWire c m) := by
  have ha : Writes (encN AlgStruct.encode m.algs) (m.algs.flatMap AlgStruct.wire) :=
    Writes.repeat _ fun a ha => AlgStruct.encode_writes (h.2 a ha).ne_unknown
  have h1 := MeasSpec.writes m.measSpec
  have h2 := BaseAsym.writes m.asym
  have h3 := BaseHash.writes m.hash
  unfold encNegAlgs
  apply Writes.cast
  · wr
  have hl := (len_mul h.1).1
  simp only [negAlgsWire, hl]
  by_cases g1 : c.ge11 = true <;> by_cases g2 : c.ge12 = true <;> simp [g1, g2, putU16]

theorem rdAlgs_rt {check : Alg → Bool} (as : List AlgStruct) (cur : UInt8) (hw : ∀ a ∈ as, a.WF)
    (hs : (cur :: as.map (·.type.get)).Pairwise (· < ·)) (hc : ∀ a ∈ as, check a.alg = true) :
    RT (rdAlgs check as.length cur) (as.flatMap AlgStruct.wire) as := by
  induction as generalizing cur with
  | nil => exact RT.pure _
  | cons a as ih =>
    rw [List.flatMap_cons]
    refine RT.bind (AlgStruct.read_rt (hw a (by simp))) (RT.guard ?_ (RT.guard (by simp [hc a (by simp)]) ?_))
    · have := (List.pairwise_cons.mp hs).1 a.type.get (by simp)
      simp only [UInt8.lt_iff_toNat_lt, ge_iff_le, UInt8.le_iff_toNat_le] at *
      omega
    · refine RT.bind' (List.append_nil _).symm (ih _ (fun x hx => hw x (by simp [hx])) (List.pairwise_cons.mp hs).2
        (fun x hx => hc x (by simp [hx]))) (RT.pure _)

theorem rdAlgs_good (check : Alg → Bool) (n : Nat) (cur : UInt8) : Rd.Good (rdAlgs check n cur) := by
  induction n generalizing cur with
  | zero => exact Rd.Good.pure _
  | succ n ih =>
    exact Rd.Good.bind AlgStruct.read_good fun a => Rd.Good.ite Rd.Good.none (Rd.Good.ite Rd.Good.none
      (Rd.Good.bind (ih _) fun _ => Rd.Good.pure _))

theorem rdAlgs_ok {check : Alg → Bool} {n : Nat} {cur : UInt8} {r r' : Reader} {as : List AlgStruct}
    (h : rdAlgs check n cur r = .ok as r') :
    as.length = n ∧ (∀ a ∈ as, a.WF ∧ check a.alg = true) ∧ (cur :: as.map (·.type.get)).Pairwise (· < ·) := by
  induction n generalizing cur r as with
  | zero => simp [rdAlgs] at h; simp [h.1]
  | succ n ih =>
    simp only [rdAlgs, Rd.none, M.bind_ok, M.guard_ok, M.pure_ok] at h
    obtain ⟨a, t, h1, h2, h3, bs, t2, h4, rfl, rfl⟩ := h
    obtain ⟨i1, i2, i3⟩ := ih h4
    refine ⟨by simp [i1], ?_, ?_⟩
    · intro x hx
      rcases List.mem_cons.mp hx with rfl | hx
      · exact ⟨AlgStruct.read_wf h1, by simpa using h3⟩
      · exact i2 x hx
    · rw [List.map_cons, List.pairwise_cons]
      refine ⟨?_, i3⟩
      have hlt : cur < a.type.get := by
        simp only [UInt8.lt_iff_toNat_lt, ge_iff_le, UInt8.le_iff_toNat_le] at *
        omega
      intro x hx
      rcases List.mem_cons.mp hx with rfl | hx
      · exact hlt
      · have := (List.pairwise_cons.mp i3).1 x hx
        simp only [UInt8.lt_iff_toNat_lt] at *
        omega

private theorem algs_sorted0 {as : List AlgStruct} (hw : ∀ a ∈ as, a.WF) (hs : (as.map (·.type.get)).Pairwise (· < ·)) :
    ((0 : UInt8) :: as.map (·.type.get)).Pairwise (· < ·) := by
  rw [List.pairwise_cons]
  refine ⟨?_, hs⟩
  intro x hx
  obtain ⟨a, ha, rfl⟩ := List.mem_map.mp hx
  have h := (hw a ha).1
  have h2 := (hw a ha).ne_unknown
  rw [h]
  cases hal : a.alg <;> simp_all [Alg.type, AlgType.get] <;> decide

private theorem read8 {x : MeasSpec} (h : MeasSpec.WF x) : RT MeasSpec.read [x] x := fun t u => MeasSpec.read_wf h t u
private theorem readAsym {x : BaseAsym} (h : BaseAsym.WF x) : RT BaseAsym.read (putU32 x) x := fun t u => BaseAsym.read_wf h t u
private theorem readHash {x : BaseHash} (h : BaseHash.WF x) : RT BaseHash.read (putU32 x) x := fun t u => BaseHash.read_wf h t u
private theorem readMH {x : MeasHash} (h : MeasHash.WF x) : RT MeasHash.read (putU32 x) x := fun t u => MeasHash.read_wf h t u

private theorem readOther {c : Cc} {x : UInt8} (h : x = 0 ∨ (c.ge12 = true ∧ x = 2)) :
    RT (if c.ge12 = true then rdOpaqueSupport else do let _ ← rdU8; pure 0) [if c.ge12 = true then x else 0] x := by
  intro t u
  by_cases g : c.ge12 = true
  · have : x = 0 ∨ x = 2 := h.imp id (·.2)
    simp [g, rdOpaqueSupport, this]
  · have : x = 0 := h.elim id fun h => absurd h.1 g
    simp [g, this]

theorem rdNegAlgs_rt {c : Cc} {m : NegAlgs} (h : NegAlgsWF c m) : RT (rdNegAlgs c) (negAlgsWire c m) m := by
  obtain ⟨ms, ot, asym, hash, algs⟩ := m
  obtain ⟨h1, h2, h3, h4, h5, h6, h7, h8⟩ := h
  simp only at h1 h2 h3 h4 h5 h6 h7 h8
  have hl : algs.length.toUInt8.toNat = algs.length := by simp; omega
  have hm := (len_mul h5).1
  unfold rdNegAlgs negAlgsWire
  simp only [List.append_assoc, List.cons_append, List.nil_append]
  refine RT.bind' (w1 := [if c.ge11 = true then algs.length.toUInt8 else 0]) rfl (RT.u8 _) ?_
  refine RT.guard ?_ ?_
  · by_cases g : c.ge11 = true
    · simp only [g, if_true, gt_iff_lt, UInt8.lt_iff_toNat_lt, hl]
      have : (4 : UInt8).toNat = 4 := rfl
      omega
    · simp [g]
  refine RT.bind' (w1 := [0]) rfl (RT.u8 _) (RT.bind (RT.u16 _) ?_)
  refine RT.bind' (w1 := [ms]) rfl (read8 h1) ?_
  refine RT.bind' (w1 := [if c.ge12 = true then ot else 0]) rfl (readOther h4) ?_
  refine RT.bind (readAsym h2) (RT.bind (readHash h3) (RT.bind (RT.bytes _ (by simp)) ?_))
  refine RT.bind' (w1 := [0]) rfl (RT.u8 _) (RT.guard (by simp) ?_)
  refine RT.bind' (w1 := [0]) rfl (RT.u8 _) (RT.guard (by simp) ?_)
  refine RT.bind' (w1 := putU16 0) (w2 := if c.ge11 = true then algs.flatMap AlgStruct.wire else []) rfl (RT.u16 _) ?_
  refine RT.bind' (a := algs) (List.append_nil _).symm ?_ (RT.guard ?_ (RT.pure _))
  · by_cases g : c.ge11 = true
    · simp only [g, if_true, hl]
      exact rdAlgs_rt algs 0 h6 (algs_sorted0 h6 h7) (fun _ _ => rfl)
    · simp only [g]
      rw [h8 (by simpa using g)]
      exact RT.pure _
  · by_cases g : c.ge11 = true
    · simp only [g, if_true, hm]; simp
    · simp [g]

theorem rdOpaqueSupport_good : Rd.Good rdOpaqueSupport := by unfold rdOpaqueSupport; rd_good

theorem rdNegAlgs_good (c : Cc) : Rd.Good (rdNegAlgs c) := by
  have h1 := MeasSpec.good
  have h2 := BaseAsym.good
  have h3 := BaseHash.good
  have h4 := rdOpaqueSupport_good
  have h5 := rdAlgs_good
  unfold rdNegAlgs
  refine Rd.Good.bind Rd.Good.u8 fun n => Rd.Good.ite Rd.Good.none ?_
  refine Rd.Good.bind Rd.Good.u8 fun _ => Rd.Good.bind Rd.Good.u16 fun _ => Rd.Good.bind h1 fun _ => ?_
  refine Rd.Good.bind (Rd.Good.ite h4 (by rd_good)) fun _ => ?_
  refine Rd.Good.bind h2 fun _ => Rd.Good.bind h3 fun _ => Rd.Good.bind (Rd.Good.bytes _) fun _ => ?_
  refine Rd.Good.bind Rd.Good.u8 fun _ => Rd.Good.ite Rd.Good.none ?_
  refine Rd.Good.bind Rd.Good.u8 fun _ => Rd.Good.ite Rd.Good.none ?_
  refine Rd.Good.bind Rd.Good.u16 fun _ => ?_
  exact Rd.Good.bind (Rd.Good.ite (h5 _ _ _) (Rd.Good.pure _)) fun _ => Rd.Good.ite Rd.Good.none (Rd.Good.pure _)

theorem rdNegAlgs_ok {c : Cc} {r r' : Reader} {m : NegAlgs} (h : rdNegAlgs c r = .ok m r') : NegAlgsWF c m := by
  simp only [rdNegAlgs, Rd.none, M.bind_ok, M.guard_ok, M.pure_ok] at h
  obtain ⟨n, _, _, hn, _, _, _, len, _, _, ms, _, hms, ot, _, hot, asym, _, hasym, hash, _, hhash, _, _, _, ea, _, _, hea,
    eh, _, _, heh, _, _, _, algs, _, halgs, hlen, rfl, rfl⟩ := h
  rw [M.ite_ok] at hot halgs
  simp only [M.bind_ok, M.pure_ok] at hot halgs
  refine ⟨(MeasSpec.read_ok hms).1, (BaseAsym.read_ok hasym).1, (BaseHash.read_ok hhash).1, ?_, ?_⟩
  · rcases hot with ⟨g, h⟩ | ⟨_, _, _, _, rfl, _⟩
    · simp only [rdOpaqueSupport, Rd.none, M.bind_ok, M.ite_ok, M.pure_ok, M.fail_ok] at h
      obtain ⟨b, _, _, h⟩ := h
      rcases h with ⟨hb, rfl, _⟩ | ⟨_, h⟩
      · simp only; rcases hb with rfl | rfl
        · exact .inl rfl
        · exact .inr ⟨g, rfl⟩
      · exact absurd h id
    · exact .inl rfl
  · rcases halgs with ⟨g, h⟩ | ⟨g, rfl, _⟩
    · obtain ⟨i1, i2, i3⟩ := rdAlgs_ok h
      simp only [g, if_true, gt_iff_lt, UInt8.lt_iff_toNat_lt] at hn i1
      have : (4 : UInt8).toNat = 4 := rfl
      exact ⟨by simp only; omega, fun a ha => (i2 a ha).1, (List.pairwise_cons.mp i3).2, by simp [g]⟩
    · exact ⟨by simp, by simp, by simp, fun _ => rfl⟩

/-! ### ALGORITHMS -/

/-- `SpdmAlgorithmsResponsePayload` (message/algorithm.rs:200-209). -/
structure Algs where
  measSpec : MeasSpec
  other : UInt8
  measHash : MeasHash
  asym : BaseAsym
  hash : BaseHash
  algs : List AlgStruct
  deriving Repr, DecidableEq

/-- `SpdmAlgorithmsResponsePayload::spdm_encode` (message/algorithm.rs:211-279). -/
def encAlgs (c : Cc) (m : Algs) : Enc Nat :=
  Enc.seq [
    if c.ge11 = true then encU8 m.algs.length.toUInt8 else encU8 0,
    encU8 0,
    encU16 (if c.ge11 = true then 36 + (4 * m.algs.length.toUInt8).toUInt16 else 36),
    MeasSpec.encode m.measSpec,
    if c.ge12 = true then encU8 m.other else encU8 0,
    MeasHash.encode m.measHash, BaseAsym.encode m.asym, BaseHash.encode m.hash,
    encBytes (List.replicate 12 0), encU8 0, encU8 0, encU16 0,
    if c.ge11 = true then encN AlgStruct.encode m.algs else pure 0]

namespace Cc
/-- responder has one of the measurement capabilities (message/algorithm.rs:305-312). -/
def measCap (c : Cc) : Bool := Cap.has c.neg.rspCaps Cap.measNoSig || Cap.has c.neg.rspCaps Cap.measSig
/-- both sides have KEY_EX_CAP (message/algorithm.rs:403-410). -/
def keyExBoth (c : Cc) : Bool := Cap.has c.neg.rspCaps Cap.keyEx && Cap.has c.neg.reqCaps Cap.keyEx
/-- both sides have a PSK capability (message/algorithm.rs:438-449). -/
def pskBoth (c : Cc) : Bool :=
  (Cap.has c.neg.rspCaps Cap.pskNoCtx || Cap.has c.neg.rspCaps Cap.pskCtx) && Cap.has c.neg.reqCaps Cap.psk
/-- a signature algorithm must be selected (message/algorithm.rs:390-410). -/
def needAsym (c : Cc) : Bool :=
  Cap.has c.neg.rspCaps Cap.cert || Cap.has c.neg.rspCaps Cap.chal || Cap.has c.neg.rspCaps Cap.measSig || c.keyExBoth
/-- a hash algorithm must be selected (message/algorithm.rs:419-449). -/
def needHash (c : Cc) : Bool := c.needAsym || c.pskBoth
/-- an opaque format must be selected (message/algorithm.rs:329-343). -/
def needOpaque (c : Cc) : Bool :=
  c.ge12 && (Cap.has c.neg.rspCaps Cap.keyEx || Cap.has c.neg.rspCaps Cap.pskNoCtx || Cap.has c.neg.rspCaps Cap.pskCtx)
/-- an AEAD must be selected (message/algorithm.rs:508-525). -/
def needAead (c : Cc) : Bool :=
  (Cap.has c.neg.rspCaps Cap.encrypt && Cap.has c.neg.reqCaps Cap.encrypt) ||
  (Cap.has c.neg.rspCaps Cap.mac && Cap.has c.neg.reqCaps Cap.mac)
/-- a requester signature algorithm must be selected (message/algorithm.rs:537-544). -/
def mutAuthBoth (c : Cc) : Bool := Cap.has c.neg.rspCaps Cap.mutAuth && Cap.has c.neg.reqCaps Cap.mutAuth
end Cc

/-- Per-family checks of the ALGORITHMS decoder (message/algorithm.rs:472-576). -/
def algSelOk (c : Cc) : Alg → Bool
  | .dhe v => Dhe.noMoreThanOne v && !(c.keyExBoth && !Dhe.validOne v)
  | .aead v => Aead.noMoreThanOne v && !(c.needAead && !Aead.validOne v)
  | .reqAsym v => ReqAsym.noMoreThanOne v && !(c.mutAuthBoth && !ReqAsym.validOne v)
  | .keySchedule v => KeySchedule.noMoreThanOne v && !((c.keyExBoth || c.pskBoth) && !KeySchedule.validOne v)
  | .unknown => false

/-- `SpdmAlgorithmsResponsePayload::spdm_read` (message/algorithm.rs:281-603). -/
def rdAlgsRsp (c : Cc) : Rd Algs := do
  let n ← rdU8
  let n := if c.ge11 = true then n else 0
  if n > 4 then Rd.none else do
  let _ ← rdU8
  let len ← rdU16
  let measSpec ← MeasSpec.read
  if !MeasSpec.noMoreThanOne measSpec || (c.measCap && !MeasSpec.validOne measSpec) then Rd.none else do
  let other ← (if c.ge12 = true then rdOpaqueSupport else do let _ ← rdU8; pure 0)
  if !opaqueNoMoreThanOne other || (c.needOpaque && !opaqueValidOne other) then Rd.none else do
  let measHash ← MeasHash.read
  if !MeasHash.noMoreThanOne measHash || (c.measCap && !MeasHash.validOne measHash) then Rd.none else do
  let asym ← BaseAsym.read
  if !BaseAsym.noMoreThanOne asym || (c.needAsym && !BaseAsym.validOne asym) then Rd.none else do
  let hash ← BaseHash.read
  if !BaseHash.noMoreThanOne hash || (c.needHash && !BaseHash.validOne hash) then Rd.none else do
  let _ ← rdBytes 12
  let ea ← rdU8
  if ea ≠ 0 then Rd.none else do
  let eh ← rdU8
  if eh ≠ 0 then Rd.none else do
  let _ ← rdU16
  let algs ← (if c.ge11 = true then rdAlgs (algSelOk c) n.toNat 0 else pure [])
  if len ≠ (if c.ge11 = true then 36 + (4 * n).toUInt16 else 36) then Rd.none else
  pure ⟨measSpec, other, measHash, asym, hash, algs⟩

/-- Wire image of ALGORITHMS. -/
def algsWire (c : Cc) (m : Algs) : Bytes :=
  [if c.ge11 = true then m.algs.length.toUInt8 else 0, 0] ++
  putU16 (if c.ge11 = true then 36 + 4 * m.algs.length.toUInt16 else 36) ++
  [m.measSpec, if c.ge12 = true then m.other else 0] ++ putU32 m.measHash ++ putU32 m.asym ++ putU32 m.hash ++
  List.replicate 12 0 ++ [0, 0, 0, 0] ++
  (if c.ge11 = true then m.algs.flatMap AlgStruct.wire else [])

/-- Selection rules: at most one algorithm per family, exactly one where the capabilities require it. -/
def AlgsSelOk (c : Cc) (m : Algs) : Prop :=
  (MeasSpec.noMoreThanOne m.measSpec = true ∧ (c.measCap = true → MeasSpec.validOne m.measSpec = true)) ∧
  (opaqueNoMoreThanOne m.other = true ∧ (c.needOpaque = true → opaqueValidOne m.other = true)) ∧
  (MeasHash.noMoreThanOne m.measHash = true ∧ (c.measCap = true → MeasHash.validOne m.measHash = true)) ∧
  (BaseAsym.noMoreThanOne m.asym = true ∧ (c.needAsym = true → BaseAsym.validOne m.asym = true)) ∧
  (BaseHash.noMoreThanOne m.hash = true ∧ (c.needHash = true → BaseHash.validOne m.hash = true)) ∧
  ∀ a ∈ m.algs, algSelOk c a.alg = true

/-- A response the decoder returns unchanged. -/
def AlgsWF (c : Cc) (m : Algs) : Prop :=
  MeasSpec.WF m.measSpec ∧ MeasHash.WF m.measHash ∧ BaseAsym.WF m.asym ∧ BaseHash.WF m.hash ∧
  (m.other = 0 ∨ (c.ge12 = true ∧ m.other = 2)) ∧ AlgListWF c m.algs ∧ AlgsSelOk c m

theorem encAlgs_writes {c : Cc} {m : Algs} (h : m.algs.length ≤ 4 ∧ ∀ a ∈ m.algs, a.WF) :
    Writes (encAlgs c m) (algsWire c m) := by
  have ha : Writes (encN AlgStruct.encode m.algs) (m.algs.flatMap AlgStruct.wire) :=
    Writes.repeat _ fun a ha => AlgStruct.encode_writes (h.2 a ha).ne_unknown
  have h1 := MeasSpec.writes m.measSpec
  have h2 := BaseAsym.writes m.asym
  have h3 := BaseHash.writes m.hash
  have h4 := MeasHash.writes m.measHash
  unfold encAlgs
  apply Writes.cast
  · wr
  have hl := (len_mul h.1).2
  simp only [algsWire, hl]
  by_cases g1 : c.ge11 = true <;> by_cases g2 : c.ge12 = true <;> simp [g1, g2, putU16]

private theorem selGuard {a b v : Bool} (h1 : a = true) (h2 : b = true → v = true) : ¬ ((!a || (b && !v)) = true) := by
  cases b <;> simp_all

theorem rdAlgsRsp_rt {c : Cc} {m : Algs} (h : AlgsWF c m) : RT (rdAlgsRsp c) (algsWire c m) m := by
  obtain ⟨ms, ot, mh, asym, hash, algs⟩ := m
  obtain ⟨h1, h0, h2, h3, h4, ⟨h5, h6, h7, h8⟩, ⟨s1, s2⟩, ⟨s3, s4⟩, ⟨s5, s6⟩, ⟨s7, s8⟩, ⟨s9, s10⟩, s11⟩ := h
  simp only at h1 h0 h2 h3 h4 h5 h6 h7 h8 s1 s2 s3 s4 s5 s6 s7 s8 s9 s10 s11
  have hl : algs.length.toUInt8.toNat = algs.length := by simp; omega
  have hm := (len_mul h5).2
  unfold rdAlgsRsp algsWire
  simp only [List.append_assoc, List.cons_append, List.nil_append]
  refine RT.bind' (w1 := [if c.ge11 = true then algs.length.toUInt8 else 0]) rfl (RT.u8 _) ?_
  refine RT.guard ?_ ?_
  · by_cases g : c.ge11 = true
    · simp only [g, if_true, gt_iff_lt, UInt8.lt_iff_toNat_lt, hl]
      have : (4 : UInt8).toNat = 4 := rfl
      omega
    · simp [g]
  refine RT.bind' (w1 := [0]) rfl (RT.u8 _) (RT.bind (RT.u16 _) ?_)
  refine RT.bind' (w1 := [ms]) rfl (read8 h1) (RT.guard (selGuard s1 s2) ?_)
  refine RT.bind' (w1 := [if c.ge12 = true then ot else 0]) rfl (readOther h4) (RT.guard (selGuard s3 s4) ?_)
  refine RT.bind (readMH h0) (RT.guard (selGuard s5 s6) ?_)
  refine RT.bind (readAsym h2) (RT.guard (selGuard s7 s8) ?_)
  refine RT.bind (readHash h3) (RT.guard (selGuard s9 s10) ?_)
  refine RT.bind (RT.bytes _ (by simp)) ?_
  refine RT.bind' (w1 := [0]) rfl (RT.u8 _) (RT.guard (by simp) ?_)
  refine RT.bind' (w1 := [0]) rfl (RT.u8 _) (RT.guard (by simp) ?_)
  refine RT.bind' (w1 := putU16 0) (w2 := if c.ge11 = true then algs.flatMap AlgStruct.wire else []) rfl (RT.u16 _) ?_
  refine RT.bind' (a := algs) (List.append_nil _).symm ?_ (RT.guard ?_ (RT.pure _))
  · by_cases g : c.ge11 = true
    · simp only [g, if_true, hl]
      exact rdAlgs_rt algs 0 h6 (algs_sorted0 h6 h7) s11
    · simp only [g]
      rw [h8 (by simpa using g)]
      exact RT.pure _
  · by_cases g : c.ge11 = true
    · simp only [g, if_true, hm]; simp
    · simp [g]

theorem rdAlgsRsp_good (c : Cc) : Rd.Good (rdAlgsRsp c) := by
  have h1 := MeasSpec.good
  have h2 := BaseAsym.good
  have h3 := BaseHash.good
  have h4 := rdOpaqueSupport_good
  have h5 := rdAlgs_good
  have h6 := MeasHash.good
  unfold rdAlgsRsp
  refine Rd.Good.bind Rd.Good.u8 fun n => Rd.Good.ite Rd.Good.none ?_
  refine Rd.Good.bind Rd.Good.u8 fun _ => Rd.Good.bind Rd.Good.u16 fun _ => ?_
  refine Rd.Good.bind h1 fun _ => Rd.Good.ite Rd.Good.none ?_
  refine Rd.Good.bind (Rd.Good.ite h4 (by rd_good)) fun _ => Rd.Good.ite Rd.Good.none ?_
  refine Rd.Good.bind h6 fun _ => Rd.Good.ite Rd.Good.none ?_
  refine Rd.Good.bind h2 fun _ => Rd.Good.ite Rd.Good.none ?_
  refine Rd.Good.bind h3 fun _ => Rd.Good.ite Rd.Good.none ?_
  refine Rd.Good.bind (Rd.Good.bytes _) fun _ => ?_
  refine Rd.Good.bind Rd.Good.u8 fun _ => Rd.Good.ite Rd.Good.none ?_
  refine Rd.Good.bind Rd.Good.u8 fun _ => Rd.Good.ite Rd.Good.none ?_
  refine Rd.Good.bind Rd.Good.u16 fun _ => ?_
  exact Rd.Good.bind (Rd.Good.ite (h5 _ _ _) (Rd.Good.pure _)) fun _ => Rd.Good.ite Rd.Good.none (Rd.Good.pure _)

private theorem of_selGuard {a b v : Bool} (h : ¬ ((!a || (b && !v)) = true)) : a = true ∧ (b = true → v = true) := by
  cases a <;> cases b <;> simp_all

theorem rdAlgsRsp_ok {c : Cc} {r r' : Reader} {m : Algs} (h : rdAlgsRsp c r = .ok m r') : AlgsWF c m := by
  simp only [rdAlgsRsp, Rd.none, M.bind_ok, M.guard_ok, M.pure_ok] at h
  obtain ⟨n, _, _, hn, _, _, _, len, _, _, ms, _, hms, g1, ot, _, hot, g2, mh, _, hmh, g3, asym, _, hasym, g4,
    hash, _, hhash, g5, _, _, _, ea, _, _, hea,
    eh, _, _, heh, _, _, _, algs, _, halgs, hlen, rfl, rfl⟩ := h
  rw [M.ite_ok] at hot halgs
  simp only [M.bind_ok, M.pure_ok] at hot halgs
  have hsel : AlgListWF c algs ∧ ∀ a ∈ algs, algSelOk c a.alg = true := by
    rcases halgs with ⟨g, h⟩ | ⟨g, rfl, _⟩
    · obtain ⟨i1, i2, i3⟩ := rdAlgs_ok h
      simp only [g, if_true, gt_iff_lt, UInt8.lt_iff_toNat_lt] at hn i1
      have : (4 : UInt8).toNat = 4 := rfl
      exact ⟨⟨by omega, fun a ha => (i2 a ha).1, (List.pairwise_cons.mp i3).2, by simp [g]⟩, fun a ha => (i2 a ha).2⟩
    · exact ⟨⟨by simp, by simp, by simp, fun _ => rfl⟩, by simp⟩
  refine ⟨(MeasSpec.read_ok hms).1, (MeasHash.read_ok hmh).1, (BaseAsym.read_ok hasym).1, (BaseHash.read_ok hhash).1, ?_,
    hsel.1, of_selGuard g1, of_selGuard g2, of_selGuard g3, of_selGuard g4, of_selGuard g5, hsel.2⟩
  rcases hot with ⟨g, h⟩ | ⟨_, _, _, _, rfl, _⟩
  · simp only [rdOpaqueSupport, Rd.none, M.bind_ok, M.ite_ok, M.pure_ok, M.fail_ok] at h
    obtain ⟨b, _, _, h⟩ := h
    rcases h with ⟨hb, rfl, _⟩ | ⟨_, h⟩
    · simp only; rcases hb with rfl | rfl
      · exact .inl rfl
      · exact .inr ⟨g, rfl⟩
    · exact absurd h id
  · exact .inl rfl

end Verif
