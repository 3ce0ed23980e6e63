/-
What a successful decode guarantees: variable-length fields are bounded by their storage and were really received.
-/
import Verif.Msg.Message

namespace Verif

/-- A variable-length field of a decoded message: the length the peer declared, the received bytes from its length field up
to the data (empty where the count is not a field of its own), the size of the fixed array that holds the data, and the
data. -/
structure Blob where
  declared : Nat
  lead : Bytes
  storage : Nat
  data : Bytes

/-- An opaque-data field: two-byte length, data, storage MAX_SPDM_OPAQUE_SIZE (common/opaque.rs). -/
def opaqueBlob (d : Bytes) : Blob := ⟨d.length, putU16 d.length.toUInt16, 1024, d⟩

/-- The variable-length fields of each payload and the fixed storage the library has for them: MAX_SPDM_OPAQUE_SIZE
1024 (common/opaque.rs), MAX_SPDM_MEASUREMENT_RECORD_SIZE 4000, MAX_SPDM_PSK_HINT_SIZE 32, MAX_SPDM_PSK_CONTEXT_SIZE 64
(config), MAX_SPDM_CERT_PORTION_LEN 512 (message/certificate.rs), vendor error data 32 (message/error.rs), vendor payload
4087 and vendor id 255 (message/vendor.rs), 3 version entries of 2 bytes, 8 digests of at most 64 bytes. -/
def Payload.blobs : Payload → List Blob
  | .version m => [⟨2 * m.entries.length, [m.entries.length.toUInt8], 6, m.entries.flatMap VersionEntry.wire⟩]
  | .digests m => [⟨m.digests.flatten.length, [m.slotMask], 8 * 64, m.digests.flatten⟩]
  | .cert m => [⟨m.portion.toNat, putU16 m.portion ++ putU16 m.remainder, 512, m.data⟩]
  | .challengeAuth m => [opaqueBlob m.opaq]
  | .meas m => [⟨m.record.data.length, putU24 m.record.data.length.toUInt32, 4000, m.record.data⟩, opaqueBlob m.opaq]
  | .keyEx m => [opaqueBlob m.opaq]
  | .keyExRsp m => [opaqueBlob m.opaq]
  | .pskEx m =>
    let lens := putU16 m.hint.length.toUInt16 ++ putU16 m.context.length.toUInt16 ++ putU16 m.opaq.length.toUInt16
    [⟨m.hint.length, lens, 32, m.hint⟩, ⟨m.context.length, lens ++ m.hint, 64, m.context⟩,
     ⟨m.opaq.length, lens ++ m.hint ++ m.context, 1024, m.opaq⟩]
  | .pskExRsp m =>
    let lens := putU16 m.context.length.toUInt16 ++ putU16 m.opaq.length.toUInt16 ++ m.summary
    [⟨m.context.length, lens, 64, m.context⟩, ⟨m.opaq.length, lens ++ m.context, 1024, m.opaq⟩]
  | .error m => match m.ext with
    | .vendor d => [⟨d.length, [], 32, d⟩]
    | _ => []
  | .vendorReq m => [⟨m.vendorId.length, [m.vendorId.length.toUInt8], 255, m.vendorId⟩, ⟨m.length.toNat, putU16 m.length, 4087, m.data⟩]
  | .vendorRsp m => [⟨m.vendorId.length, [m.vendorId.length.toUInt8], 255, m.vendorId⟩, ⟨m.length.toNat, putU16 m.length, 4087, m.data⟩]
  | _ => []

/-- The field fits its storage and is, with its length field, a contiguous part of what was received; it has the declared
length, cut at the storage. -/
def Blob.Ok (r : Reader) (b : Blob) : Prop :=
  b.data.length ≤ b.storage ∧ r.Contains (b.lead ++ b.data) ∧ b.data.length = min b.declared b.storage

theorem rdOpt_after {b : Bool} {x : Rd Bytes} {P : Bytes → Prop} {d : Bytes} {r r' : Reader} (h : rdOpt b x r = .ok d r')
    (hx : x r = .ok d r' → P d ∧ r.After d r') : OptOk b P d ∧ r.After d r' := by
  cases b
  · simp [rdOpt] at h; simp [OptOk, h.1, ← h.2, Reader.After.refl]
  · exact hx h
theorem rdOptDigest_ok {b : Bool} {c : Cc} {d : Bytes} {r r' : Reader} (h : rdOpt b (rdDigest c) r = .ok d r') :
    OptOk b c.DigestOk d ∧ r.After d r' := rdOpt_after h fun h => rdDigest_ok.mp h
theorem rdOptSig_ok {b : Bool} {c : Cc} {d : Bytes} {r r' : Reader} (h : rdOpt b (rdSignature c) r = .ok d r') :
    OptOk b c.SigOk d ∧ r.After d r' := rdOpt_after h fun h => rdSignature_ok.mp h

theorem Reader.After.contains_left {r r' : Reader} {a b : Bytes} (h : r.After (a ++ b) r') : r.Contains b :=
  ⟨a, r'.rest, by rw [h.1]⟩

/-- Walk along a chain of reads to the read that delivered the field. -/
macro "contained" : tactic => `(tactic|
  repeat (first
    | exact Reader.After.contains_self (by assumption)
    | exact Reader.After.contains_left (by assumption)
    | refine Reader.After.contains (by assumption) ?_))

theorem CertRsp.read_ok {r r' : Reader} {m : CertRsp} (h : CertRsp.read r = .ok m r') :
    m.data.length = min m.portion.toNat 512 ∧ r.Contains (putU16 m.portion ++ putU16 m.remainder ++ m.data) := by
  simp only [CertRsp.read, M.bind_ok, M.pure_ok, rdU8_ok, rdU16_ok, rdBytes_ok] at h
  obtain ⟨_, _, h1, _, _, h2, _, _, h3, _, _, h4, d, _, ⟨h5, h6⟩, rfl, rfl⟩ := h
  have h7 := (h3.trans h4).trans h6
  refine ⟨h5, ?_⟩
  show r.Contains (putU16 _ ++ putU16 _ ++ d)
  contained

theorem Challenge.read_wf {c : Cc} {r r' : Reader} {m : Challenge} (h : Challenge.read c r = .ok m r') : m.WF c := by
  simp only [Challenge.read, Rd.none, rdNonce, M.bind_ok, M.guard_ok, M.pure_ok, rdU8_ok, SummaryHashType.read_ok, rdBytes_ok] at h
  obtain ⟨_, _, h1, _, _, h2, h3, _, _, ⟨h4, h5⟩, rfl, rfl⟩ := h
  simp_all [Challenge.WF]

theorem and_f0_or : ∀ a : UInt8, a &&& 0xF < 16 := by
  intro a
  have key : ∀ j : Fin 256, UInt8.ofNat j &&& 0xF < 16 := by set_option maxRecDepth 20000 in decide
  simpa using key ⟨a.toNat, a.toNat_lt⟩

theorem ChallengeAuth.read_ok {c : Cc} {r r' : Reader} {m : ChallengeAuth} (h : ChallengeAuth.read c r = .ok m r') :
    m.WF c ∧ r.Contains (opaqueWire m.opaq) := by
  simp only [ChallengeAuth.read, Rd.none, rdNonce, M.bind_ok, M.guard_ok, M.pure_ok, rdU8_ok, rdDigest_ok, rdSignature_ok,
    rdOpaque_ok, rdBytes_ok] at h
  obtain ⟨p, _, h1, hp, sm, _, h2, ch, _, ⟨h3, h3'⟩, n, _, ⟨h4, h4'⟩, s, _, h5, o, _, ⟨h6, h6'⟩, sg, _, ⟨h7, h7'⟩, rfl, rfl⟩ := h
  obtain ⟨h5, h5'⟩ := rdOptDigest_ok h5
  refine ⟨⟨and_f0_or p, by simpa using Classical.not_not.mp hp, h3, h4, h5, h6, h7⟩, ?_⟩
  show r.Contains (opaqueWire o)
  contained

theorem GetMeas.read_wf {c : Cc} {r r' : Reader} {m : GetMeas} (h : GetMeas.read c r = .ok m r') : m.WF c := by
  simp only [GetMeas.read, Rd.none, rdNonce, M.bind_ok, M.guard_ok, M.pure_ok, rdU8_ok, MeasOperation.read_ok] at h
  obtain ⟨a, _, h1, ha, op, _, ⟨h2, h2'⟩, h⟩ := h
  have ha' : a ≤ 3 := by
    simp only [gt_iff_lt, UInt8.lt_iff_toNat_lt, UInt8.le_iff_toNat_le] at *; omega
  simp only [M.ite_ok, M.bind_ok, rdBytes_ok, rdU8_ok, M.pure_ok] at h
  rcases h with ⟨g, n, _, ⟨h3, h3'⟩, ⟨hv, _, _, _, rfl, _⟩ | ⟨hv, rfl, _⟩⟩ | ⟨g, rfl, _⟩
  · exact ⟨ha', h2, h3, fun e => absurd e g, fun e => by simp_all⟩
  · exact ⟨ha', h2, h3, fun e => absurd e g, fun e => rfl⟩
  · exact ⟨ha', h2, by simp, fun e => ⟨rfl, rfl⟩, fun e => rfl⟩

theorem Meas.read_ok {c : Cc} {r r' : Reader} {m : Meas} (h : Meas.read c r = .ok m r') :
    m.slot < 16 ∧ m.record.data.length ≤ 4000 ∧ m.nonce.length = 32 ∧ m.opaq.length ≤ 1024 ∧ OptOk c.needSig c.SigOk m.signature ∧
    r.Contains (putU24 m.record.data.length.toUInt32 ++ m.record.data) ∧ r.Contains (opaqueWire m.opaq) := by
  simp only [Meas.read, rdNonce, M.bind_ok, M.pure_ok, rdU8_ok, rdOpaque_ok, rdBytes_ok] at h
  obtain ⟨n, _, h1, p, _, h2, rec, _, h3, nn, _, ⟨h4, h4'⟩, o, _, ⟨h5, h5'⟩, sg, _, h6, rfl, rfl⟩ := h
  obtain ⟨h6, h6'⟩ := rdOptSig_ok h6
  obtain ⟨h3, h3'⟩ := MeasRecord.read_ok h3
  unfold MeasRecord.wire at h3'
  rw [List.append_assoc] at h3'
  refine ⟨and_f0_or p, h3, h4, h5, h6, ?_, ?_⟩
  · show r.Contains (putU24 rec.data.length.toUInt32 ++ rec.data)
    contained
  · show r.Contains (opaqueWire o)
    contained

theorem KeyEx.read_ok {c : Cc} {r r' : Reader} {m : KeyEx} (h : KeyEx.read c r = .ok m r') :
    summaryRefused c m.summary = false ∧ m.random.length = 32 ∧ c.DheOk m.exchange ∧ m.opaq.length ≤ 1024 ∧ r.Contains (opaqueWire m.opaq) := by
  simp only [KeyEx.read, Rd.none, rdNonce, M.bind_ok, M.guard_ok, M.pure_ok, rdU8_ok, rdU16_ok, SummaryHashType.read_ok, rdBytes_ok,
    rdDhe_ok, rdOpaque_ok] at h
  obtain ⟨_, _, ⟨_, h1⟩, hr, _, _, h2, _, _, h3, _, _, h4, _, _, h5, _, _, ⟨h6, h6'⟩, _, _, ⟨h7, h7'⟩, o, _, ⟨h8, h8'⟩, rfl, rfl⟩ := h
  refine ⟨by simpa using hr, h6, h7, h8, ?_⟩
  show r.Contains (opaqueWire o)
  contained

theorem KeyExRsp.read_ok {c : Cc} {r r' : Reader} {m : KeyExRsp} (h : KeyExRsp.read c r = .ok m r') :
    m.WF c ∧ r.Contains (opaqueWire m.opaq) := by
  simp only [KeyExRsp.read, Rd.none, rdNonce, M.bind_ok, M.guard_ok, M.pure_ok, rdU8_ok, rdU16_ok, rdBytes_ok,
    rdDhe_ok, rdOpaque_ok, rdSignature_ok] at h
  obtain ⟨_, _, h1, _, _, h2, _, _, h3, ma, _, h4, _, _, _, h5, hm, _, _, ⟨h6, h6'⟩, _, _, ⟨h7, h7'⟩, _, _, h8, o, _, ⟨h9, h9'⟩,
    _, _, ⟨h10, h10'⟩, _, _, h11, rfl, rfl⟩ := h
  obtain ⟨h8, h8'⟩ := rdOptDigest_ok h8
  obtain ⟨h11, h11'⟩ := rdOptDigest_ok h11
  refine ⟨⟨?_, h6, h7, h8, h9, h10, h11⟩, ?_⟩
  · show ma = 0 ∨ ma = 1 ∨ ma = 2 ∨ ma = 4
    grind
  show r.Contains (opaqueWire o)
  contained

theorem Finish.read_wf {c : Cc} {r r' : Reader} {m : Finish} (h : Finish.read c r = .ok m r') : m.WF c := by
  simp only [Finish.read, Rd.none, M.bind_ok, M.guard_ok, M.pure_ok, rdU8_ok, rdDigest_ok] at h
  obtain ⟨a, _, h1, ha, _, _, h2, _, _, h3, _, _, ⟨h4, h4'⟩, rfl, rfl⟩ := h
  obtain ⟨h3, _⟩ := rdOptSig_ok h3
  refine ⟨?_, h3, h4⟩
  show a ≤ 1
  simp only [gt_iff_lt, UInt8.lt_iff_toNat_lt, UInt8.le_iff_toNat_le] at *; omega

theorem rdFinishRsp_ok {c : Cc} {r r' : Reader} {v : Bytes} (h : rdFinishRsp c r = .ok v r') : OptOk c.inClear c.DigestOk v := by
  simp only [rdFinishRsp, M.bind_ok, M.pure_ok, rdU8_ok] at h
  obtain ⟨_, _, h1, _, _, h2, h3⟩ := h
  exact (rdOptDigest_ok h3).1

theorem rdPskFinish_ok {c : Cc} {r r' : Reader} {v : Bytes} (h : rdPskFinish c r = .ok v r') : c.DigestOk v := by
  simp only [rdPskFinish, M.bind_ok, M.pure_ok, rdU8_ok, rdDigest_ok] at h
  obtain ⟨_, _, h1, _, _, h2, h3⟩ := h
  exact h3.1

theorem PskEx.read_ok {c : Cc} {r r' : Reader} {m : PskEx} (h : PskEx.read c r = .ok m r') :
    m.WF c ∧ r.Contains (putU16 m.hint.length.toUInt16 ++ putU16 m.context.length.toUInt16 ++ putU16 m.opaq.length.toUInt16 ++
      m.hint ++ m.context ++ m.opaq) := by
  simp only [PskEx.read, Rd.none, M.bind_ok, M.guard_ok, M.pure_ok, rdU8_ok, rdU16_ok, SummaryHashType.read_ok, rdBytes_ok] at h
  obtain ⟨_, _, ⟨_, h1⟩, hr, _, _, h2, _, _, h3, _, _, h4, g1, _, _, h5, g2, _, _, h6, g3, a, _, ⟨h7, h7'⟩, b, _, ⟨h8, h8'⟩, d, _,
    ⟨h9, h9'⟩, rfl, rfl⟩ := h
  have hall := ((((h4.trans h5).trans h6).trans h7').trans h8').trans h9'
  refine ⟨⟨by simpa using hr, ?_, ?_, ?_⟩, ?_⟩
  · show a.length ≤ 32
    omega
  · show b.length ≤ 64
    omega
  · show d.length ≤ 1024
    omega
  · show r.Contains (putU16 a.length.toUInt16 ++ putU16 b.length.toUInt16 ++ putU16 d.length.toUInt16 ++ a ++ b ++ d)
    rw [h7, h8, h9]
    simp only [Nat.toUInt16_eq, UInt16.ofNat_toNat]
    contained

theorem PskExRsp.read_ok {c : Cc} {r r' : Reader} {m : PskExRsp} (h : PskExRsp.read c r = .ok m r') :
    m.WF c ∧ r.Contains (putU16 m.context.length.toUInt16 ++ putU16 m.opaq.length.toUInt16 ++ m.summary ++ m.context ++ m.opaq) := by
  simp only [PskExRsp.read, Rd.none, M.bind_ok, M.guard_ok, M.pure_ok, rdU8_ok, rdU16_ok, rdBytes_ok, rdDigest_ok] at h
  obtain ⟨_, _, h1, _, _, h2, _, _, h3, _, _, h4, cl, _, h5, g1, g2, _, _, h6, g3, s, _, h7, b, _, ⟨h8, h8'⟩, d, _,
    ⟨h9, h9'⟩, v, _, ⟨h10, h10'⟩, rfl, rfl⟩ := h
  obtain ⟨h7, h7'⟩ := rdOptDigest_ok h7
  have hall := (((h5.trans h6).trans h7').trans h8').trans h9'
  refine ⟨⟨h7, ?_, ?_, ?_, h10⟩, ?_⟩
  · show b.length ≤ 64
    omega
  · show c.pskNoContext = true ↔ b = []
    have : cl = 0 ↔ b = [] := by
      rw [← List.length_eq_zero_iff, h8, ← UInt16.toNat_inj]; rfl
    rw [← this]
    grind
  · show d.length ≤ 1024
    omega
  · show r.Contains (putU16 b.length.toUInt16 ++ putU16 d.length.toUInt16 ++ s ++ b ++ d)
    rw [h8, h9]
    simp only [Nat.toUInt16_eq, UInt16.ofNat_toNat]
    contained

theorem KeyUpd.read_wf {r r' : Reader} {m : KeyUpd} (h : KeyUpd.read r = .ok m r') : m.op.known = true := by
  simp only [KeyUpd.read, Rd.none, M.bind_ok, M.guard_ok, M.pure_ok] at h
  obtain ⟨o, _, h1, h2, _, _, h3, rfl, _⟩ := h
  simp_all

theorem rdEndSession_ok {r r' : Reader} {a : UInt8} (h : rdEndSession r = .ok a r') : a ≤ 1 := by
  simp only [rdEndSession, Rd.none, M.bind_ok, M.guard_ok, M.pure_ok] at h
  obtain ⟨o, _, h1, h2, _, _, h3, rfl, _⟩ := h
  simp only [gt_iff_lt, UInt8.lt_iff_toNat_lt, UInt8.le_iff_toNat_le] at *; omega

theorem Vendor.read_ok {r r' : Reader} {m : Vendor} (h : Vendor.read r = .ok m r') :
    m.vendorId.length ≤ 255 ∧ m.data.length = min m.length.toNat 4087 ∧
    r.Contains ([m.vendorId.length.toUInt8] ++ m.vendorId) ∧ r.Contains (putU16 m.length ++ m.data) := by
  simp only [Vendor.read, M.bind_ok, M.pure_ok, rdU8_ok, rdU16_ok, rdBytes_ok, RegistryId.read_ok] at h
  obtain ⟨_, _, h1, _, _, h2, _, _, ⟨_, h3⟩, n, _, h4, v, _, ⟨h5, h5'⟩, l, _, h6, d, _, ⟨h7, h7'⟩, rfl, rfl⟩ := h
  have ha := h4.trans h5'
  have hb := h6.trans h7'
  refine ⟨?_, h7, ?_, ?_⟩
  · show v.length ≤ 255
    have := n.toNat_lt; omega
  · show r.Contains ([v.length.toUInt8] ++ v)
    rw [h5]
    simp only [Nat.toUInt8_eq, UInt8.ofNat_toNat]
    contained
  · show r.Contains (putU16 l ++ d)
    contained

theorem ErrorRsp.read_ok {r r' : Reader} {m : ErrorRsp} (h : ErrorRsp.read r = .ok m r') :
    m.code.WF ∧ match m.ext with
      | .none => m.code ≠ .responseNotReady ∧ m.code ≠ .vendorDefined
      | .notReady _ _ _ _ => m.code = .responseNotReady
      | .vendor d => m.code = .vendorDefined ∧ d.length ≤ 32 ∧ r.Contains d := by
  simp only [ErrorRsp.read, M.bind_ok, rdU8_ok, ErrorCode.read_ok] at h
  obtain ⟨k, _, ⟨hk, h1⟩, b, _, h2, h⟩ := h
  split at h
  · simp only [M.bind_ok, M.pure_ok] at h
    obtain ⟨_, _, _, _, _, _, _, _, _, _, _, _, rfl, _⟩ := h
    exact ⟨hk, rfl⟩
  · simp only [M.bind_ok, M.pure_ok] at h
    obtain ⟨d, _, h3, rfl, _⟩ := h
    obtain ⟨h4, h5⟩ := rdUpTo_contains h3
    refine ⟨hk, rfl, h4, ?_⟩
    contained
  · simp only [M.pure_ok] at h
    obtain ⟨rfl, _⟩ := h
    exact ⟨hk, by assumption, by assumption⟩

theorem rdN_contains {α : Type} {x : Rd α} {w : α → Bytes} (hx : ∀ r a r', x r = .ok a r' → r.After (w a) r') {n : Nat}
    {r r' : Reader} {as : List α} (h : rdN n x r = .ok as r') : r.After (as.flatMap w) r' := by
  induction n generalizing r as with
  | zero => simp [rdN] at h; simp [h.1, ← h.2, Reader.After.refl]
  | succ n ih =>
    simp only [rdN, M.bind_ok, M.pure_ok] at h
    obtain ⟨a, t, h1, bs, t2, h2, rfl, rfl⟩ := h
    simpa using (hx _ _ _ h1).trans (ih h2)

theorem VersionRsp.read_contains {r r' : Reader} {m : VersionRsp} (h : VersionRsp.read r = .ok m r') :
    r.Contains ([m.entries.length.toUInt8] ++ m.entries.flatMap VersionEntry.wire) := by
  simp only [VersionRsp.read, Rd.none, M.bind_ok, M.guard_ok, M.pure_ok, rdU8_ok] at h
  obtain ⟨_, _, h1, _, _, h2, _, _, h3, n, _, h4, hn, es, _, hes, rfl, rfl⟩ := h
  have h5 := rdN_contains (w := VersionEntry.wire) (by
    intro r a r' h
    simp only [VersionEntry.read, M.bind_ok, M.pure_ok, rdU8_ok, SpdmVersion.read_ok] at h
    obtain ⟨_, _, h1, v, _, ⟨_, hv⟩, rfl, rfl⟩ := h
    exact h1.trans hv) hes
  have hl := rdN_length hes
  have h6 := h4.trans h5
  show r.Contains ([es.length.toUInt8] ++ es.flatMap VersionEntry.wire)
  rw [hl]
  simp only [Nat.toUInt8_eq, UInt8.ofNat_toNat]
  contained

theorem flatMap_id {α : Type} (l : List (List α)) : l.flatMap (fun d => d) = l.flatten := by
  induction l <;> simp_all

theorem Digests.read_contains {c : Cc} {r r' : Reader} {m : Digests} (h : Digests.read c r = .ok m r') :
    r.Contains ([m.slotMask] ++ m.digests.flatten) := by
  simp only [Digests.read, M.bind_ok, M.pure_ok, rdU8_ok] at h
  obtain ⟨_, _, h1, s, _, h2, es, _, hes, rfl, rfl⟩ := h
  have h5 := rdN_contains (w := fun d => d) (fun r a r' h => (rdDigest_ok.mp h).2) hes
  rw [flatMap_id] at h5
  have h6 := h2.trans h5
  show r.Contains ([s] ++ es.flatten)
  contained

end Verif
