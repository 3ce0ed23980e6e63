/-
C01, C02, C05, C06, C07 for complete SPDM messages.
-/
import Verif.Props.Codec
import Verif.Props.Layout
import Verif.Msg.Bounds

namespace Verif.Props
open Verif

/-! ## A typical negotiated state, used to show that hypotheses are met -/

/-- Version 1.2, SHA-384, ECDSA P-384, secp384r1, AES-256-GCM, DMTF measurements hashed with SHA-384. -/
def sampleNeg : Neg :=
  { version := .v12, reqCaps := 0x62C6, rspCaps := 0x62F7, measSpec := 1, measHash := 4, baseHash := 2, baseAsym := 0x80,
    dhe := 0x10, aead := 2, keySchedule := 1, opaqueSupport := 2 }
/-- Codec context over `sampleNeg`. -/
def sampleCc : Cc := { neg := sampleNeg, needSummary := true, needSig := true }

/-! ## C01: message decoders -/

/-- **C01**: decoding a whole SPDM message, of any kind, from any buffer, under any negotiated parameters for which the
algorithm sizes that message needs are defined, does not panic, consumes no more than the buffer, and leaves exactly the
unread suffix. -/
theorem C01_message_decoders (c : Cc) (buf : Bytes) (hs : ∀ k, buf[1]?.map ReqRespCode.ofCode = some k → c.SizesFor k) :
    Msg.read c (Reader.init buf) ≠ .panic ∧
    ∀ m r', Msg.read c (Reader.init buf) = .ok m r' → r'.used ≤ buf.length ∧ r'.rest = buf.drop r'.used := by
  match buf with
  | [] =>
    have e : Msg.read c (Reader.init []) = .err () ⟨[], 0⟩ := rfl
    simp [e]
  | [a] =>
    have e : Msg.read c (Reader.init [a]) = .err () ⟨[], 1⟩ := rfl
    simp [e]
  | a :: b :: t =>
    have hg := Payload.read_good (hs (ReqRespCode.ofCode b) (by simp))
    have e : Msg.read c (Reader.init (a :: b :: t)) =
        (do let p ← Payload.read c (ReqRespCode.ofCode b); pure (⟨⟨SpdmVersion.ofCode a, ReqRespCode.ofCode b⟩, p⟩ : Msg) : Rd Msg) ⟨t, 2⟩ := by
      simp [Msg.read, Header.read, Reader.init]
    rw [e]
    have hg2 : Rd.Good (do let p ← Payload.read c (ReqRespCode.ofCode b); pure (⟨⟨SpdmVersion.ofCode a, ReqRespCode.ofCode b⟩, p⟩ : Msg) : Rd Msg) :=
      Rd.Good.bind hg fun _ => Rd.Good.pure _
    refine ⟨hg2.ne_panic _, ?_⟩
    intro m r' h
    obtain ⟨bs, h1, h2⟩ := hg2.after h
    simp only at h1 h2
    subst h1
    rw [h2]
    refine ⟨by simp; omega, ?_⟩
    rw [Nat.add_comm]
    simp

/-- **C01**: vendor-defined messages are decoded by their own function, for every buffer and every state. -/
theorem C01_vendor_decoder (buf : Bytes) :
    Vendor.read (Reader.init buf) ≠ .panic ∧
    ∀ m r', Vendor.read (Reader.init buf) = .ok m r' → r'.used ≤ buf.length ∧ r'.rest = buf.drop r'.used :=
  C01_good_decoder _ Vendor.read_good buf

/-- The hypothesis of `C01_message_decoders` holds for every code once the algorithms are selected. -/
example : ∀ k, sampleCc.SizesFor k := by
  intro k; cases k <;> simp [Cc.SizesFor] <;> decide

/-- **C01 is violated** without that hypothesis: before algorithms are negotiated a four-byte DIGESTS message panics the
decoder (`get_size` of an empty hash selection, protocol/algo.rs:133-141 reached from message/digest.rs:78). -/
theorem C01_unnegotiated_decode_panics_violated :
    Msg.read { neg := { version := .v12 } } (Reader.init [0x12, 0x01, 0x00, 0x01]) = .panic := by decide

/-! ## C02, C05: encoders -/

/-- **C02 and C05**: for every message whose fields have the sizes the negotiated parameters prescribe, every destination
buffer and every previous content, `spdm_encode` either appends exactly the bytes of the specified layout and returns
their number, or reports an error having written only a prefix of it, never past the end. -/
theorem C05_message_layout (c : Cc) (m : Msg) (h : m.payload.WF c) : EncodesTo (m.encode c) (Spec.message c m) := by
  rw [Spec.message_wire h]
  exact EncodesTo_of_Writes (Msg.encode_writes h)

/-- **C02** restated for messages without reference to the layout. -/
theorem C02_messages (c : Cc) (m : Msg) (h : m.payload.WF c) : ∃ image, EncodesTo (m.encode c) image :=
  ⟨_, C05_message_layout c m h⟩

/-- **C05**: every message starts with version, code, param1, param2. -/
theorem C05_header_first (c : Cc) (m : Msg) :
    ∃ p1 p2 body, Spec.message c m = [m.header.version.get, m.header.code.get, p1, p2] ++ body := by
  have key : ∀ a b : Nat, ∀ fs, ∃ p1 p2 body, Spec.render ([.le 1 m.header.version.get.toNat, .le 1 m.header.code.get.toNat] ++
      (.le 1 a :: .le 1 b :: fs)) = [m.header.version.get, m.header.code.get, p1, p2] ++ body := by
    intro a b fs
    refine ⟨a.toUInt8, b.toUInt8, Spec.render fs, ?_⟩
    simp [Spec.render_cons, Spec.le1']
  unfold Spec.message
  cases hp : m.payload <;> simp only [Spec.layout, Spec.bare, List.cons_append, List.nil_append] <;> exact key _ _ _

/-- **C05**: fields that the negotiated options do not ask for are absent. -/
theorem C05_optional_fields_absent (c : Cc) (p : Payload) (h : p.WF c) :
    ∀ q ∈ Spec.optionalFields c p, q.2 ≠ [] → q.1 := Spec.optional_absent h

/-- The bytes of a CHALLENGE message, spelled out. -/
example : Spec.message sampleCc ⟨⟨.v12, .reqChallenge⟩, .challenge ⟨1, .all, List.replicate 32 7⟩⟩ =
    [0x12, 0x83, 1, 0xFF] ++ List.replicate 32 7 := by decide
/-- A NEGOTIATE_ALGORITHMS message: Length covers the whole message. -/
example : Spec.message sampleCc ⟨⟨.v12, .reqNegotiateAlgorithms⟩, .negAlgs ⟨1, 2, 0x80, 2, [⟨.dhe, .dhe 0x10⟩]⟩⟩ =
    [0x12, 0xE3, 1, 0, 36, 0, 1, 2, 0x80, 0, 0, 0, 2, 0, 0, 0] ++ List.replicate 12 0 ++ [0, 0, 0, 0, 2, 0x20, 0x10, 0] := by decide

/-- **C05 is violated** by a payload that carries general parameters: they are written as zero
(message/mod.rs:153-162), so no encoding distinguishes them. -/
theorem C05_general_parameters_lost_violated (c : Cc) (p1 p2 : UInt8) :
    EncodesTo ((Payload.general p1 p2).encode c) [0, 0] := by
  apply EncodesTo_of_Writes
  exact Payload.encode_writes (p := .general 0 0) (c := c) ⟨rfl, rfl⟩

/-! ## C06: round trip -/

/-- **C06**: a message that is well-formed for the negotiated parameters and carries the code of its payload is recovered
from its specified layout, whatever bytes follow, which are left unread. -/
theorem C06_message_round_trip (c : Cc) (m : Msg) (hv : m.header.version.WF) (hk : m.payload.code? = some m.header.code)
    (h : m.payload.WF c) (rest : Bytes) :
    Msg.read c (Reader.init (Spec.message c m ++ rest)) = .ok m ⟨rest, (Spec.message c m).length⟩ := by
  rw [Spec.message_wire h]
  simpa [Reader.init] using Msg.read_rt hv hk h rest 0

/-- **C06**: what the encoder put in a buffer is what the decoder gets back. -/
theorem C06_encode_then_decode (c : Cc) (m : Msg) (hv : m.header.version.WF) (hk : m.payload.code? = some m.header.code)
    (h : m.payload.WF c) (cap : Nat) (n : Nat) (w : Writer) (he : m.encode c ⟨cap, []⟩ = .ok n w) (rest : Bytes) :
    n = w.out.length ∧ Msg.read c (Reader.init (w.out ++ rest)) = .ok m ⟨rest, n⟩ := by
  rcases C05_message_layout c m h cap [] (Nat.zero_le _) with ⟨_, e⟩ | ⟨_, p, _, _, e⟩
  · rw [e] at he
    cases he
    exact ⟨by simp, by simpa using C06_message_round_trip c m hv hk h rest⟩
  · rw [e] at he; cases he

/-- **C06** for vendor-defined messages (their own decoder). -/
theorem C06_vendor_round_trip (c : Cc) (m : Vendor) (h : m.WF) (rest : Bytes) :
    Vendor.read (Reader.init (Spec.render (Spec.layout c (.vendorReq m)) ++ rest)) =
      .ok m ⟨rest, (Spec.render (Spec.layout c (.vendorReq m))).length⟩ := by
  rw [Spec.layout_wire (p := .vendorReq m) (c := c) h]
  simpa [Reader.init, Payload.wire] using Vendor.read_rt h rest 0

/-- **C06**, consequence: two well-formed messages with the same bytes are the same message. -/
theorem C06_injective (c : Cc) (m m' : Msg) (hv : m.header.version.WF) (hv' : m'.header.version.WF)
    (hk : m.payload.code? = some m.header.code) (hk' : m'.payload.code? = some m'.header.code)
    (h : m.payload.WF c) (h' : m'.payload.WF c) (e : Spec.message c m = Spec.message c m') : m = m' := by
  have a := C06_message_round_trip c m hv hk h []
  have b := C06_message_round_trip c m' hv' hk' h' []
  rw [e, b] at a
  simpa using a.symm

/-- **C06**: no message is a proper prefix of another: the decoder always knows where a message ends. -/
theorem C06_prefix_free (c : Cc) (m m' : Msg) (hv : m.header.version.WF) (hv' : m'.header.version.WF)
    (hk : m.payload.code? = some m.header.code) (hk' : m'.payload.code? = some m'.header.code)
    (h : m.payload.WF c) (h' : m'.payload.WF c) (t t' : Bytes)
    (e : Spec.message c m ++ t = Spec.message c m' ++ t') : m = m' ∧ t = t' := by
  have a := C06_message_round_trip c m hv hk h t
  have b := C06_message_round_trip c m' hv' hk' h' t'
  rw [e, b] at a
  simp only [Out.ok.injEq, Reader.mk.injEq] at a
  exact ⟨a.1.symm, a.2.1.symm⟩

/-- Well-formed messages of several kinds. -/
example : (Payload.challenge ⟨1, .all, List.replicate 32 7⟩).WF sampleCc ∧
    (Payload.negAlgs ⟨1, 2, 0x80, 2, [⟨.dhe, .dhe 0x10⟩]⟩).WF sampleCc ∧
    (Payload.digests ⟨0b101, [List.replicate 48 1, List.replicate 48 2]⟩).WF sampleCc ∧
    (Payload.cert ⟨0, 3, 100, [1, 2, 3]⟩).WF sampleCc ∧
    (Payload.finish ⟨0, 0, [], List.replicate 48 9⟩).WF sampleCc ∧
    (Payload.keyEx ⟨.all, 0, 0xFFFE, 1, List.replicate 32 5, List.replicate 96 6, [1, 0, 0, 0]⟩).WF sampleCc ∧
    (Payload.keyExRsp ⟨0, 0xFFFD, 0, 0, List.replicate 32 5, List.replicate 96 6, List.replicate 48 4, [], List.replicate 96 8,
      List.replicate 48 9⟩).WF sampleCc := by
  refine ⟨?_, ?_, ?_, ?_, ?_, ?_, ?_⟩ <;> simp [Payload.WF, Challenge.WF, NegAlgsWF, AlgListWF, AlgStruct.WF, Digests.WF, CertRsp.WF,
    Finish.WF, KeyEx.WF, KeyExRsp.WF, OptOk, Cc.DigestOk, Cc.SigOk, Cc.DheOk] <;> decide

/-! ## C07: lengths declared by the peer -/

private theorem opaque_ok {r : Reader} {d : Bytes} (h : d.length ≤ 1024) (hc : r.Contains (opaqueWire d)) : (opaqueBlob d).Ok r :=
  ⟨h, hc, by simp only [opaqueBlob]; omega⟩

private theorem contains_cut {r : Reader} {a b : Bytes} (h : r.Contains (a ++ b)) : r.Contains a := by
  obtain ⟨p, q, h⟩ := h
  exact ⟨p, b ++ q, by simp [h]⟩

private theorem slotCount_le (m : UInt8) : slotCount m ≤ 8 := by
  unfold slotCount
  exact Nat.le_trans (List.length_filter_le _ _) (by simp)

private theorem digest_le {c : Cc} {d : Bytes} (h : c.DigestOk d) : d.length ≤ 64 := by
  have : ∀ n, c.hashSize? = some n → n ≤ 64 := by
    intro n hn
    simp only [Cc.hashSize?, BaseHash.size?] at hn
    grind
  exact this _ h

private theorem flatten_le {l : List Bytes} {k : Nat} (h : ∀ d ∈ l, d.length ≤ k) : l.flatten.length ≤ l.length * k := by
  induction l with
  | nil => simp
  | cons a l ih =>
    have h1 := h a (by simp)
    have h2 := ih fun d hd => h d (by simp [hd])
    simp only [List.flatten_cons, List.length_append, List.length_cons]
    rw [Nat.succ_mul]; omega

private theorem versionEntries_length (l : List VersionEntry) : (l.flatMap VersionEntry.wire).length = 2 * l.length := by
  induction l with
  | nil => rfl
  | cons a l ih => simp [VersionEntry.wire, ih] ; omega

/-- **C07**: in every message the decoder accepts, every variable-length field fits the fixed storage for it and was really
received: it lies in the input right behind its length field, and has the declared length (cut at the storage size: see
`C07_declared_lengths_exact` and `C07_certificate_portion_violated`). -/
theorem C07_lengths_bounded (c : Cc) (k : ReqRespCode) (buf : Bytes) (p : Payload) (r' : Reader)
    (h : Payload.read c k (Reader.init buf) = .ok p r') : ∀ b ∈ p.blobs, b.Ok (Reader.init buf) := by
  generalize Reader.init buf = r at *
  unfold Payload.read at h
  split at h <;> simp only [M.map_ok, Rd.none] at h
  case h_1 =>
    obtain ⟨m, h, rfl⟩ := h
    have hb := VersionRsp.read_bounds h
    have hc := VersionRsp.read_contains h
    simp only [Payload.blobs, List.mem_singleton, forall_eq]
    have hl := versionEntries_length m.entries
    exact ⟨by simp only; omega, hc, by simp only; omega⟩
  case h_7 =>
    obtain ⟨m, h, rfl⟩ := h
    have hw := Digests.read_wf h
    simp only [Payload.blobs, List.mem_singleton, forall_eq]
    have h1 := flatten_le fun d hd => digest_le (hw.2 d hd)
    have h2 := slotCount_le m.slotMask
    have h3 := hw.1
    exact ⟨by simp only; omega, Digests.read_contains h, by simp only; omega⟩
  case h_9 =>
    obtain ⟨m, h, rfl⟩ := h
    obtain ⟨h1, h2⟩ := CertRsp.read_ok h
    simp only [Payload.blobs, List.mem_singleton, forall_eq]
    exact ⟨by simp only; omega, h2, h1⟩
  case h_11 =>
    obtain ⟨m, h, rfl⟩ := h
    obtain ⟨h1, h2⟩ := ChallengeAuth.read_ok h
    simp only [Payload.blobs, List.mem_singleton, forall_eq]
    exact opaque_ok h1.2.2.2.2.2.1 h2
  case h_13 =>
    obtain ⟨m, h, rfl⟩ := h
    obtain ⟨_, h1, _, h2, _, h3, h4⟩ := Meas.read_ok h
    simp only [Payload.blobs, List.mem_cons, List.not_mem_nil, or_false, forall_eq_or_imp, forall_eq]
    exact ⟨⟨h1, h3, by simp only; omega⟩, opaque_ok h2 h4⟩
  case h_15 =>
    obtain ⟨m, h, rfl⟩ := h
    obtain ⟨h1, h2⟩ := KeyExRsp.read_ok h
    simp only [Payload.blobs, List.mem_singleton, forall_eq]
    exact opaque_ok h1.2.2.2.2.1 h2
  case h_16 =>
    obtain ⟨m, h, rfl⟩ := h
    obtain ⟨_, _, _, h1, h2⟩ := KeyEx.read_ok h
    simp only [Payload.blobs, List.mem_singleton, forall_eq]
    exact opaque_ok h1 h2
  case h_19 =>
    obtain ⟨m, h, rfl⟩ := h
    obtain ⟨h1, h2⟩ := PskExRsp.read_ok h
    simp only [Payload.blobs, List.mem_cons, List.not_mem_nil, or_false, forall_eq_or_imp, forall_eq]
    exact ⟨⟨h1.2.1, contains_cut h2, by simp only; have := h1.2.1; omega⟩,
      ⟨h1.2.2.2.1, h2, by simp only; have := h1.2.2.2.1; omega⟩⟩
  case h_20 =>
    obtain ⟨m, h, rfl⟩ := h
    obtain ⟨h1, h2⟩ := PskEx.read_ok h
    simp only [Payload.blobs, List.mem_cons, List.not_mem_nil, or_false, forall_eq_or_imp, forall_eq]
    have g1 := h1.2.1; have g2 := h1.2.2.1; have g3 := h1.2.2.2
    exact ⟨⟨g1, contains_cut (contains_cut h2), by simp only; omega⟩, ⟨g2, contains_cut h2, by simp only; omega⟩,
      ⟨g3, h2, by simp only; omega⟩⟩
  case h_29 =>
    obtain ⟨m, h, rfl⟩ := h
    obtain ⟨_, h1⟩ := ErrorRsp.read_ok h
    simp only [Payload.blobs]
    split at h1 <;> rename_i heq <;> simp only [heq, List.not_mem_nil, false_implies, implies_true, List.mem_singleton, forall_eq]
    exact ⟨h1.2.1, h1.2.2, by simp only; omega⟩
  all_goals first
    | (obtain ⟨_, _, rfl⟩ := h; simp [Payload.blobs])
    | (cases h)

/-- **C07** for vendor-defined messages. -/
theorem C07_vendor_lengths_bounded (buf : Bytes) (m : Vendor) (r' : Reader) (h : Vendor.read (Reader.init buf) = .ok m r') :
    ∀ b ∈ (Payload.vendorReq m).blobs, b.Ok (Reader.init buf) := by
  obtain ⟨h1, h2, h3, h4⟩ := Vendor.read_ok h
  simp only [Payload.blobs, List.mem_cons, List.not_mem_nil, or_false, forall_eq_or_imp, forall_eq]
  exact ⟨⟨h1, h3, by simp only; omega⟩, ⟨by simp only; omega, h4, h2⟩⟩

/-- **C07**: an accepted field is never larger than what arrived. -/
theorem C07_never_more_than_received (c : Cc) (k : ReqRespCode) (buf : Bytes) (p : Payload) (r' : Reader)
    (h : Payload.read c k (Reader.init buf) = .ok p r') : ∀ b ∈ p.blobs, b.data.length ≤ buf.length := by
  intro b hb
  have := (C07_lengths_bounded c k buf p r' h b hb).2.1.length_le
  simp [Reader.left, Reader.init] at this
  omega

/-- **C07**: apart from CERTIFICATE (and vendor-defined messages), the declared length is the length of the data, so a
declared length above the storage is refused. -/
theorem C07_declared_lengths_exact (c : Cc) (k : ReqRespCode) (buf : Bytes) (p : Payload) (r' : Reader)
    (h : Payload.read c k (Reader.init buf) = .ok p r') (hk : k ≠ .rspCertificate) :
    ∀ b ∈ p.blobs, b.declared ≤ b.storage ∧ b.declared = b.data.length := by
  intro b hb
  have hc := Payload.read_code h
  obtain ⟨h1, -, h2⟩ := C07_lengths_bounded c k buf p r' h b hb
  suffices b.declared = b.data.length by omega
  cases p <;> simp only [Payload.code?, Option.some.injEq, reduceCtorEq] at hc <;>
    simp only [Payload.blobs, opaqueBlob, List.not_mem_nil, List.mem_cons, or_false] at hb
  case version m => subst hb; exact (versionEntries_length _).symm
  case cert m => exact absurd hc.symm hk
  case error m =>
    split at hb <;> simp only [List.not_mem_nil, List.mem_cons, or_false] at hb
    subst hb; rfl
  all_goals first
    | (subst hb; rfl)
    | (rcases hb with rfl | rfl <;> rfl)
    | (rcases hb with rfl | rfl | rfl <;> rfl)

/-- **C07 is violated** by CERTIFICATE: a declared portion of 65535 bytes is accepted from a 520-byte message, with 512
bytes of data behind it (message/certificate.rs:107-118); consumers must not trust the declared length. -/
theorem C07_certificate_portion_violated (c : Cc) (d : Bytes) (hd : d.length = 512) :
    Payload.read c .rspCertificate (Reader.init ([0, 0, 0xFF, 0xFF, 0, 0] ++ d)) = .ok (.cert ⟨0, 0xFFFF, 0, d⟩) ⟨[], 518⟩ := by
  have e : rdBytes 512 ⟨d, 6⟩ = .ok d ⟨[], 518⟩ := by simpa using rdBytes_append' 512 d [] 6 hd
  have e16 : decU16 0xFF 0xFF = 0xFFFF := by decide
  simp [Payload.read, CertRsp.read, Reader.init, e16, e, show decU16 0 0 = 0 from rfl]

/-- **C07 is violated** by vendor-defined messages in the same way: 65535 declared, 4087 stored. -/
theorem C07_vendor_length_violated (d : Bytes) (hd : d.length = 4087) :
    Vendor.read (Reader.init ([0, 0, 0, 0, 0, 0xFF, 0xFF] ++ d)) = .ok ⟨.dmtf, [], 0xFFFF, d⟩ ⟨[], 4094⟩ := by
  have e : rdBytes 4087 ⟨d, 7⟩ = .ok d ⟨[], 4094⟩ := by simpa using rdBytes_append' 4087 d [] 7 hd
  have e16 : decU16 0xFF 0xFF = 0xFFFF := by decide
  have e2 : RegistryId.read ⟨0 :: 0 :: 0 :: 255 :: 255 :: d, 2⟩ = .ok .dmtf ⟨0 :: 255 :: 255 :: d, 4⟩ := rfl
  have e0 : ∀ r : Reader, rdBytes 0 r = .ok [] r := fun _ => rfl
  simp [Vendor.read, Reader.init, e16, e, e2, e0]

/-- An accepted message with three variable-length fields. -/
example : (Payload.read { neg := { version := .v12 } } .reqPskExchange
    (Reader.init [0, 0, 0xFE, 0xFF, 1, 0, 2, 0, 0, 0, 9, 8, 7])) =
      .ok (.pskEx ⟨.none, 0xFFFE, [9], [8, 7], []⟩) ⟨[], 13⟩ := by decide

end Verif.Props
