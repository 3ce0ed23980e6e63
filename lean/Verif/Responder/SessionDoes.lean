/-
GET_DIGESTS and GET_CERTIFICATE inside a session: what is written, and that nothing but the transcripts is reset.
-/
import Verif.Responder.OnlyM

namespace Verif
namespace Rsp

variable {e : Env}

theorem reset_in (k : ReqRespCode) (i : UInt32) (c : Ctx) : (Ctx.resetBuffers k (some i) c).prov = c.prov ∧ (Ctx.resetBuffers k (some i) c).neg = c.neg := by
  unfold Ctx.resetBuffers Ctx.resetM Ctx.resetM1M2
  dsimp only
  split <;> split <;> (try split) <;> exact ⟨rfl, rfl⟩

theorem does_appendedPlain {i : UInt32} {b : Bytes} (c : Ctx) : Does (orAppended b (appendBPlain e (some i) b)) c (fun _ c' => c' = c) := by
  show c = c
  rfl
theorem does_notedPlain {i : UInt32} {b : Bytes} (c : Ctx) : Does (orUnspecified (appendBPlain e (some i) b)) c (fun _ c' => c' = c) := by
  show c = c
  rfl

theorem digest_does_in (i : UInt32) (bytes : Bytes) (c : Ctx) : Does (digestRsp e (some i) bytes) c (fun b c' =>
    ConnState.negotiated.code ≤ c.rt.state.code ∧ ∃ v k p1 p2 t hs, bytes = v :: k :: p1 :: p2 :: t ∧ SpdmVersion.ofCode v = c.neg.version ∧
      c.cc.hashSize? = some hs ∧ patchDigests e c (List.finRange 8) (digestFrame v c.prov hs) = .ok b ∧
      c' = Ctx.resetBuffers .reqGetDigests (some i) c) := by
  unfold digestRsp
  refine (does_ready c).bind ?_
  rintro _ _ ⟨rfl, hready⟩
  refine (does_version bytes _).bind ?_
  rintro r c1 ⟨rfl, v, k, t, rfl, hv, rfl⟩
  refine (does_modify _ _).bind ?_
  rintro _ c2 rfl
  obtain ⟨q3, q5⟩ := reset_in .reqGetDigests i c1
  refine (does_read _ _ _ _).bind ?_
  rintro ⟨m, req⟩ c3 ⟨rfl, r', hr, hreq⟩
  obtain ⟨p1, p2, t, rfl, rfl⟩ := noParams_read hr
  dsimp only
  refine (does_notedPlain _).bind ?_
  rintro _ c4 rfl
  refine (does_get _).bind ?_
  rintro _ c5 ⟨rfl, rfl⟩
  refine (does_unwrap _ _).bind ?_
  rintro hs c6 ⟨hhs, rfl⟩
  generalize hc : Ctx.resetBuffers .reqGetDigests (some i) c1 = c7 at *
  have hneg : c7.neg = c1.neg := q5
  have hprov : c7.prov = c1.prov := q3
  have hhs1 : c1.cc.hashSize? = some hs := by rw [← hhs]; unfold Cc.hashSize? Ctx.cc; rw [hneg]
  have hvg : c7.neg.version.get = v := by rw [hneg, ← hv]; simp
  have hcount : slotCount (slotMask c7.prov) ≤ 8 := by
    have key : ∀ n : Fin 256, slotCount (UInt8.ofNat n.val) ≤ 8 := by set_option maxRecDepth 20000 in decide
    have := key ⟨(slotMask c7.prov).toNat, (slotMask c7.prov).toNat_lt⟩
    simpa using this
  have hw : Writes (Digests.encode c7.cc ⟨slotMask c7.prov, List.replicate 8 (List.replicate hs 0xff)⟩)
      ([0] ++ [slotMask c7.prov] ++ List.replicate (slotCount (slotMask c7.prov) * hs) 0xff) := by
    have hd : Writes (encN (encDigest c7.cc) ((List.replicate 8 (List.replicate hs (0xff : UInt8))).take (slotCount (slotMask c7.prov))))
        (((List.replicate 8 (List.replicate hs (0xff : UInt8))).take (slotCount (slotMask c7.prov))).flatMap id) :=
      Writes.repeat _ fun d hd => encDigest_writes (by
        have := List.eq_of_mem_replicate (List.mem_of_mem_take hd)
        unfold Cc.DigestOk; rw [hhs, this]; simp)
    unfold Digests.encode
    apply Writes.cast
    · wr
    simp only [List.take_replicate, Nat.min_eq_left hcount]
    have : ∀ n, (List.replicate n (List.replicate hs (0xff : UInt8))).flatMap id = List.replicate (n * hs) 0xff := by
      intro n
      induction n with
      | zero => simp
      | succ n ih => rw [List.replicate_succ, List.flatMap_cons, ih, Nat.succ_mul, Nat.add_comm, ← List.replicate_append_replicate]; rfl
    simp [this]
  refine (does_encode (p := .digests _) hw ?_).bind ?_
  · have := hashSize_le hhs
    have := Nat.mul_le_mul hcount this
    simp [msgSize]; omega
  rintro rsp c8 ⟨rfl, rfl⟩
  refine (does_liftH _ _ _).bind ?_
  rintro b c9 ⟨hp, rfl⟩
  refine (does_appendedPlain _).bind ?_
  rintro _ c10 rfl
  refine (does_pure _ _).mono ?_
  rintro _ _ ⟨rfl, rfl⟩
  refine ⟨hready, v, k, p1, p2, t, hs, rfl, hv, hhs1, ?_, rfl⟩
  rw [patchDigests_congr hprov hneg] at hp
  rw [← hp]
  congr 1
  have h01 : ReqRespCode.rspDigests.get = 0x01 := rfl
  simp [digestFrame, hvg, hprov, h01]

theorem certificate_does_in (i : UInt32) (bytes : Bytes) (c : Ctx) (hsz : ∀ i ch, c.prov.chain i = some ch → ch.length < 65536) :
    Does (certificateRsp e (some i) bytes) c (fun b c' =>
    ConnState.negotiated.code ≤ c.rt.state.code ∧ ∃ v k p off len t chain, bytes = [v, k, 0, p] ++ putU16 off ++ putU16 len ++ t ∧
      SpdmVersion.ofCode v = c.neg.version ∧ c.prov.chain 0 = some chain ∧ off.toNat ≤ chain.length ∧ b = Props.certMessage v chain off.toNat len.toNat ∧
      c' = Ctx.resetBuffers .reqGetCertificate (some i) c) := by
  unfold certificateRsp
  refine (does_ready c).bind ?_
  rintro _ _ ⟨rfl, hready⟩
  refine (does_version bytes _).bind ?_
  rintro r c1 ⟨rfl, v, k, t, rfl, hv, rfl⟩
  refine (does_modify _ _).bind ?_
  rintro _ c2 rfl
  obtain ⟨q3, q5⟩ := reset_in .reqGetCertificate i c1
  refine (does_read _ _ _ _).bind ?_
  rintro ⟨m, req⟩ c3 ⟨rfl, r', hr, hreq⟩
  dsimp only at hr hreq ⊢
  by_cases hslot : m.slot ≠ 0
  · rw [if_pos hslot]; exact rfl
  rw [if_neg hslot]
  have hslot : m.slot = 0 := Decidable.not_not.1 hslot
  obtain ⟨p, ht, hu⟩ : ∃ p, t = [0, p] ++ putU16 m.offset ++ putU16 m.length ++ r'.rest ∧ r'.used = 8 := by
    unfold GetCert.read at hr
    obtain ⟨slot, r1, h1, h2⟩ := M.bind_ok.1 hr
    obtain ⟨p, r2, h3, h4⟩ := M.bind_ok.1 h2
    obtain ⟨off, r3, h5, h6⟩ := M.bind_ok.1 h4
    obtain ⟨len, r4, h7, h8⟩ := M.bind_ok.1 h6
    cases h8
    rw [rdU8_ok] at h1 h3
    rw [rdU16_ok] at h5 h7
    obtain ⟨k1, k2⟩ := ((h1.trans h3).trans h5).trans h7
    dsimp only at hslot
    subst hslot
    refine ⟨p, by simpa using k1, ?_⟩
    simpa [putU16] using k2
  obtain ⟨slot, off, len⟩ := m
  dsimp only at hslot ht
  subst hslot ht
  refine (does_notedPlain _).bind ?_
  rintro _ c4 rfl
  refine (does_get _).bind ?_
  rintro _ c5 ⟨rfl, rfl⟩
  refine (does_ofOption _ _ _ _).bind ?_
  rintro chain c6 ⟨hch0, rfl⟩
  have hch : c1.prov.chain 0 = some chain := by
    have : localChain (Ctx.resetBuffers .reqGetCertificate (some i) c1) 0 = c1.prov.chain 0 := by
      unfold localChain Ctx.slot?
      rw [q3]; rfl
    rw [← this]; exact hch0
  refine (does_ofOption _ _ _ _).bind ?_
  rintro ⟨portion, remainder⟩ c7 ⟨hp, rfl⟩
  generalize hc : Ctx.resetBuffers .reqGetCertificate (some i) c1 = c8 at *
  have hvg : c8.neg.version.get = v := by rw [q5, ← hv]; simp
  have hlen := hsz 0 chain hch
  have hszc : (chain.length.toUInt16).toNat = chain.length := UInt16.toNat_ofNat_of_lt' hlen
  rw [Props.certPortion_spec, hszc] at hp
  by_cases hoff : chain.length < off.toNat
  · rw [if_pos hoff] at hp; cases hp
  rw [if_neg hoff] at hp
  have hp := Option.some.inj hp
  obtain ⟨rfl, rfl⟩ := Prod.mk.inj hp
  have hlt : Props.portionLen chain.length off.toNat len.toNat ≤ 512 ∧ Props.portionLen chain.length off.toNat len.toNat ≤ chain.length - off.toNat := by
    unfold Props.portionLen; omega
  have hpn : (UInt16.ofNat (Props.portionLen chain.length off.toNat len.toNat)).toNat = Props.portionLen chain.length off.toNat len.toNat :=
    UInt16.toNat_ofNat_of_lt' (by show _ < 65536; omega)
  have hwf : CertRsp.WF ⟨0, UInt16.ofNat (Props.portionLen chain.length off.toNat len.toNat),
      UInt16.ofNat (chain.length - off.toNat - Props.portionLen chain.length off.toNat len.toNat),
      (chain.drop off.toNat).take (UInt16.ofNat (Props.portionLen chain.length off.toNat len.toNat)).toNat⟩ := by
    constructor
    · simp only [hpn, List.length_take, List.length_drop]; omega
    · simp only [hpn, List.length_take, List.length_drop]; omega
  refine (does_eq (Props.cert_written _ _ hwf)).bind ?_
  rintro rsp c9 ⟨rfl, rfl⟩
  have hb : c9.neg.version.get :: 0x02 :: CertRsp.wire ⟨0, UInt16.ofNat (Props.portionLen chain.length off.toNat len.toNat),
      UInt16.ofNat (chain.length - off.toNat - Props.portionLen chain.length off.toNat len.toNat),
      (chain.drop off.toNat).take (UInt16.ofNat (Props.portionLen chain.length off.toNat len.toNat)).toNat⟩ = Props.certMessage v chain off.toNat len.toNat := by
    rw [hvg, hpn]; simp [CertRsp.wire, Props.certMessage]
  rw [hb]
  refine (does_appendedPlain _).bind ?_
  rintro _ c10 rfl
  refine (does_pure _ _).mono ?_
  rintro _ _ ⟨rfl, rfl⟩
  exact ⟨hready, v, k, p, off, len, r'.rest, chain, by simp, hv, hch, by omega, rfl, rfl⟩

/-- the session after a request other than GET_MEASUREMENTS, up to what the request itself does. -/
theorem reset_session {k : ReqRespCode} (hk : k ≠ .reqGetMeasurements) {i : UInt32} {c : Ctx} {s : Session} (hs : c.session? i = some s) :
    (Ctx.resetBuffers k (some i) c).session? i = some { s with l1l2 := none } := by
  rw [resetBuffers_session _ _ _ hk, hs]; rfl

end Rsp
end Verif
