/-
C30: certificate chains transfer completely and correctly.
-/
import Verif.Responder.Exact
import Verif.Props.Table

namespace Verif.Props
open Verif.Rsp

variable {e : Env}

/-! ### Specification -/

/-- how many bytes a responder returns for a request of `len` bytes at `off` of a chain of `size` bytes. -/
def portionLen (size off len : Nat) : Nat := min (min len 512) (size - off)

/-- the CERTIFICATE message for slot 0: version, code 0x02, slot, reserved, portion length, remainder length, portion. -/
def certMessage (version : UInt8) (chain : Bytes) (off len : Nat) : Bytes :=
  let n := portionLen chain.length off len
  [version, 0x02, 0, 0] ++ putU16 (UInt16.ofNat n) ++ putU16 (UInt16.ofNat (chain.length - off - n)) ++ (chain.drop off).take n

/-- the GET_CERTIFICATE message for slot 0. -/
def certRequest (version p : UInt8) (off len : UInt16) : Bytes := [version, 0x82, 0, p] ++ putU16 off ++ putU16 len

/-! ### One response -/

theorem u16_sub_toNat {a b : UInt16} (h : b ≤ a) : (a - b).toNat = a.toNat - b.toNat := UInt16.toNat_sub_of_le _ _ h

theorem certPortion_spec {size off len : UInt16} : certPortion size off len =
    if size.toNat < off.toNat then none
    else some (UInt16.ofNat (portionLen size.toNat off.toNat len.toNat), UInt16.ofNat (size.toNat - off.toNat - portionLen size.toNat off.toNat len.toNat)) := by
  unfold certPortion
  dsimp only
  have hsz := size.toNat_lt
  have ho := off.toNat_lt
  have hl := len.toNat_lt
  by_cases hgt : size.toNat < off.toNat
  · rw [if_pos (show off > size from UInt16.lt_iff_toNat_lt.2 hgt), if_pos hgt]
  · rw [if_neg (show ¬ off > size from fun h => hgt (UInt16.lt_iff_toNat_lt.1 h)), if_neg hgt]
    have hsub : (size - off).toNat = size.toNat - off.toNat := u16_sub_toNat (UInt16.le_iff_toNat_le.2 (by omega))
    have h512 : (512 : UInt16).toNat = 512 := by decide
    generalize hlen : (if len > 512 then (512 : UInt16) else len) = l1
    have hl1 : l1.toNat = min len.toNat 512 := by
      subst hlen
      split
      · rename_i h; have := UInt16.lt_iff_toNat_lt.1 h; rw [h512] at *; omega
      · rename_i h
        have : ¬ 512 < len.toNat := fun hh => h (UInt16.lt_iff_toNat_lt.2 (by rw [h512]; exact hh))
        omega
    generalize hlen2 : (if l1 > size - off then size - off else l1) = l2
    have hl2 : l2.toNat = portionLen size.toNat off.toNat len.toNat := by
      subst hlen2
      unfold portionLen
      split
      · rename_i h; have := UInt16.lt_iff_toNat_lt.1 h; omega
      · rename_i h
        have : ¬ (size - off).toNat < l1.toNat := fun hh => h (UInt16.lt_iff_toNat_lt.2 hh)
        omega
    have hle : portionLen size.toNat off.toNat len.toNat ≤ size.toNat - off.toNat := by unfold portionLen; omega
    have hadd : (l2 + off).toNat = portionLen size.toNat off.toNat len.toNat + off.toNat := by
      rw [UInt16.toNat_add, hl2, Nat.mod_eq_of_lt (by omega)]
    rw [← hl2]
    simp only [Option.some.injEq, Prod.mk.injEq]
    constructor
    · simp
    · apply UInt16.toNat_inj.1
      rw [u16_sub_toNat (UInt16.le_iff_toNat_le.2 (by rw [hadd]; omega)), hadd, UInt16.toNat_ofNat_of_lt' (by show _ < 65536; omega), hl2]
      omega

theorem certRequest_read {p : UInt8} {off len : UInt16} {u : Nat} (t : Bytes) :
    GetCert.read ⟨[0, p] ++ putU16 off ++ putU16 len ++ t, u⟩ = .ok ⟨0, off, len⟩ ⟨t, u + 6⟩ := by
  simp [GetCert.read, putU16, rdU16_cons]
  constructor <;> exact dec_putU16 _

theorem cert_written (c : Ctx) (m : CertRsp) (hm : m.WF) : encodeRsp .rspCertificate (.cert m) c = .ok (c.neg.version.get :: 0x02 :: m.wire) c := by
  have hw : Writes (Msg.encode c.cc ⟨⟨c.neg.version, .rspCertificate⟩, .cert m⟩) (c.neg.version.get :: 0x02 :: m.wire) := by
    have h1 : Writes (Header.encode ⟨c.neg.version, .rspCertificate⟩) [c.neg.version.get, 0x02] := by
      unfold Header.encode
      exact Writes.seq_cons (Writes.u8 _) (Writes.seq_cons (Writes.u8 _) Writes.seq_nil)
    exact (Writes.seq_cons h1 (Writes.seq_cons (CertRsp.encode_writes hm) Writes.seq_nil)).cast (by simp)
  have hlen : m.wire.length ≤ 600 := by
    have := hm.2
    simp [CertRsp.wire, putU16]
    omega
  have := (hw (Writer.init msgSize) (by simp [Writer.WF, Writer.init])).1 (by simp [Writer.init, msgSize]; omega)
  unfold encodeRsp
  rw [this]
  simp [Writer.init]

/-- the connection after a GET_CERTIFICATE exchange: outside a session request and response are added to the certificate
transcript, and the measurement transcript restarts. -/
def afterCert (sid : Option UInt32) (req rsp : Bytes) (c : Ctx) : Ctx :=
  if sid = none then addB rsp (addB req (Ctx.resetBuffers .reqGetCertificate none c)) else Ctx.resetBuffers .reqGetCertificate sid c

theorem resetBuffers_cert (sid : Option UInt32) (c : Ctx) : Ctx.resetBuffers .reqGetCertificate sid c = Ctx.resetM sid c := rfl

theorem resetM_fields (sid : Option UInt32) (c : Ctx) : (Ctx.resetM sid c).neg = c.neg ∧ (Ctx.resetM sid c).prov = c.prov ∧
    (Ctx.resetM sid c).rt.m1m2 = c.rt.m1m2 ∧ (Ctx.resetM sid c).rt.state = c.rt.state ∧ (Ctx.resetM sid c).rt.messageA = c.rt.messageA ∧
    (Ctx.resetM sid c).sent = c.sent ∧ (Ctx.resetM sid c).peer = c.peer ∧ (Ctx.resetM sid c).config = c.config := by
  cases sid <;> simp [Ctx.resetM, Ctx.updSession]

theorem resetM_cc (sid : Option UInt32) (c : Ctx) : (Ctx.resetM sid c).cc = c.cc := by
  cases sid <;> rfl

/-- A GET_CERTIFICATE request for slot 0 (outside or inside a session), for every chain, offset and length: the response carries
`min(requested, 512, rest of the chain)` bytes of the provisioned chain at the requested offset, and the right remainder. -/
theorem C30_portion (c : Ctx) (sid : Option UInt32) (v p : UInt8) (off len : UInt16) (t chain : Bytes)
    (hst : ConnState.negotiated.code ≤ c.rt.state.code) (hv : SpdmVersion.ofCode v = c.neg.version) (hch : c.prov.chain 0 = some chain)
    (hsize : chain.length < 65536) (hoff : off.toNat ≤ chain.length)
    (hh : c.rt.m1m2.isSome = true ∨ (e.crypto.hash c.neg.baseHash []).isSome = true) :
    certificateRsp e sid (certRequest v p off len ++ t) c = .ok (certMessage v chain off.toNat len.toNat)
      (afterCert sid (certRequest v p off len) (certMessage v chain off.toNat len.toNat) c) := by
  have hvg : c.neg.version.get = v := by rw [← hv]; simp
  obtain ⟨g1, g2, g3, g4, g5, g6, g7, g8⟩ := resetM_fields sid c
  have hsz : (chain.length.toUInt16).toNat = chain.length := by
    show (UInt16.ofNat chain.length).toNat = _
    exact UInt16.toNat_ofNat_of_lt' hsize
  have hlt : portionLen chain.length off.toNat len.toNat ≤ 512 ∧ portionLen chain.length off.toNat len.toNat ≤ chain.length - off.toNat := by
    unfold portionLen; omega
  have hpn : (UInt16.ofNat (portionLen chain.length off.toNat len.toNat)).toNat = portionLen chain.length off.toNat len.toNat :=
    UInt16.toNat_ofNat_of_lt' (by show _ < 65536; omega)
  have happ : ∀ (c1 : Ctx) (msg : Bytes), (c1.rt.m1m2.isSome = true ∨ (e.crypto.hash c1.neg.baseHash []).isSome = true) →
      appendBPlain e sid msg c1 = .ok () (if sid = none then addB msg c1 else c1) := by
    intro c1 msg h1
    cases sid with
    | none => simp only [appendBPlain, Ctx.appendB, appendM1M2_eq]; rw [if_pos h1]; simp
    | some s => simp [appendBPlain]
  have hwf : CertRsp.WF ⟨0, UInt16.ofNat (portionLen chain.length off.toNat len.toNat),
      UInt16.ofNat (chain.length - off.toNat - portionLen chain.length off.toNat len.toNat),
      (chain.drop off.toNat).take (portionLen chain.length off.toNat len.toNat)⟩ := by
    constructor
    · simp only [hpn, List.length_take, List.length_drop]; omega
    · simp only [List.length_take, List.length_drop]; omega
  have hreq : (certRequest v p off len ++ t).take 8 = certRequest v p off len := by simp [certRequest, putU16]
  have hread := certRequest_read (p := p) (off := off) (len := len) (u := 2) t
  have hcv : checkVersion (certRequest v p off len ++ t) c = .ok ⟨[0, p] ++ putU16 off ++ putU16 len ++ t, 2⟩ c := by
    have : certRequest v p off len ++ t = v :: 0x82 :: ([0, p] ++ putU16 off ++ putU16 len ++ t) := by simp [certRequest]
    rw [this]
    simp [checkVersion, header, header_read, hv]
  have hneg : afterNegotiation c = .ok () c := by
    simp [afterNegotiation, Nat.not_lt.2 hst]
  have hlocal : ∀ c1 : Ctx, c1.prov = c.prov → localChain c1 0 = some chain := by
    intro c1 h1
    unfold localChain
    rw [h1]
    exact hch
  unfold certificateRsp
  simp only [M.bind_apply, hneg, hcv, M.modify_apply, resetBuffers_cert, readReq, M.get_apply, hread, M.pure_apply, hreq, ne_eq,
    not_true, if_false, M.ite_apply, orUnspecified, orAppended, M.mapErr_apply]
  rw [happ _ _ (by rw [g3, g1]; exact hh)]
  generalize hc1 : (if sid = none then addB (certRequest v p off len) (Ctx.resetM sid c) else Ctx.resetM sid c) = c1
  have k1 : c1.prov = c.prov := by subst hc1; split <;> exact g2
  have k2 : c1.neg = c.neg := by subst hc1; split <;> exact g1
  have k3 : c1.rt.m1m2.isSome = true ∨ (e.crypto.hash c1.neg.baseHash []).isSome = true := by
    rw [k2]
    rcases hh with hh | hh
    · left; subst hc1; split
      · simp [addB]
      · rw [g3]; exact hh
    · exact .inr hh
  simp only [hlocal c1 k1, M.ofOption_some, certPortion_spec, hsz, if_neg (Nat.not_lt.2 hoff), hpn]
  rw [cert_written _ _ hwf]
  simp only [happ c1 _ k3, k2, hvg]
  have hmsg : v :: 2 :: CertRsp.wire ⟨0, UInt16.ofNat (portionLen chain.length off.toNat len.toNat),
      UInt16.ofNat (chain.length - off.toNat - portionLen chain.length off.toNat len.toNat),
      (chain.drop off.toNat).take (portionLen chain.length off.toNat len.toNat)⟩ = certMessage v chain off.toNat len.toNat := by
    simp [CertRsp.wire, certMessage]
  rw [hmsg]
  congr 1
  unfold afterCert
  subst hc1
  by_cases hn : sid = none
  · subst hn; simp [resetBuffers_cert]
  · simp [hn, resetBuffers_cert]

theorem certMessage_starts (v : UInt8) (chain : Bytes) (off len : Nat) : Starts 0x02 (certMessage v chain off len) := ⟨_, _, rfl⟩

/-- What is put on the wire: the packet with exactly that CERTIFICATE, when it fits the requester's data transfer size. -/
theorem C30_response (c c' : Ctx) (rx : Bytes) (v p : UInt8) (off len : UInt16) (t chain : Bytes)
    (hrx : Plain e rx (certRequest v p off len ++ t))
    (hst : ConnState.negotiated.code ≤ c.rt.state.code) (hv : SpdmVersion.ofCode v = c.neg.version) (hch : c.prov.chain 0 = some chain)
    (hsize : chain.length < 65536) (hoff : off.toNat ≤ chain.length)
    (hh : c.rt.m1m2.isSome = true ∨ (e.crypto.hash c.neg.baseHash []).isSome = true)
    (hdts : c.neg.reqDts = 0 ∨ 8 + portionLen chain.length off.toNat len.toNat ≤ c.neg.reqDts.toNat)
    (h : processMessage e rx c = .ok true c') :
    ∃ pkt, Ctx.encap e (certMessage v chain off.toNat len.toNat) = .ok pkt ∧ c'.sent = c.sent ++ [pkt] ∧ c'.prov = c.prov ∧ c'.neg = c.neg := by
  have hx := C30_portion (e := e) c none v p off len t chain hst hv hch hsize hoff hh
  have hd : dispatchCode e (ReqRespCode.ofCode 0x82) (certRequest v p off len ++ t) =
      (do let b ← reply (certificateRsp e none (certRequest v p off len ++ t)); sendMessage e b) := rfl
  have hf : (afterCert none (certRequest v p off len) (certMessage v chain off.toNat len.toNat) c).neg = c.neg := rfl
  have hs : tooLarge (afterCert none (certRequest v p off len) (certMessage v chain off.toNat len.toNat) c) (certMessage v chain off.toNat len.toNat) = false := by
    unfold tooLarge
    rw [hf]
    rcases hdts with hd | hd
    · simp [hd]
    · have hl : (certMessage v chain off.toNat len.toNat).length = 8 + portionLen chain.length off.toNat len.toNat := by
        have : portionLen chain.length off.toNat len.toNat ≤ chain.length - off.toNat := by unfold portionLen; omega
        simp [certMessage, putU16]
        omega
      simp only [hl, Bool.and_eq_false_iff, decide_eq_false_iff_not]
      right; omega
  obtain ⟨pkt, h1, rfl⟩ := packet_sent (v := v) (k := 0x82) hrx hd hx (certMessage_starts ..) (by decide) hs h
  exact ⟨pkt, h1, rfl, rfl, rfl⟩

/-- Every other slot number, an unprovisioned slot and an offset past the end of the chain are refused: no CERTIFICATE is produced. -/
theorem C30_refused (c c' : Ctx) (sid : Option UInt32) (v p slot : UInt8) (off len : UInt16) (t b : Bytes)
    (hbad : slot ≠ 0 ∨ c.prov.chain 0 = none ∨ ∃ chain, c.prov.chain 0 = some chain ∧ chain.length < 65536 ∧ chain.length < off.toNat) :
    certificateRsp e sid ([v, 0x82, slot, p] ++ putU16 off ++ putU16 len ++ t) c ≠ .ok b c' := by
  intro h
  unfold certificateRsp at h
  obtain ⟨_, c1, h1, h2⟩ := M.bind_ok.1 h
  obtain ⟨rfl, _⟩ := afterNegotiation_ok h1
  obtain ⟨r, c2, h3, h4⟩ := M.bind_ok.1 h2
  obtain ⟨rfl, v', k, t', hb, _, rfl⟩ := checkVersion_ok h3
  simp at hb
  obtain ⟨_, _, rfl⟩ := hb
  obtain ⟨_, c3, h5, h6⟩ := M.bind_ok.1 h4
  cases h5
  obtain ⟨⟨m, req⟩, c4, h7, h8⟩ := M.bind_ok.1 h6
  obtain ⟨rfl, r', h9, rfl⟩ := readReq_ok h7
  have hm : m = ⟨slot, off, len⟩ := by
    simp [GetCert.read, putU16, rdU16_cons, dec_putU16] at h9
    exact h9.1.symm
  subst hm
  dsimp only at h8
  split at h8
  · simp at h8
  · rename_i h0
    have h0 : slot = 0 := Decidable.not_not.1 h0
    subst h0
    obtain ⟨_, c5, h10, h11⟩ := M.bind_ok.1 h8
    have h10 := appendBPlain_ok (orUnspecified_ok.1 h10)
    have hp : c5.prov = c2.prov := by
      rw [h10]
      split
      · exact (resetM_fields sid c2).2.1
      · exact (resetM_fields sid c2).2.1
    obtain ⟨_, c6, h12, h13⟩ := M.bind_ok.1 h11
    cases h12
    obtain ⟨chain, c7, h14, h15⟩ := M.bind_ok.1 h13
    obtain ⟨h14, rfl⟩ := ofOption_ok.1 h14
    have h18 : c2.prov.chain 0 = some chain := by
      unfold localChain at h14
      rw [hp] at h14
      exact h14
    obtain ⟨⟨portion, remainder⟩, c8, h16, h17⟩ := M.bind_ok.1 h15
    obtain ⟨h16, rfl⟩ := ofOption_ok.1 h16
    rcases hbad with h | h | ⟨ch, h, hlt, hgt⟩
    · exact h rfl
    · rw [h] at h18; cases h18
    · rw [h] at h18; cases h18
      rw [certPortion_spec] at h16
      have hsz : (chain.length.toUInt16).toNat = chain.length := UInt16.toNat_ofNat_of_lt' hlt
      rw [hsz, if_pos hgt] at h16
      cases h16

/-! ### The whole transfer -/

/-- what a reader that follows the offsets has after requesting portions of the given lengths, and the next offset. -/
def collect (chain : Bytes) : Nat → Bytes → List Nat → Bytes
  | _, acc, [] => acc
  | off, acc, len :: ls =>
    let n := portionLen chain.length off len
    collect chain (off + n) (acc ++ (chain.drop off).take n) ls

theorem collect_prefix (chain : Bytes) (off : Nat) (ls : List Nat) (h : off ≤ chain.length) : ∃ k, off ≤ k ∧ k ≤ chain.length ∧
    collect chain off (chain.take off) ls = chain.take k ∧ ((∀ l ∈ ls, 0 < l) → min (off + ls.length) chain.length ≤ k) := by
  induction ls generalizing off with
  | nil => exact ⟨off, Nat.le_refl _, h, rfl, fun _ => by simp; omega⟩
  | cons l ls ih =>
    have hn : portionLen chain.length off l ≤ chain.length - off := by unfold portionLen; omega
    obtain ⟨k, h1, h2, h3, h4⟩ := ih (off + portionLen chain.length off l) (by omega)
    refine ⟨k, by omega, h2, ?_, ?_⟩
    · unfold collect
      dsimp only
      rw [← List.take_add]
      exact h3
    · intro hl
      have := h4 fun x hx => hl x (by simp [hx])
      have hl0 := hl l (by simp)
      simp only [List.length_cons]
      by_cases hoff : off < chain.length
      · have : 1 ≤ portionLen chain.length off l := by unfold portionLen; omega
        omega
      · omega

/-- Whatever lengths are requested, what has been read is always a prefix of the provisioned chain. -/
theorem C30_prefix (chain : Bytes) (ls : List Nat) : collect chain 0 [] ls <+: chain := by
  obtain ⟨k, _, _, h, _⟩ := collect_prefix chain 0 ls (by omega)
  have h : collect chain 0 [] ls = chain.take k := by simpa using h
  rw [h]
  exact List.take_prefix _ _

/-- With nonzero lengths the transfer ends, after at most as many requests as the chain has bytes, with exactly the chain. -/
theorem C30_complete (chain : Bytes) (ls : List Nat) (hpos : ∀ l ∈ ls, 0 < l) (hlen : chain.length ≤ ls.length) :
    collect chain 0 [] ls = chain := by
  obtain ⟨k, _, h2, h, h4⟩ := collect_prefix chain 0 ls (by omega)
  have := h4 hpos
  have hk : k = chain.length := by omega
  have h : collect chain 0 [] ls = chain.take k := by simpa using h
  rw [h, hk, List.take_length]

/-- The remainder is zero exactly when the portion reaches the end of the chain. -/
theorem C30_remainder (chain : Bytes) (off len : Nat) (h : off ≤ chain.length) :
    chain.length - off - portionLen chain.length off len = 0 ↔ chain.take off ++ (chain.drop off).take (portionLen chain.length off len) = chain := by
  have hn : portionLen chain.length off len ≤ chain.length - off := by unfold portionLen; omega
  rw [← List.take_add]
  constructor
  · intro h0
    exact List.take_of_length_le (by omega)
  · intro h0
    have := congrArg List.length h0
    simp at this
    omega

/-- the hypotheses on a concrete responder: a chain of 44 bytes (header, root hash, data), read in two portions. -/
example : ((toyRun [Toy.version, Toy.capabilities, Toy.algorithms]).prov.chain 0).map (·.length) = some 44 ∧
    ConnState.negotiated.code ≤ (toyRun [Toy.version, Toy.capabilities, Toy.algorithms]).rt.state.code := by decide +kernel
example : (match certificateRsp Toy.env none (certRequest 0x12 0 40 1000) (toyRun [Toy.version, Toy.capabilities, Toy.algorithms]) with
    | .ok b _ => some b | _ => none) = some [0x12, 2, 0, 0, 4, 0, 0, 0, 5, 6, 7, 8] := by decide +kernel

end Verif.Props
