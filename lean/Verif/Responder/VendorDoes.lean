/-
VENDOR_DEFINED_REQUEST: what the handler is given and what is written.
-/
import Verif.Responder.SessionDoes

namespace Verif

/-- the fields of VENDOR_DEFINED_REQUEST and VENDOR_DEFINED_RESPONSE (message/vendor.rs:157-251). -/
def vendorFields (standard : UInt16) (id : Bytes) (len : UInt16) (data : Bytes) : Bytes :=
  [0, 0] ++ putU16 standard ++ [UInt8.ofNat id.length] ++ id ++ putU16 len ++ data

theorem Vendor.read_exact {r r' : Reader} {m : Vendor} (h : Vendor.read r = .ok m r') :
    m.vendorId.length ≤ 255 ∧ m.data.length = min m.length.toNat 4087 ∧ m.standard.WF ∧
      ∃ p q, r.rest = [p, q] ++ putU16 m.standard.get ++ [UInt8.ofNat m.vendorId.length] ++ m.vendorId ++ putU16 m.length ++ m.data ++ r'.rest := by
  simp only [Vendor.read, M.bind_ok, M.pure_ok, rdU8_ok, rdU16_ok, rdBytes_ok, RegistryId.read_ok] at h
  obtain ⟨p, _, h1, q, _, h2, st, _, ⟨hw, h3⟩, n, _, h4, v, _, ⟨h5, h5'⟩, l, _, h6, d, _, ⟨h7, h7'⟩, rfl, rfl⟩ := h
  have ha := (((((h1.trans h2).trans h3).trans h4).trans h5').trans h6).trans h7'
  refine ⟨?_, h7, hw, p, q, ?_⟩
  · show v.length ≤ 255
    have := n.toNat_lt; omega
  · dsimp only
    have hn : UInt8.ofNat v.length = n := by rw [h5]; simp
    rw [hn]
    simpa using ha.1

namespace Rsp
variable {e : Env}

/-- The vendor's handler returns an answer whose length field is the length of its data, and which fits into a message whatever the vendor id. -/
def VendorLaw (e : Env) : Prop := ∀ n d len data, e.vendor n d = some (len, data) → len.toNat = data.length ∧ data.length ≤ 3832

theorem vendor_does (hv : VendorLaw e) (sid : Option UInt32) (bytes : Bytes) (c : Ctx) : Does (vendorRsp e sid bytes) c (fun b c1 =>
    c1 = Ctx.resetBuffers .reqVendorDefinedRequest sid c ∧ ∃ v k p q standard id len data t rlen rdata,
      bytes = v :: k :: ([p, q] ++ putU16 standard ++ [UInt8.ofNat id.length] ++ id ++ putU16 len ++ data ++ t) ∧ SpdmVersion.ofCode v = c.neg.version ∧
      id.length ≤ 255 ∧ data.length = min len.toNat 4087 ∧ e.vendor len data = some (rlen, rdata) ∧
      b = [v, 0x7E] ++ vendorFields standard id rlen rdata) := by
  unfold vendorRsp
  refine (does_version bytes _).bind ?_
  rintro r c1 ⟨rfl, v, k, t, rfl, hver, rfl⟩
  refine (does_modify _ _).bind ?_
  rintro _ c2 rfl
  have hcc := resetBuffers_cc .reqVendorDefinedRequest c1 sid
  have hneg : (Ctx.resetBuffers .reqVendorDefinedRequest sid c1).neg = c1.neg := congrArg Cc.neg hcc
  refine (does_read _ _ _ _).bind ?_
  rintro ⟨m, req⟩ c3 ⟨rfl, r', hr, hreq⟩
  dsimp only at hr ⊢
  obtain ⟨h1, h2, h3, p, q, h4⟩ := Vendor.read_exact hr
  refine (does_ofOption _ _ _ _).bind ?_
  rintro ⟨rlen, rdata⟩ c4 ⟨hh, rfl⟩
  obtain ⟨g1, g2⟩ := hv _ _ _ _ hh
  have hwf : Vendor.WF ⟨m.standard, m.vendorId, rlen, rdata⟩ := ⟨h3, h1, g1, by show rdata.length ≤ 4087; omega⟩
  refine (does_encode (p := .vendorRsp _) (w := vendorFields m.standard.get m.vendorId rlen rdata) ?_ ?_).mono ?_
  · refine (Vendor.encode_writes hwf).cast ?_
    simp [Vendor.wire, vendorFields]
  · simp [vendorFields, msgSize, putU16]; omega
  rintro b _ ⟨rfl, rfl⟩
  refine ⟨rfl, v, k, p, q, m.standard.get, m.vendorId, m.length, m.data, r'.rest, rlen, rdata, ?_, hver, h1, h2, hh, ?_⟩
  · exact congrArg (v :: k :: ·) h4
  · rw [hneg, ← hver, SpdmVersion.get_ofCode]
    rfl

/-! ### forwards -/

/-- bytes written one at a time fill the buffer when they do not fit. -/
theorem encBytes_full (d : Bytes) : ∀ w : Writer, w.WF → w.cap < w.out.length + d.length → encBytes d w = .err .bufferFull ⟨w.cap, (w.out ++ d).take w.cap⟩ := by
  induction d with
  | nil => intro w h h'; simp [Writer.WF] at h h'; omega
  | cons b d ih =>
    intro w h h'
    show (encU8 b >>= fun a => encBytes d >>= fun c => pure (a + c)) w = _
    rw [M.bind_apply]
    have hpush : encU8 b w = if w.cap - w.out.length < 1 then .err .bufferFull w else .ok 1 { w with out := w.out ++ [b] } := rfl
    rw [hpush]
    by_cases hl : w.cap - w.out.length < 1
    · simp only [hl, if_true]
      have : w.cap = w.out.length := by simp [Writer.WF] at h; omega
      rw [this, List.take_left']
      · cases w; simp_all
      · rfl
    · simp only [hl, if_false]
      simp at h'
      rw [M.bind_apply, ih ⟨w.cap, w.out ++ [b]⟩ (by simp [Writer.WF]; omega) (by simp; omega)]
      simp

theorem seq_err {x : Enc Nat} {xs : List (Enc Nat)} {bs : Bytes} {err : EncErr} {w w' : Writer} (hx : Writes x bs) (hw : w.WF) (hf : w.out.length + bs.length ≤ w.cap)
    (h : Enc.seq xs ⟨w.cap, w.out ++ bs⟩ = .err err w') : Enc.seq (x :: xs) w = .err err w' := by
  show (x >>= fun a => Enc.seq xs >>= fun b => pure (a + b)) w = _
  rw [M.bind_apply, (hx w hw).1 hf]
  dsimp only
  rw [M.bind_apply, h]

theorem vendor_full {k : ReqRespCode} {v : SpdmVersion} {m : Vendor} {c : Cc} (hm : m.WF) (hbig : 4087 < m.vendorId.length + m.data.length) :
    Msg.encode c ⟨⟨v, k⟩, .vendorRsp m⟩ (Writer.init msgSize) = .err .bufferFull ⟨msgSize, ([v.get, k.get] ++ m.wire).take msgSize⟩ := by
  obtain ⟨h1, h2, h3, h4⟩ := hm
  have hmin : min m.length.toNat 4087 = m.data.length := by omega
  unfold Msg.encode
  refine seq_err (Header.encode_writes _) (by simp [Writer.WF, Writer.init, msgSize]) (by simp [Header.wire, Writer.init, msgSize]) ?_
  have hlast : Enc.seq [Payload.encode c (.vendorRsp m)] ⟨msgSize, [v.get, k.get]⟩ = .err .bufferFull ⟨msgSize, ([v.get, k.get] ++ m.wire).take msgSize⟩ := by
    show (Payload.encode c (.vendorRsp m) >>= fun a => Enc.seq [] >>= fun b => pure (a + b)) _ = _
    have : m.encode ⟨msgSize, [v.get, k.get]⟩ = .err .bufferFull ⟨msgSize, ([v.get, k.get] ++ m.wire).take msgSize⟩ := by
      unfold Vendor.encode
      rw [hmin, List.take_length]
      have a2 : Writes (Enc.seq [encU8 m.vendorId.length.toUInt8, encBytes m.vendorId]) ([m.vendorId.length.toUInt8] ++ m.vendorId) := by
        apply Writes.cast
        · wr
        simp
      refine seq_err (bs := [0]) (Writes.u8 0) (by simp [Writer.WF, msgSize]) (by simp [msgSize]) ?_
      refine seq_err (bs := [0]) (Writes.u8 0) (by simp [Writer.WF, msgSize]) (by simp [msgSize]) ?_
      refine seq_err (RegistryId.writes m.standard) (by simp [Writer.WF, msgSize]) (by simp [msgSize, putU16]) ?_
      refine seq_err a2 (by simp [Writer.WF, msgSize, putU16]) (by simp [msgSize, putU16]; omega) ?_
      have hin : Enc.seq [encU16 m.length, encBytes m.data] ⟨msgSize, [v.get, k.get] ++ [0] ++ [0] ++ putU16 m.standard.get ++ ([m.vendorId.length.toUInt8] ++ m.vendorId)⟩ =
          .err .bufferFull ⟨msgSize, ([v.get, k.get] ++ m.wire).take msgSize⟩ := by
        refine seq_err (bs := putU16 m.length) (Writes.u16 m.length) (by simp [Writer.WF, msgSize, putU16]; omega) (by simp [msgSize, putU16]; omega) ?_
        show (encBytes m.data >>= fun a => Enc.seq [] >>= fun b => pure (a + b)) _ = _
        rw [M.bind_apply, encBytes_full _ _ (by simp [Writer.WF, msgSize, putU16]; omega) (by simp [msgSize, putU16]; omega)]
        simp [Vendor.wire]
      show (Enc.seq [encU16 m.length, encBytes m.data] >>= fun a => Enc.seq [] >>= fun b => pure (a + b)) _ = _
      rw [M.bind_apply, hin]
    rw [M.bind_apply]
    have h' : Payload.encode c (.vendorRsp m) ⟨msgSize, [v.get, k.get]⟩ = _ := this
    rw [h']
  exact hlast

/-- a well-formed request of the version in force, whatever follows it, the handler's answer being within its storage: the response in full, or as much of it as fits. -/
theorem vendorRsp_eq (sid : Option UInt32) {v : UInt8} {standard : UInt16} {id : Bytes} {len : UInt16} {data t : Bytes} {rlen : UInt16} {rdata : Bytes} {c : Ctx}
    (hv : SpdmVersion.ofCode v = c.neg.version) (hid : id.length ≤ 255) (hl : data.length = len.toNat) (hd : data.length ≤ 4087)
    (hh : e.vendor len data = some (rlen, rdata)) (hrl : rlen.toNat = rdata.length) (hrd : rdata.length ≤ 4087) :
    vendorRsp e sid (v :: 0xFE :: (vendorFields standard id len data ++ t)) c =
      if id.length + rdata.length ≤ 4087 then .ok ([v, 0x7E] ++ vendorFields standard id rlen rdata) (Ctx.resetBuffers .reqVendorDefinedRequest sid c)
      else .err { pre := ([v, 0x7E] ++ vendorFields standard id rlen rdata).take msgSize, code := .unspecified } (Ctx.resetBuffers .reqVendorDefinedRequest sid c) := by
  have hneg : (Ctx.resetBuffers .reqVendorDefinedRequest sid c).neg = c.neg := congrArg Cc.neg (resetBuffers_cc .reqVendorDefinedRequest c sid)
  have hwf : Vendor.WF ⟨RegistryId.ofCode standard, id, len, data⟩ := ⟨by unfold RegistryId.WF; simp, hid, hl.symm, hd⟩
  have hwire : Vendor.wire ⟨RegistryId.ofCode standard, id, len, data⟩ = vendorFields standard id len data := by simp [Vendor.wire, vendorFields]
  have hread := Vendor.read_rt hwf t 2
  rw [hwire] at hread
  unfold vendorRsp checkVersion readReq
  simp only [M.bind_apply, M.get_apply, header, header_read, M.pure_apply, hv, ne_eq, not_true, if_false, M.modify_apply, hread, hh, M.ofOption]
  have hwf' : Vendor.WF ⟨RegistryId.ofCode standard, id, rlen, rdata⟩ := ⟨by unfold RegistryId.WF; simp, hid, hrl, hrd⟩
  have hwire' : Vendor.wire ⟨RegistryId.ofCode standard, id, rlen, rdata⟩ = vendorFields standard id rlen rdata := by simp [Vendor.wire, vendorFields]
  have hvg : c.neg.version.get = v := by rw [← hv, SpdmVersion.get_ofCode]
  show encodeRsp .rspVendorDefinedResponse (.vendorRsp ⟨RegistryId.ofCode standard, id, rlen, rdata⟩) (Ctx.resetBuffers .reqVendorDefinedRequest sid c) = _
  by_cases hfit : id.length + rdata.length ≤ 4087
  · rw [if_pos hfit, encodeRsp_writes (p := .vendorRsp _) (Vendor.encode_writes hwf') (by rw [hwire']; simp [vendorFields, msgSize, putU16]; omega), hneg, hwire', hvg]
    rfl
  · unfold encodeRsp
    rw [if_neg hfit, hneg, vendor_full hwf' (by show 4087 < id.length + rdata.length; omega), hwire', hvg]
    rfl

end Rsp
end Verif
