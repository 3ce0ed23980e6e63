/-
When the steps of a request succeed: the converse of Exact.lean.
-/
import Verif.Requester.Ops

namespace Verif
namespace Req
open Rsp

variable {e : REnv}

theorem encodeReq_goes {k : ReqRespCode} {p : Payload} {w : Bytes} {c : Ctx} (hw : Writes (p.encode c.cc) w) (hl : w.length + 2 ≤ 4096) :
    encodeReq k p c = .ok (c.neg.version.get :: k.get :: w) c := by
  simp only [encodeReq, M.bind_apply, M.get_apply]
  rw [encodeAs_eq hw, if_pos hl]

theorem devSend_goes {pkt : Bytes} {c : Ctx} (h : e.send c.sent.length pkt = none) : Ctx.devSend e.toEnv pkt c = .ok () (withSent pkt c) := by
  unfold Ctx.devSend
  simp only [M.bind_apply, M.get_apply, M.set_apply, h]
  rfl

theorem sendMessage_goes {msg pkt : Bytes} {c : Ctx} (hf : c.neg.rspDts = 0 ∨ msg.length ≤ c.neg.rspDts.toNat)
    (hp : Ctx.encap e.toEnv msg = .ok pkt) (hs : e.send c.sent.length pkt = none) :
    sendMessage e msg c = .ok () (withSent pkt c) := by
  unfold sendMessage
  simp only [M.bind_apply, M.get_apply]
  rw [if_neg (by rintro ⟨h1, h2⟩; rcases hf with hf | hf; exact h1 hf; omega)]
  simp only [M.bind_apply, hp, Res.lift, M.pure_apply]
  exact devSend_goes hs

theorem receive_goes {p : Bytes} {c : Ctx} (h : e.recv c.sent = some p) (hl : p.length ≤ 4160) : receive e c = .ok p c := by
  unfold receive
  rw [M.bind_apply, M.get_apply]
  dsimp only
  rw [M.bind_apply, h]
  dsimp only [M.ofOption]
  rw [if_pos hl]
  rfl

theorem transact_goes {msg pkt p bytes : Bytes} {c : Ctx} (hf : c.neg.rspDts = 0 ∨ msg.length ≤ c.neg.rspDts.toNat)
    (hp : Ctx.encap e.toEnv msg = .ok pkt) (hs : e.send c.sent.length pkt = none) (hr : e.recv (c.sent ++ [pkt]) = some p) (hl : p.length ≤ 4160)
    (hd : Ctx.decap e.toEnv p 4096 = .ok bytes) : transact e none msg c = .ok bytes (withSent pkt c) := by
  show (sendMessage e msg >>= fun _ => receiveMessage e) c = _
  rw [M.bind_apply, sendMessage_goes hf hp hs]
  show (receive e >>= fun p => (Ctx.decap e.toEnv p 4096).lift) _ = _
  rw [M.bind_apply, receive_goes (p := p) hr hl]
  simp [hd, Res.lift]

theorem expect_goes {sid : Option UInt32} {k : ReqRespCode} {v : UInt8} {t : Bytes} {c : Ctx} (hv : SpdmVersion.ofCode v = c.neg.version)
    (hk : ReqRespCode.ofCode k.get = k) : expect sid k (v :: k.get :: t) c = .ok ⟨t, 2⟩ c := by
  unfold expect
  simp only [M.bind_apply, Res.read, Res.lift, header_read, M.pure_apply, M.get_apply]
  rw [if_neg (by simpa using hv)]
  unfold sort
  rw [if_pos (by exact hk)]
  rfl

theorem readMsg_goes {α : Type} {x : Cc → Rd α} {bytes : Bytes} {r r' : Reader} {a : α} {c : Ctx} (h : x c.cc r = .ok a r') :
    readMsg x bytes r c = .ok (a, bytes.take r'.used) c := by
  unfold readMsg
  simp only [M.bind_apply, M.get_apply, Res.read, Res.lift, h, M.pure_apply]

theorem appendBBoth_goes {req rsp : Bytes} {c : Ctx} (h : c.rt.m1m2.isSome ∨ (e.crypto.hash c.neg.baseHash []).isSome) :
    appendBBoth e none req rsp c = .ok () (addB rsp (addB req c)) := by
  show (Ctx.appendB e.toEnv req >>= fun _ => Ctx.appendB e.toEnv rsp) c = _
  rw [M.bind_apply]
  unfold Ctx.appendB
  rw [appendM1M2_eq, if_pos (by exact h)]
  dsimp only
  rw [appendM1M2_eq, if_pos (.inl rfl)]

/-- one GET_CERTIFICATE that is answered acceptably. -/
theorem getCertificatePartial_goes {slot : UInt8} {total off len : UInt16} {c : Ctx} {pkt p temp t : Bytes} {v : UInt8} {m : CertRsp} {r' : Reader}
    (hf : c.neg.rspDts = 0 ∨ 8 ≤ c.neg.rspDts.toNat) (hp : Ctx.encap e.toEnv (certAsk c.neg.version.get slot off len) = .ok pkt)
    (hs : e.send c.sent.length pkt = none) (hr : e.recv (c.sent ++ [pkt]) = some p) (hl : p.length ≤ 4160)
    (hd : Ctx.decap e.toEnv p 4096 = .ok (v :: 0x02 :: t)) (hv : SpdmVersion.ofCode v = c.neg.version) (hm : CertRsp.read ⟨t, 2⟩ = .ok m r')
    (hok : portionRefused total off len m = false) (hslot : m.slot = slot) (htemp : c.peer.temp = some temp)
    (hh : c.rt.m1m2.isSome ∨ (e.crypto.hash c.neg.baseHash []).isSome) :
    getCertificatePartial e none slot total off len c = .ok (m.portion, m.remainder)
      (addB ((v :: 0x02 :: t).take r'.used) (addB (certAsk c.neg.version.get slot off len)
        { withSent pkt c with peer := { c.peer with temp := some (storePortion off m temp) } })) := by
  have hreq : c.neg.version.get :: ReqRespCode.reqGetCertificate.get :: GetCert.wire ⟨slot, off, len⟩ = certAsk c.neg.version.get slot off len := by
    simp [GetCert.wire, certAsk, ReqRespCode.get]
  unfold getCertificatePartial
  rw [M.bind_apply, encodeReq_goes (p := .getCert _) (GetCert.encode_writes _) (by simp [GetCert.wire, putU16]), hreq]
  dsimp only
  rw [M.bind_apply, transact_goes (by simpa [certAsk, putU16] using hf) hp hs hr hl hd]
  dsimp only
  unfold handleCertificate
  rw [M.bind_apply]
  have he := expect_goes (sid := none) (k := .rspCertificate) (t := t) (c := withSent pkt c) hv (by decide)
  have he : expect none .rspCertificate (v :: 0x02 :: t) (withSent pkt c) = _ := he
  rw [he]
  dsimp only
  rw [M.bind_apply, readMsg_goes (x := fun _ => CertRsp.read) hm]
  dsimp only
  rw [if_neg (by simp [hok]), if_neg (by simp [hslot])]
  simp only [M.bind_apply, M.get_apply, M.set_apply]
  have ht : (withSent pkt c).peer.temp = some temp := htemp
  rw [ht]
  simp only [M.ofOption, M.pure_apply]
  rw [appendBBoth_goes (by exact hh)]
  rfl

end Req
end Verif
