/-
What exactly the requester's steps return and leave behind.
-/
import Verif.Requester.Sessions
import Verif.Responder.Transcript

namespace Verif
namespace Req
open Rsp

variable {e : REnv}

theorem liftOk {σ α : Type} {x : Res α} {s s' : σ} {a : α} : (x.lift : M Status σ α) s = .ok a s' ↔ x = .ok a ∧ s' = s := by
  cases x <;> simp [Res.lift, eq_comm]
theorem liftErr {σ α : Type} {x : Res α} {s s' : σ} {st : Status} : (x.lift : M Status σ α) s = .err st s' ↔ x = .err st ∧ s' = s := by
  cases x <;> simp [Res.lift, eq_comm]

theorem devSend_ok {pkt : Bytes} {c c' : Ctx} {u : Unit} (h : Ctx.devSend e.toEnv pkt c = .ok u c') :
    c' = withSent pkt c ∧ e.send c.sent.length pkt = none := by
  simp only [Ctx.devSend, M.bind_apply, M.get_apply, M.set_apply] at h
  cases hs : e.send c.sent.length pkt with
  | some st => simp [hs] at h
  | none =>
    simp only [hs, M.pure_apply] at h
    cases h
    exact ⟨rfl, rfl⟩

/-- a message that fits the peer's transfer size. -/
def Fits (c : Ctx) (msg : Bytes) : Prop := c.neg.rspDts = 0 ∨ msg.length ≤ c.neg.rspDts.toNat

theorem sendMessage_ok {msg : Bytes} {c c' : Ctx} {u : Unit} (h : sendMessage e msg c = .ok u c') :
    ∃ pkt, Ctx.encap e.toEnv msg = .ok pkt ∧ c' = withSent pkt c ∧ Fits c msg := by
  simp only [sendMessage, M.bind_apply, M.get_apply] at h
  by_cases hd : c.neg.rspDts ≠ 0 ∧ c.neg.rspDts.toNat < msg.length
  · rw [if_pos hd] at h; cases h
  · rw [if_neg hd] at h
    simp only [M.bind_apply] at h
    cases hp : Ctx.encap e.toEnv msg with
    | panic => simp [hp, Res.lift] at h
    | err st => simp [hp, Res.lift] at h
    | ok pkt =>
      simp only [hp, Res.lift, M.pure_apply] at h
      refine ⟨pkt, rfl, (devSend_ok h).1, ?_⟩
      by_cases h0 : c.neg.rspDts = 0
      · exact .inl h0
      · exact .inr (Nat.le_of_not_lt fun hh => hd ⟨h0, hh⟩)

theorem receive_ok {p : Bytes} {c c' : Ctx} (h : receive e c = .ok p c') : c' = c ∧ e.recv c.sent = some p := by
  simp only [receive, M.bind_apply, M.get_apply] at h
  cases hr : e.recv c.sent with
  | none => simp [hr] at h
  | some q =>
    simp only [hr, M.ofOption_some, M.pure_apply] at h
    by_cases hl : q.length ≤ 4160
    · rw [if_pos hl] at h; cases h; exact ⟨rfl, rfl⟩
    · rw [if_neg hl] at h; cases h

theorem receiveMessage_ok {b : Bytes} {c c' : Ctx} (h : receiveMessage e c = .ok b c') :
    c' = c ∧ ∃ p, e.recv c.sent = some p ∧ Ctx.decap e.toEnv p 4096 = .ok b := by
  obtain ⟨p, c1, h1, h2⟩ := M.bind_ok.1 h
  obtain ⟨rfl, hp⟩ := receive_ok h1
  obtain ⟨hd, rfl⟩ := liftOk.1 h2
  exact ⟨rfl, p, hp, hd⟩

theorem receiveSecured_ok {sid : UInt32} {b : Bytes} {c c' : Ctx} (h : receiveSecured e sid c = .ok b c') :
    ∃ p, e.recv c.sent = some p ∧ Ctx.decodeSecured e.toEnv sid p 4096 c = .ok b c' := by
  obtain ⟨p, c1, h1, h2⟩ := M.bind_ok.1 h
  obtain ⟨rfl, hp⟩ := receive_ok h1
  exact ⟨p, hp, h2⟩

theorem transact_none_ok {msg b : Bytes} {c c' : Ctx} (h : transact e none msg c = .ok b c') :
    ∃ pkt p, Ctx.encap e.toEnv msg = .ok pkt ∧ c' = withSent pkt c ∧ Fits c msg ∧ e.recv (c.sent ++ [pkt]) = some p ∧
      Ctx.decap e.toEnv p 4096 = .ok b := by
  obtain ⟨u, c1, h1, h2⟩ := M.bind_ok.1 h
  obtain ⟨pkt, h3, rfl, h4⟩ := sendMessage_ok h1
  obtain ⟨rfl, p, h5, h6⟩ := receiveMessage_ok h2
  exact ⟨pkt, p, h3, rfl, h4, h5, h6⟩

/-! ### Requests -/

theorem encodeAs_eq {v : SpdmVersion} {k : ReqRespCode} {p : Payload} {w : Bytes} {c : Ctx} (hw : Writes (p.encode c.cc) w) :
    encodeAs v k p c = if w.length + 2 ≤ 4096 then .ok (v.get :: k.get :: w) c else .err .bufferFull c := by
  have hw : Writes (Msg.encode c.cc ⟨⟨v, k⟩, p⟩) (v.get :: k.get :: w) :=
    (Writes.seq_cons (Header.encode_writes _) (Writes.seq_cons hw Writes.seq_nil)).cast (by simp [Header.wire])
  have h0 := hw (Writer.init 4096) (by simp [Writer.WF, Writer.init])
  by_cases hl : w.length + 2 ≤ 4096
  · rw [if_pos hl]
    have := h0.1 (by simp [Writer.init]; omega)
    unfold encodeAs
    rw [this]
    simp only [Writer.init, List.length_cons, List.nil_append]
    rw [if_pos (by omega)]
    rw [List.take_append_of_le_length (by simp), List.take_of_length_le (by simp)]
  · rw [if_neg hl]
    obtain ⟨p', _, _, h2⟩ := h0.2 (by simp [Writer.init]; omega)
    unfold encodeAs
    rw [h2]
    rfl

theorem encodeAs_ok {v : SpdmVersion} {k : ReqRespCode} {p : Payload} {w : Bytes} {c c' : Ctx} {b : Bytes}
    (hw : Writes (p.encode c.cc) w) (h : encodeAs v k p c = .ok b c') : c' = c ∧ b = v.get :: k.get :: w := by
  rw [encodeAs_eq hw] at h
  split at h
  · cases h; exact ⟨rfl, rfl⟩
  · cases h

theorem encodeAs_ctx {v : SpdmVersion} {k : ReqRespCode} {p : Payload} {c c' : Ctx} {b : Bytes}
    (h : encodeAs v k p c = .ok b c') : c' = c := by
  unfold encodeAs at h
  cases hm : Msg.encode c.cc ⟨⟨v, k⟩, p⟩ (Writer.init 4096) with
  | panic => simp [hm] at h
  | err st w' => simp [hm] at h
  | ok n w' =>
    rw [hm] at h
    by_cases hn : n ≤ 4096
    · simp only [hn, if_true] at h; cases h; rfl
    · simp only [hn, if_false] at h; cases h

theorem encodeReq_ok {k : ReqRespCode} {p : Payload} {w : Bytes} {c c' : Ctx} {b : Bytes}
    (hw : Writes (p.encode c.cc) w) (h : encodeReq k p c = .ok b c') : c' = c ∧ b = c.neg.version.get :: k.get :: w := by
  simp only [encodeReq, M.bind_apply, M.get_apply] at h
  exact encodeAs_ok hw h

theorem encodeReq_ctx {k : ReqRespCode} {p : Payload} {c c' : Ctx} {b : Bytes} (h : encodeReq k p c = .ok b c') : c' = c := by
  simp only [encodeReq, M.bind_apply, M.get_apply] at h
  exact encodeAs_ctx h

/-! ### Responses -/

theorem readHeader_ok {bytes : Bytes} {c c' : Ctx} {h : Header} {r : Reader}
    (hh : ((Res.read .invalidMsgField Header.read (Reader.init bytes)).lift : M Status Ctx _) c = .ok (h, r) c') :
    c' = c ∧ ∃ v k t, bytes = v :: k :: t ∧ h = ⟨SpdmVersion.ofCode v, ReqRespCode.ofCode k⟩ ∧ r = ⟨t, 2⟩ := by
  match bytes with
  | [] =>
    obtain ⟨r, h1⟩ := header_read_short (b := []) (by simp)
    simp [h1, Res.read, Res.lift] at hh
  | [a] =>
    obtain ⟨r, h1⟩ := header_read_short (b := [a]) (by simp)
    simp [h1, Res.read, Res.lift] at hh
  | v :: k :: t =>
    simp only [Res.read, Res.lift, header_read, M.pure_apply] at hh
    cases hh
    exact ⟨rfl, v, k, t, rfl, rfl, rfl⟩

theorem code_known {k : UInt8} {r : ReqRespCode} (h : ReqRespCode.ofCode k = r) : k = r.get := by
  rw [← h, ReqRespCode.get_ofCode]

/-- an ERROR response never leads to success. -/
theorem handleError_never {α : Type} {sid : Option UInt32} {bytes : Bytes} {c c' : Ctx} {a : α} :
    handleError sid bytes c ≠ .ok a c' := by
  intro h
  obtain ⟨⟨hd, r⟩, c1, h1, h2⟩ := M.bind_ok.1 h
  simp only [M.bind_apply, M.get_apply] at h2
  split at h2
  · cases h2
  split at h2
  · cases h2
  obtain ⟨⟨p1, r1⟩, c2, h3, h4⟩ := M.bind_ok.1 h2
  obtain ⟨⟨p2, r2⟩, c3, h5, h6⟩ := M.bind_ok.1 h4
  simp only [errorPayload, simpleError] at h6
  split at h6
  · cases sid with
    | none => cases h6
    | some s =>
      obtain ⟨u, c4, h7, h8⟩ := M.bind_ok.1 h6
      cases h8
  split at h6
  · cases h6
  split at h6
  · cases h6
  split at h6
  · cases sid with
    | none => cases h6
    | some s =>
      obtain ⟨u, c4, h7, h8⟩ := M.bind_ok.1 h6
      cases h8
  · cases h6

theorem sort_ok {sid : Option UInt32} {k : ReqRespCode} {bytes : Bytes} {h : Header} {r r' : Reader} {c c' : Ctx}
    (hs : sort sid k bytes h r c = .ok r' c') : c' = c ∧ r' = r ∧ h.code = k := by
  unfold sort at hs
  split at hs
  · rename_i hk; cases hs; exact ⟨rfl, rfl, hk⟩
  split at hs
  · exact absurd hs handleError_never
  · cases hs

theorem expect_ok {sid : Option UInt32} {k : ReqRespCode} {bytes : Bytes} {r : Reader} {c c' : Ctx}
    (h : expect sid k bytes c = .ok r c') :
    c' = c ∧ ∃ v t, bytes = v :: k.get :: t ∧ SpdmVersion.ofCode v = c.neg.version ∧ r = ⟨t, 2⟩ := by
  obtain ⟨⟨hd, r1⟩, c1, h1, h2⟩ := M.bind_ok.1 h
  obtain ⟨rfl, v, k1, t, rfl, rfl, rfl⟩ := readHeader_ok h1
  simp only [M.bind_apply, M.get_apply] at h2
  split at h2
  · cases h2
  · rename_i hv
    obtain ⟨rfl, rfl, hk⟩ := sort_ok h2
    refine ⟨rfl, v, t, ?_, Decidable.not_not.1 hv, rfl⟩
    rw [← hk, ReqRespCode.get_ofCode]

theorem expectAny_ok {sid : Option UInt32} {k : ReqRespCode} {bytes : Bytes} {r : Reader} {c c' : Ctx}
    (h : expectAnyVersion sid k bytes c = .ok r c') : c' = c ∧ ∃ v t, bytes = v :: k.get :: t ∧ r = ⟨t, 2⟩ := by
  obtain ⟨⟨hd, r1⟩, c1, h1, h2⟩ := M.bind_ok.1 h
  obtain ⟨rfl, v, k1, t, rfl, rfl, rfl⟩ := readHeader_ok h1
  obtain ⟨rfl, rfl, hk⟩ := sort_ok h2
  refine ⟨rfl, v, t, ?_, rfl⟩
  rw [← hk, ReqRespCode.get_ofCode]

/-- the version byte of a well-formed negotiated version is the one in the header. -/
theorem version_byte {v : UInt8} {x : SpdmVersion} (h : SpdmVersion.ofCode v = x) : v = x.get := by
  rw [← h, SpdmVersion.get_ofCode]

end Req
end Verif
