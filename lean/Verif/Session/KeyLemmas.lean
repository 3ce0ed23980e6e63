/-
Inversion lemmas for the key schedule and the session functions built on it.
-/
import Verif.Session.DirLemmas

namespace Verif
namespace KeySched

/-- the bytes of `binconcat` when it succeeds -/
def infoBytes (length : UInt16) (v : SpdmVersion) (label : Bytes) (context : Option Bytes) : Bytes :=
  putU16 length ++ versionStr v ++ label ++ context.getD []

theorem versionStr_length (v : SpdmVersion) : (versionStr v).length = 8 := by
  simp only [versionStr, List.length_set]; rfl

theorem extendIgnore_out {bs : Bytes} {w : Writer} (h : bs.length ≤ w.left) :
    extendIgnore bs w = { w with out := w.out ++ bs } := by
  unfold extendIgnore; rw [if_neg (by omega)]

theorem binconcat_eq (l : UInt16) (v : SpdmVersion) (label : Bytes) (ctx : Option Bytes) :
    binconcat l v label ctx =
      if label.length + (ctx.getD []).length > 76 then .err .cryptoError else .ok (infoBytes l v label ctx) := by
  have hv := versionStr_length v
  have hp : (putU16 l).length = 2 := rfl
  have he : encU16 l (Writer.init maxBuf) = .ok 2 { cap := maxBuf, out := putU16 l } := rfl
  cases ctx with
  | none =>
    unfold binconcat
    simp only [show maxBuf - 2 - 8 = 76 from rfl, Option.getD_none, List.length_nil, he]
    split
    · rfl
    · rw [extendIgnore_out (bs := versionStr v) (by simp [Writer.left, hv, hp, maxBuf])]
      rw [extendIgnore_out (bs := label) (by simp [Writer.left, hv, hp, maxBuf]; omega)]
      simp [infoBytes]
  | some c =>
    unfold binconcat
    simp only [show maxBuf - 2 - 8 = 76 from rfl, Option.getD_some, he]
    split
    · rfl
    · rw [extendIgnore_out (bs := versionStr v) (by simp [Writer.left, hv, hp, maxBuf])]
      rw [extendIgnore_out (bs := label) (by simp [Writer.left, hv, hp, maxBuf]; omega)]
      rw [extendIgnore_out (bs := c) (by simp [Writer.left, hv, hp, maxBuf]; omega)]
      simp [infoBytes]

theorem binconcat_ok {l : UInt16} {v : SpdmVersion} {label : Bytes} {ctx : Option Bytes} {b : Bytes} :
    binconcat l v label ctx = .ok b ↔ label.length + (ctx.getD []).length ≤ 76 ∧ b = infoBytes l v label ctx := by
  rw [binconcat_eq, Res.guard_ok]
  simp [eq_comm]

theorem sized_ok {m : Nat} {b x : Bytes} : sized m b = .ok x ↔ b.length ≠ 0 ∧ b.length ≤ m ∧ x = b := by
  unfold sized
  rw [Res.guard_ok]
  simp only [Res.ok.injEq, not_or, Nat.not_lt, and_assoc, gt_iff_lt, eq_comm (a := b)]

theorem expandSecret_ok {c : Crypto} {h : BaseHash} {key info : Bytes} {out max : Nat} {x : Bytes} :
    expandSecret c h key info out max = .ok x ↔
      (key.length ≠ 0 ∧ key.length ≤ 64) ∧ c.expand h key info out = some x ∧ x.length ≠ 0 ∧ x.length ≤ max := by
  unfold expandSecret
  simp only [Res.bind_ok, sized_ok, Res.ofOption_ok]
  constructor
  · rintro ⟨_, ⟨h1, h2, rfl⟩, _, h3, h4, h5, rfl⟩; exact ⟨⟨h1, h2⟩, h3, h4, h5⟩
  · rintro ⟨⟨h1, h2⟩, h3, h4, h5⟩; exact ⟨_, ⟨h1, h2, rfl⟩, _, h3, h4, h5, rfl⟩

end KeySched

namespace Session
open KeySched

theorem genHandshake_ok {c : Crypto} {v : SpdmVersion} {th1 : Bytes} {s s' : Session} :
    genHandshake c v th1 s = .ok () s' ↔ ∃ a b fa fb ka kb,
      reqHandshake c v s.hash s.usePsk s.hsRoot s.pskHint th1 = .ok a ∧
      rspHandshake c v s.hash s.usePsk s.hsRoot s.pskHint th1 = .ok b ∧
      finishedKey c v s.hash a = .ok fa ∧ finishedKey c v s.hash b = .ok fb ∧
      aeadKeyIv c v s.hash s.aead a = .ok ka ∧ aeadKeyIv c v s.hash s.aead b = .ok kb ∧
      s' = { s with hs := { reqSecret := a, rspSecret := b, reqFinished := fa, rspFinished := fb,
                            req := { key := ka.1, salt := ka.2, seq := s.hs.req.seq },
                            rsp := { key := kb.1, salt := kb.2, seq := s.hs.rsp.seq } } } := by
  unfold genHandshake
  constructor
  · intro h
    simp only [M.bind_ok, M.get_apply, Out.ok.injEq, Res.lift_ok_iff, M.modify_apply, exists_and_left, exists_eq_left', and_assoc] at h
    obtain ⟨a, h1, _, _, b, h2, _, _, fa, h3, _, _, fb, h4, _, _, ka, h5, _, _, kb, h6, _, rfl⟩ := h
    exact ⟨a, b, fa, fb, ka, kb, h1, h2, h3, h4, h5, h6, rfl⟩
  · rintro ⟨a, b, fa, fb, ka, kb, h1, h2, h3, h4, h5, h6, rfl⟩
    simp [h1, h2, h3, h4, h5, h6, Res.lift]

theorem genData_ok {c : Crypto} {v : SpdmVersion} {th2 : Bytes} {s s' : Session} :
    genData c v th2 s = .ok () s' ↔ ∃ a b ka kb e,
      reqData c v s.hash s.usePsk s.master s.pskHint th2 = .ok a ∧
      rspData c v s.hash s.usePsk s.master s.pskHint th2 = .ok b ∧
      aeadKeyIv c v s.hash s.aead a = .ok ka ∧ aeadKeyIv c v s.hash s.aead b = .ok kb ∧
      exportMaster c v s.hash s.usePsk s.master s.pskHint = .ok e ∧
      s' = { s with app := { reqSecret := a, rspSecret := b, exportMaster := e,
                             req := { key := ka.1, salt := ka.2, seq := s.app.req.seq },
                             rsp := { key := kb.1, salt := kb.2, seq := s.app.rsp.seq } } } := by
  unfold genData
  constructor
  · intro h
    simp only [M.bind_ok, M.get_apply, Out.ok.injEq, Res.lift_ok_iff, M.modify_apply, exists_and_left, exists_eq_left', and_assoc] at h
    obtain ⟨a, h1, _, _, b, h2, _, _, ka, h3, _, _, kb, h4, _, _, e, h5, _, rfl⟩ := h
    exact ⟨a, b, ka, kb, e, h1, h2, h3, h4, h5, rfl⟩
  · rintro ⟨a, b, ka, kb, e, h1, h2, h3, h4, h5, rfl⟩
    simp [h1, h2, h3, h4, h5, Res.lift]

theorem setDheSecret_ok {c : Crypto} {v : SpdmVersion} {dhe : Bytes} {s s' : Session} :
    setDheSecret c v dhe s = .ok () s' ↔ ∃ a b, handshakeSecret c s.hash dhe = .ok a ∧ masterSecret c v s.hash a = .ok b ∧
      s' = { s with dheSecret := dhe, hsRoot := a, master := b } := by
  unfold setDheSecret
  constructor
  · intro h
    simp only [M.bind_ok, M.get_apply, Out.ok.injEq, Res.lift_ok_iff, M.modify_apply, exists_and_left, exists_eq_left', and_assoc] at h
    obtain ⟨_, _, a, h1, b, h2, _, rfl⟩ := h
    exact ⟨a, b, h1, h2, rfl⟩
  · rintro ⟨a, b, h1, h2, rfl⟩
    simp [h1, h2, Res.lift]

theorem createReq_ok {c : Crypto} {v : SpdmVersion} {s s' : Session} :
    createReq c v s = .ok () s' ↔ ∃ a k, updateSecret c v s.hash s.app.reqSecret = .ok a ∧
      aeadKeyIv c v s.hash s.aead a = .ok k ∧
      s' = { s with backup := { s.backup with reqSecret := s.app.reqSecret, req := s.app.req },
                    app := { s.app with reqSecret := a, req := { key := k.1, salt := k.2, seq := 0 } } } := by
  unfold createReq
  constructor
  · intro h
    simp only [M.bind_ok, M.get_apply, Out.ok.injEq, Res.lift_ok_iff, M.modify_apply, exists_and_left, exists_eq_left', and_assoc] at h
    obtain ⟨_, _, a, h1, _, _, k, h2, _, rfl⟩ := h
    exact ⟨a, k, h1, h2, rfl⟩
  · rintro ⟨a, k, h1, h2, rfl⟩
    simp [h1, h2, Res.lift]

theorem createRsp_ok {c : Crypto} {v : SpdmVersion} {s s' : Session} :
    createRsp c v s = .ok () s' ↔ ∃ a k, updateSecret c v s.hash s.app.rspSecret = .ok a ∧
      aeadKeyIv c v s.hash s.aead a = .ok k ∧
      s' = { s with backup := { s.backup with rspSecret := s.app.rspSecret, rsp := s.app.rsp },
                    app := { s.app with rspSecret := a, rsp := { key := k.1, salt := k.2, seq := 0 } } } := by
  unfold createRsp
  constructor
  · intro h
    simp only [M.bind_ok, M.get_apply, Out.ok.injEq, Res.lift_ok_iff, M.modify_apply, exists_and_left, exists_eq_left', and_assoc] at h
    obtain ⟨_, _, a, h1, _, _, k, h2, _, rfl⟩ := h
    exact ⟨a, k, h1, h2, rfl⟩
  · rintro ⟨a, k, h1, h2, rfl⟩
    simp [h1, h2, Res.lift]

theorem createUpdate_ok {c : Crypto} {v : SpdmVersion} {req rsp : Bool} {s s' : Session} :
    createUpdate c v req rsp s = .ok () s' ↔ ∃ s1, (if req then createReq c v s = .ok () s1 else s1 = s) ∧
      (if rsp then createRsp c v s1 = .ok () s' else s' = s1) := by
  unfold createUpdate
  cases h : createReq c v s <;> cases req <;> cases rsp <;> simp [h] <;> simp [eq_comm]

end Session
end Verif
