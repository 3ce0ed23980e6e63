/-
Where the signature and the HMAC of a decoded response stand in its bytes.
-/
import Verif.Msg.Bounds
import Verif.Msg.Ext
import Verif.Responder.Handlers

namespace Verif

theorem ChallengeAuth.read_tail {c : Cc} {r r' : Reader} {m : ChallengeAuth} (h : ChallengeAuth.read c r = .ok m r') :
    c.SigOk m.signature ∧ ∃ pre, r.After (pre ++ m.signature) r' := by
  simp only [ChallengeAuth.read, Rd.none, rdNonce, M.bind_ok, M.guard_ok, M.pure_ok, rdU8_ok, rdDigest_ok, rdSignature_ok,
    rdOpaque_ok, rdBytes_ok] at h
  obtain ⟨p, _, h1, hp, sm, _, h2, ch, _, ⟨h3, h3'⟩, n, _, ⟨h4, h4'⟩, s, _, h5, o, _, ⟨h6, h6'⟩, sg, _, ⟨h7, h7'⟩, rfl, rfl⟩ := h
  obtain ⟨h5, h5'⟩ := rdOptDigest_ok h5
  exact ⟨h7, _, (h1.trans (h2.trans (h3'.trans (h4'.trans (h5'.trans h6'))))).trans h7'⟩

theorem Meas.read_tail {c : Cc} {r r' : Reader} {m : Meas} (h : Meas.read c r = .ok m r') :
    OptOk c.needSig c.SigOk m.signature ∧ ∃ n p, r.After (([n] ++ [p] ++ m.record.wire ++ m.nonce ++ opaqueWire m.opaq) ++ m.signature) r' := by
  simp only [Meas.read, rdNonce, M.bind_ok, M.pure_ok, rdU8_ok, rdOpaque_ok, rdBytes_ok] at h
  obtain ⟨n, _, h1, p, _, h2, rec, _, h3, nn, _, ⟨h4, h4'⟩, o, _, ⟨h5, h5'⟩, sg, _, h6, rfl, rfl⟩ := h
  obtain ⟨h6, h6'⟩ := rdOptSig_ok h6
  obtain ⟨h3, h3'⟩ := MeasRecord.read_ok h3
  exact ⟨h6, n, p, ((((h1.trans h2).trans h3').trans h4').trans h5').trans h6'⟩

theorem KeyExRsp.read_tail {c : Cc} {r r' : Reader} {m : KeyExRsp} (h : KeyExRsp.read c r = .ok m r') :
    c.SigOk m.signature ∧ OptOk (!c.inClear) c.DigestOk m.verify ∧ ∃ pre, r.After (pre ++ m.signature ++ m.verify) r' := by
  simp only [KeyExRsp.read, Rd.none, rdNonce, M.bind_ok, M.guard_ok, M.pure_ok, rdU8_ok, rdU16_ok, rdBytes_ok,
    rdDhe_ok, rdOpaque_ok, rdSignature_ok] at h
  obtain ⟨_, _, h1, _, _, h2, _, _, h3, ma, _, h4, _, _, _, h5, hm, _, _, ⟨h6, h6'⟩, _, _, ⟨h7, h7'⟩, _, _, h8, o, _, ⟨h9, h9'⟩,
    _, _, ⟨h10, h10'⟩, _, _, h11, rfl, rfl⟩ := h
  obtain ⟨h8, h8'⟩ := rdOptDigest_ok h8
  obtain ⟨h11, h11'⟩ := rdOptDigest_ok h11
  exact ⟨h10, h11, _, ((h1.trans (h2.trans (h3.trans (h4.trans (h5.trans (h6'.trans (h7'.trans (h8'.trans h9')))))))).trans h10').trans h11'⟩

theorem PskExRsp.read_tail {c : Cc} {r r' : Reader} {m : PskExRsp} (h : PskExRsp.read c r = .ok m r') :
    c.DigestOk m.verify ∧ ∃ pre, r.After (pre ++ m.verify) r' := by
  simp only [PskExRsp.read, Rd.none, M.bind_ok, M.guard_ok, M.pure_ok, rdU8_ok, rdU16_ok, rdBytes_ok, rdDigest_ok] at h
  obtain ⟨_, _, h1, _, _, h2, _, _, h3, _, _, h4, cl, _, h5, g1, g2, _, _, h6, g3, s, _, h7, b, _, ⟨h8, h8'⟩, d, _,
    ⟨h9, h9'⟩, v, _, ⟨h10, h10'⟩, rfl, rfl⟩ := h
  obtain ⟨h7, h7'⟩ := rdOptDigest_ok h7
  exact ⟨h10, _, (h1.trans (h2.trans (h3.trans (h4.trans (h5.trans (h6.trans (h7'.trans (h8'.trans h9')))))))).trans h10'⟩

theorem rdFinishRsp_tail {c : Cc} {r r' : Reader} {v : Bytes} (h : rdFinishRsp c r = .ok v r') :
    OptOk c.inClear c.DigestOk v ∧ ∃ a b, r.After ([a] ++ [b] ++ v) r' := by
  simp only [rdFinishRsp, M.bind_ok, M.pure_ok, rdU8_ok] at h
  obtain ⟨a, _, h1, b, _, h2, h3⟩ := h
  obtain ⟨h3, h3'⟩ := rdOptDigest_ok h3
  exact ⟨h3, a, b, (h1.trans h2).trans h3'⟩

theorem rdNoParams_tail {r r' : Reader} {u : Unit} (h : rdNoParams r = .ok u r') : ∃ a b, r.After [a, b] r' := by
  simp only [rdNoParams, M.bind_ok, M.pure_ok, rdU8_ok] at h
  obtain ⟨a, _, h1, b, _, h2, _, rfl⟩ := h
  exact ⟨a, b, h1.trans h2⟩

/-- the bytes a body takes after the two header bytes. -/
theorem After.message {v k : UInt8} {t bs : Bytes} {r' : Reader} (h : Reader.After ⟨t, 2⟩ bs r') :
    (v :: k :: t).take r'.used = v :: k :: bs ∧ t = bs ++ r'.rest := by
  obtain ⟨h1, h2⟩ := h
  dsimp only at h1 h2
  refine ⟨?_, h1⟩
  rw [h2, h1, Nat.add_comm 2]
  simp

theorem dropTail_append {pre sig : Bytes} {n : Nat} (hn : sig.length = n) : Rsp.dropTail n (pre ++ sig) = .ok pre := by
  unfold Rsp.dropTail
  rw [if_pos (by simp [hn])]
  congr 1
  rw [← hn, List.length_append, Nat.add_sub_cancel, List.take_left]

end Verif
