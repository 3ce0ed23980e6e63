/-
GET_CERTIFICATE over a link, seen from both sides.
-/
import Verif.Requester.Linked
import Verif.Requester.Chain
import Verif.Responder.Transcript
import Verif.Props.Cert

namespace Verif
namespace Req
open Rsp

variable {e : REnv} {f : Env} {r0 : Ctx}

/-- what GET_CERTIFICATE leaves unchanged at the responder, apart from the connection state, which only advances. -/
structure SameRsp (rc rc' : Ctx) : Prop where
  neg : rc'.neg = rc.neg
  prov : rc'.prov = rc.prov
  config : rc'.config = rc.config
  sessions : rc'.sessions = rc.sessions
  transcript : rc'.rt.messageA = rc.rt.messageA
  state : rc.rt.state.code ≤ rc'.rt.state.code

theorem SameRsp.refl (c : Ctx) : SameRsp c c := ⟨rfl, rfl, rfl, rfl, rfl, Nat.le_refl _⟩

theorem SameRsp.trans {a b c : Ctx} (h : SameRsp a b) (h' : SameRsp b c) : SameRsp a c :=
  ⟨h'.neg.trans h.neg, h'.prov.trans h.prov, h'.config.trans h.config, h'.sessions.trans h.sessions, h'.transcript.trans h.transcript, Nat.le_trans h.state h'.state⟩

theorem certificate_left {rc : Ctx} (b q : Bytes) (pkt : Bytes) :
    SameRsp rc (withState (afterState 0x02 (addB b (addB q (Ctx.resetBuffers .reqGetCertificate none rc))).rt.state) (withSent pkt (addB b (addB q (Ctx.resetBuffers .reqGetCertificate none rc))))) := by
  refine ⟨rfl, rfl, rfl, rfl, rfl, ?_⟩
  show rc.rt.state.code ≤ (afterState 0x02 rc.rt.state).code
  unfold afterState
  simp only [show (0x02 : UInt8) ≠ 0x04 by decide, show (0x02 : UInt8) ≠ 0x61 by decide, show (0x02 : UInt8) ≠ 0x63 by decide, show (0x02 : UInt8) ≠ 0x01 by decide, if_false, if_true]
  split
  · rename_i h
    show rc.rt.state.code ≤ 5
    omega
  · exact Nat.le_refl _

theorem certHeard_eq {v p p' : UInt8} {m : CertRsp} {a b : UInt16} {d rest rest' : Bytes} {slot : UInt8} (hd : d.length = min a.toNat 512) (hm : m.data.length = min m.portion.toNat 512)
    (h : [v, 0x02, slot, p'] ++ putU16 a ++ putU16 b ++ d ++ rest = certHeard v p m ++ rest') : m.slot = slot ∧ m.portion = a ∧ m.remainder = b ∧ m.data = d := by
  unfold certHeard at h
  simp only [putU16, List.cons_append, List.nil_append, List.cons.injEq, List.append_assoc] at h
  obtain ⟨-, -, h1, -, h2, h3, h4, h5, h6⟩ := h
  have e1 : m.portion = a := by
    apply UInt16.toNat_inj.1
    have a1 := congrArg UInt8.toNat h2
    have a2 := congrArg UInt8.toNat h3
    have := a.toNat_lt
    have := m.portion.toNat_lt
    simp [Nat.shiftRight_eq_div_pow] at a1 a2
    omega
  have e2 : m.remainder = b := by
    apply UInt16.toNat_inj.1
    have a1 := congrArg UInt8.toNat h4
    have a2 := congrArg UInt8.toNat h5
    have := b.toNat_lt
    have := m.remainder.toNat_lt
    simp [Nat.shiftRight_eq_div_pow] at a1 a2
    omega
  refine ⟨h1.symm, e1, e2, ?_⟩
  rw [e1] at hm
  exact ((List.append_inj h6 (by omega)).1).symm

/-- one portion. -/
theorem linked_portion (hl : Linked e f r0) {c c' rc : Ctx} {slot : UInt8} {total off len : UInt16} {out : UInt16 × UInt16}
    (hrun : Toy.runAll f r0 c.sent = some rc) (hsz : ∀ i ch, rc.prov.chain i = some ch → ch.length < 65536)
    (h : getCertificatePartial e none slot total off len c = .ok out c') :
    ∃ rc' chain temp, slot = 0 ∧ rc.prov.chain 0 = some chain ∧ off.toNat ≤ chain.length ∧ Toy.runAll f r0 c'.sent = some rc' ∧ SameRsp rc rc' ∧
      (let n := Props.portionLen chain.length off.toNat len.toNat
      out.1.toNat = n ∧ out.2.toNat = chain.length - off.toNat - n ∧ c.peer.temp = some temp ∧
      c'.peer = { c.peer with temp := some (storePortion off ⟨0, out.1, out.2, (chain.drop off.toNat).take n⟩ temp) }) ∧
      c'.neg = c.neg ∧ c'.prov = c.prov ∧ c'.config = c.config ∧ c'.sessions = c.sessions ∧ c'.rt.messageA = c.rt.messageA := by
  obtain ⟨bytes, c1, p, m, temp, hs, ⟨cc, hcc, v0, k0, t0, p0, r0', q1, q2, q3⟩, h3, h4, h5, h6, h7, h8⟩ := getCertificatePartial_ok h
  have hfields := hs.fields
  have hs' := hs
  obtain ⟨pkt, pk, s1, s2, s3, rfl⟩ := hs
  have hb : bytes = v0 :: k0 :: t0 := q1
  have hbh : ∃ rest, bytes = certHeard c.neg.version.get p m ++ rest := ⟨bytes.drop r0'.used, by rw [q3]; simp⟩
  obtain ⟨rest, hrest⟩ := hbh
  have hb2 : bytes = c.neg.version.get :: 0x02 :: (([m.slot] ++ [p] ++ putU16 m.portion ++ putU16 m.remainder ++ m.data) ++ rest) := by
    rw [hrest]; rfl
  obtain ⟨rc0, rc', pad, pad', b, c2, pktr, g1, g2, g3, g4, g5⟩ := hl.answer (x := certificateRsp f none) (k := 0x82) (r := 0x02) hs' hb2 (fun _ => rfl)
    (fun t => codes_certificateRsp none _) (by decide) (by decide)
  rw [hrun] at g1
  cases g1
  have hd := certificate_does (e := f) (c.neg.version.get :: 0x82 :: (slot :: 0 :: (putU16 off ++ putU16 len) ++ pad)) rc hsz
  rcases g4 with g4 | ⟨rep, g4, _, g6⟩
  swap
  · exact absurd (M.wp.err hd g4) g6
  obtain ⟨_, v, k, p', off', len', t', chain, w1, w2, w3, w4, w5, w6⟩ := M.wp.ok hd g4
  simp only [putU16, List.cons_append, List.nil_append, List.cons.injEq, List.append_assoc] at w1
  obtain ⟨rfl, rfl, rfl, rfl, x1, x2, x3, x4, rfl⟩ := w1
  have hoff : off' = off := by
    apply UInt16.toNat_inj.1
    have a1 := congrArg UInt8.toNat x1
    have a2 := congrArg UInt8.toNat x2
    have := off.toNat_lt
    have := off'.toNat_lt
    simp [Nat.shiftRight_eq_div_pow] at a1 a2
    omega
  have hlen : len' = len := by
    apply UInt16.toNat_inj.1
    have a1 := congrArg UInt8.toNat x3
    have a2 := congrArg UInt8.toNat x4
    have := len.toNat_lt
    have := len'.toNat_lt
    simp [Nat.shiftRight_eq_div_pow] at a1 a2
    omega
  subst hoff hlen
  have hsmall := hsz _ _ w3
  have hpl : Props.portionLen chain.length off'.toNat len'.toNat ≤ 512 ∧ Props.portionLen chain.length off'.toNat len'.toNat ≤ chain.length - off'.toNat := by
    unfold Props.portionLen; omega
  generalize hn : Props.portionLen chain.length off'.toNat len'.toNat = n at hpl
  have hn1 : (UInt16.ofNat n).toNat = n := UInt16.toNat_ofNat_of_lt' (by show _ < 65536; omega)
  have hn2 : (UInt16.ofNat (chain.length - off'.toNat - n)).toNat = chain.length - off'.toNat - n := UInt16.toNat_ofNat_of_lt' (by show _ < 65536; omega)
  have hcm : [c.neg.version.get, 0x02, 0, 0] ++ putU16 (UInt16.ofNat n) ++ putU16 (UInt16.ofNat (chain.length - off'.toNat - n)) ++ (chain.drop off'.toNat).take n ++ pad' =
      certHeard c.neg.version.get p m ++ rest := by
    rw [← hrest, g3, w5]
    unfold Props.certMessage
    rw [hn]
  obtain ⟨d1, d2, d3, d4⟩ := certHeard_eq (by rw [hn1, List.length_take, List.length_drop]; omega) h5 hcm
  have hc' : c' = addB (certHeard c.neg.version.get p m) (addB (certAsk c.neg.version.get 0 off' len') { withSent pkt c with peer := { c.peer with temp := some (storePortion off' m temp) } }) := by
    rw [h8, if_pos rfl]
  refine ⟨rc', chain, temp, rfl, w3, w4, ?_, ?_, ⟨?_, ?_, h7, ?_⟩, ?_⟩
  · rw [hc']; exact g2
  · rw [g5, w6]; exact certificate_left _ _ _
  · exact (show out.1.toNat = n by rw [h6, d2, hn1]).trans hn.symm
  · rw [hn]
    show out.2.toNat = _
    rw [h6, d3, hn2]
  · rw [hc', h6]
    have : (⟨0, m.portion, m.remainder, (chain.drop off'.toNat).take n⟩ : CertRsp) = m := by rw [← d4, ← h4]
    show _ = _
    rw [hn]
    dsimp only
    rw [this]
    rfl
  · rw [hc']; exact ⟨rfl, rfl, rfl, rfl, rfl⟩

/-- what GET_CERTIFICATE leaves unchanged at the requester. -/
structure SameReq (c c' : Ctx) : Prop where
  neg : c'.neg = c.neg
  prov : c'.prov = c.prov
  config : c'.config = c.config
  sessions : c'.sessions = c.sessions
  transcript : c'.rt.messageA = c.rt.messageA

theorem SameReq.trans {a b c : Ctx} (h : SameReq a b) (h' : SameReq b c) : SameReq a c :=
  ⟨h'.neg.trans h.neg, h'.prov.trans h.prov, h'.config.trans h.config, h'.sessions.trans h.sessions, h'.transcript.trans h.transcript⟩

/-- all portions, one after the other. -/
theorem linked_loop (hl : Linked e f r0) (fuel : Nat) {c c' rc : Ctx} {slot : UInt8} {total off len out : UInt16} {chain : Bytes}
    (hrun : Toy.runAll f r0 c.sent = some rc) (hsz : ∀ i ch, rc.prov.chain i = some ch → ch.length < 65536)
    (hch : len ≠ 0 ∨ rc.prov.chain 0 = some chain) (hend : len = 0 → off.toNat = chain.length ∧ slot = 0)
    (ht : ∀ ch, rc.prov.chain 0 = some ch → off.toNat ≤ ch.length ∧ c.peer.temp = some (ch.take off.toNat)) 
    (h : certificateLoop e none slot fuel total off len c = .ok out c') :
    ∃ rc' chain, slot = 0 ∧ rc.prov.chain 0 = some chain ∧ Toy.runAll f r0 c'.sent = some rc' ∧ SameRsp rc rc' ∧ c'.peer = { c.peer with temp := some chain } ∧ SameReq c c' := by
  induction fuel generalizing c rc total off len chain with
  | zero => cases h
  | succ fuel ih =>
    unfold certificateLoop at h
    by_cases hz : len = 0
    · rw [if_pos hz] at h
      cases h
      have hch := hch.resolve_left (fun hx => hx hz)
      obtain ⟨h1, h2⟩ := ht _ hch
      refine ⟨rc, chain, (hend hz).2, hch, hrun, .refl _, ?_, ⟨rfl, rfl, rfl, rfl, rfl⟩⟩
      rw [(hend hz).1, List.take_length] at h2
      rw [← h2]
    · rw [if_neg hz] at h
      obtain ⟨⟨portion, remainder⟩, c1, h1, h2⟩ := M.bind_ok.1 h
      obtain ⟨rc1, ch, temp, k0, k1, k2, k3, k4, ⟨k5, k6, k7, k8⟩, k9, k10, k11, k12, k13⟩ := linked_portion hl hrun hsz h1
      dsimp only at k5 k6 k8
      have hsm := hsz _ _ k1
      have hpl : Props.portionLen ch.length off.toNat len.toNat ≤ 512 ∧ Props.portionLen ch.length off.toNat len.toNat ≤ ch.length - off.toNat := by
        unfold Props.portionLen; omega
      generalize hn : Props.portionLen ch.length off.toNat len.toNat = n at *
      obtain ⟨_, t2⟩ := ht _ k1
      rw [k7] at t2
      have t2 := Option.some.inj t2
      subst t2
      have hadd : (off + portion).toNat = off.toNat + n := by
        rw [UInt16.toNat_add, k5]; omega
      have hst : storePortion off ⟨0, portion, remainder, (ch.drop off.toNat).take n⟩ (ch.take off.toNat) = ch.take (off.toNat + n) := by
        unfold storePortion
        have hl : (ch.take off.toNat).length = off.toNat := by rw [List.length_take]; omega
        dsimp only
        rw [hl, k5, List.take_add, Nat.sub_self, List.replicate_zero, List.append_nil, List.take_take, List.take_take, Nat.min_self, Nat.min_self]
      rw [hst] at k8
      obtain ⟨rc', chain', g0, g1, g2, g3, g4, g5⟩ := ih (c := c1) (rc := rc1) (chain := ch) k3 (by rw [k4.prov]; exact hsz) (.inr (by rw [k4.prov]; exact k1))
        (by
          intro hx
          refine ⟨?_, k0⟩
          rw [hadd]
          have hr : remainder = 0 := by
            split at hx
            · cases hx
            · exact hx
          rw [hr] at k6
          have : (0 : UInt16).toNat = 0 := rfl
          omega)
        (by
          intro ch' hch'
          rw [k4.prov, k1] at hch'
          cases hch'
          rw [hadd]
          exact ⟨by omega, by rw [k8]⟩) h2
      rw [k4.prov, k1] at g1
      cases g1
      refine ⟨rc', ch, k0, k1, g2, k4.trans g3, ?_, SameReq.trans ⟨k9, k10, k11, k12, k13⟩ g5⟩
      rw [g4, k8]

/-- A successful `get_certificate` outside a session leaves the requester with exactly the chain the responder serves. -/
theorem linked_certificate (hl : Linked e f r0) {fuel : Nat} {c c' rc : Ctx} {slot : UInt8} {u : Unit}
    (hrun : Toy.runAll f r0 c.sent = some rc) (hsz : ∀ i ch, rc.prov.chain i = some ch → ch.length < 65536)
    (h : getCertificate e fuel none slot c = .ok u c') :
    ∃ rc' chain, slot = 0 ∧ rc.prov.chain 0 = some chain ∧ Toy.runAll f r0 c'.sent = some rc' ∧ SameRsp rc rc' ∧ c'.peer.chain 0 = some chain ∧
      (∀ i, i ≠ 0 → c'.peer.chain i = c.peer.chain i) ∧ SameReq c c' := by
  obtain ⟨i, c1, h1, h2⟩ := M.bind_ok.1 h
  obtain ⟨hi, rfl⟩ := ofOption_ok.1 h1
  obtain ⟨_, c2, h3, h4⟩ := M.bind_ok.1 h2
  rw [M.modify_apply] at h3
  injection h3 with _ h3
  obtain ⟨_, c3, h5, h6⟩ := M.bind_ok.1 h4
  rw [M.modify_apply] at h5
  injection h5 with _ h5
  obtain ⟨total, c4, h7, h8⟩ := M.bind_ok.1 h6
  have hr : Ctx.resetBuffers .reqGetCertificate none c1 = Ctx.resetM none c1 := rfl
  have hsame : SameReq c1 c3 ∧ c3.sent = c1.sent ∧ c3.peer = { c1.peer with temp := some [] } := by
    rw [← h5, ← h3, hr]
    exact ⟨⟨rfl, rfl, rfl, rfl, rfl⟩, rfl, rfl⟩
  obtain ⟨s1, s2, s3⟩ := hsame
  rw [← s2] at hrun
  obtain ⟨rc', chain, g0, g1, g2, g3, g4, g5⟩ := linked_loop hl fuel (chain := []) hrun hsz (.inl (by decide)) (fun hx => absurd hx (by decide))
    (fun ch _ => ⟨Nat.zero_le _, by rw [s3]; rfl⟩) h7
  obtain ⟨_, chain', k1, k2, k3⟩ := storeChain_ok h8
  rw [g4] at k1
  cases k1
  subst g0
  have hi0 : i = 0 := by
    unfold Ctx.slot? at hi
    split at hi
    · cases hi; rfl
    · cases hi
  subst hi0
  refine ⟨rc', chain, rfl, g1, by rw [k3]; exact g2, g3, by rw [k3]; rfl, ?_, ?_⟩
  · intro i hi
    rw [k3]
    dsimp only
    rw [if_neg hi, g4, s3]
  · rw [k3]
    exact s1.trans ⟨g5.neg, g5.prov, g5.config, g5.sessions, g5.transcript⟩

end Req
end Verif
