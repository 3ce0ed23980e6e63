/-
GET_CERTIFICATE as a whole, and the requester's transcripts.
-/
import Verif.Requester.Ops
import Verif.Spec.Requester

namespace Verif

namespace Req
open Rsp

variable {e : REnv}

/-- the requester's transcripts are those of the dialogue. -/
structure Follows (t : Spec.Transcripts) (c : Ctx) : Prop extends Props.Covers t c where
  cert : t.cert = false
  state : c.rt.state.code < 5

/-- every request asks for the bytes after those received, and every response is for the slot and not longer than asked for. -/
def Portions (v slot : UInt8) : Nat → List (Bytes × Bytes) → Prop
  | _, [] => True
  | off, (req, rsp) :: l => (∃ len : UInt16, len ≤ 512 ∧ req = certAsk v slot (UInt16.ofNat off) len ∧ rsp.take 3 = [v, 0x02, slot] ∧ (rsp.drop 8).length ≤ len.toNat) ∧
      Portions v slot (off + (rsp.drop 8).length) l

/-- the certificate chain in the responses. -/
def chainOf (l : List (Bytes × Bytes)) : Bytes := l.flatMap fun x => x.2.drop 8

theorem follows_b {ts : Spec.Transcripts} {c c2 : Ctx} {req rsp : Bytes} (h : Follows ts c) (hm : ts.m = none) (hk : req.getD 1 0 = 0x82) (hrt : c2.rt = c.rt) (hn : c2.neg = c.neg) :
    Follows (ts.heard req rsp) (addB rsp (addB req c2)) ∧ (ts.heard req rsp).m = none := by
  have ht : ts.heard req rsp = { ts with b := some (ts.m1m2 ++ req ++ rsp), m := none, cert := false } := by
    unfold Spec.Transcripts.heard Spec.Transcripts.after
    rw [hk]; simp
  rw [ht]
  refine ⟨⟨⟨?_, ?_, ?_⟩, rfl, ?_⟩, rfl⟩
  · show c2.rt.messageA = ts.a; rw [hrt]; exact h.a
  · rw [addB_m1m2, m1m2Of_addB]
    show _ = some (⟨c2.neg.baseHash, _⟩ : HashCtx)
    have : m1m2Of c2 = ⟨c2.neg.baseHash, ts.m1m2⟩ := by
      unfold m1m2Of Spec.Transcripts.m1m2
      rw [hrt, h.b, h.a, hn]
      cases ts.b <;> rfl
    rw [this]
  · show c2.rt.l1l2 = none; rw [hrt, h.m, hm]; rfl
  · show c2.rt.state.code < 5; rw [hrt]; exact h.state

theorem certHeard_facts (v p : UInt8) (m : CertRsp) : (certHeard v p m).drop 8 = m.data ∧ (certHeard v p m).take 3 = [v, 0x02, m.slot] := by
  simp [certHeard, putU16]

theorem accepted_bound {total offset length : UInt16} {m : CertRsp} (h : portionRefused total offset length m = false) (ho : offset.toNat ≤ 4096) :
    m.portion ≤ length ∧ offset.toNat + m.portion.toNat ≤ 4096 ∧ offset.toNat + m.portion.toNat + m.remainder.toNat < 4096 ∧
    (total ≠ 0 → total.toNat = offset.toNat + m.portion.toNat + m.remainder.toNat) := by
  unfold portionRefused at h
  simp only [Bool.or_eq_false_iff, decide_eq_false_iff_not, Bool.and_eq_false_iff] at h
  obtain ⟨⟨⟨h1, h2⟩, h3⟩, h4⟩ := h
  have h1 : m.portion ≤ length := by simpa using h1
  have hs : (4096 - offset : UInt16).toNat = 4096 - offset.toNat := UInt16.toNat_sub_of_le _ _ (UInt16.le_iff_toNat_le.2 ho)
  have h2 : m.portion.toNat ≤ 4096 - offset.toNat := by
    rw [← hs]; exact UInt16.le_iff_toNat_le.1 (by simpa using h2)
  have hs2 : (4096 - offset - m.portion : UInt16).toNat = 4096 - offset.toNat - m.portion.toNat := by
    rw [UInt16.toNat_sub_of_le _ _ (UInt16.le_iff_toNat_le.2 (by rw [hs]; exact h2)), hs]
  have h3 : m.remainder.toNat < 4096 - offset.toNat - m.portion.toNat := by
    rw [← hs2]; exact UInt16.lt_iff_toNat_lt.1 (by simpa using h3)
  refine ⟨h1, by omega, by omega, fun ht => ?_⟩
  rcases h4 with h4 | h4
  · exact absurd ht h4
  · have h4 : total = offset + m.portion + m.remainder := by simpa using h4
    rw [h4, UInt16.toNat_add, UInt16.toNat_add]
    omega

theorem certificateLoop_ok {sid : Option UInt32} {slot : UInt8} (fuel : Nat) {total offset length out : UInt16} {c c' : Ctx} {temp : Bytes}
    (ht : c.peer.temp = some temp) (ho : temp.length = offset.toNat) (hb : offset.toNat ≤ 4096) (hl : length ≤ 512)
    (h : certificateLoop e sid slot fuel total offset length c = .ok out c') :
    ∃ l, Heard e sid c l c' ∧ Portions c.neg.version.get slot offset.toNat l ∧ c'.peer = { c.peer with temp := some (temp ++ chainOf l) } ∧
      c'.neg = c.neg ∧ c'.prov = c.prov ∧ c'.config = c.config ∧
      (sid = none → ∀ ts : Spec.Transcripts, Follows ts c → ts.m = none → Follows (ts.heardAll l) c') ∧ (sid ≠ none → c'.rt = c.rt) := by
  induction fuel generalizing total offset length c temp with
  | zero => cases h
  | succ fuel ih =>
    unfold certificateLoop at h
    by_cases hz : length = 0
    · rw [if_pos hz] at h
      cases h
      refine ⟨[], .done rfl, trivial, ?_, rfl, rfl, rfl, fun _ ts hf _ => hf, fun _ => rfl⟩
      simp [chainOf, ← ht]
    · rw [if_neg hz] at h
      obtain ⟨⟨portion, remainder⟩, c1, h1, h2⟩ := M.bind_ok.1 h
      obtain ⟨bytes, c2, p, m, temp', k1, k2, k3, k4, k5, k6, k7, k8⟩ := getCertificatePartial_ok h1
      rw [ht] at k7
      have k7 := Option.some.inj k7
      subst k7
      obtain ⟨rfl, rfl⟩ := Prod.mk.inj k6
      obtain ⟨b1, b2, b3, _⟩ := accepted_bound k3 hb
      have hp512 : m.portion.toNat ≤ 512 := by
        have a := UInt16.le_iff_toNat_le.1 b1
        have b := UInt16.le_iff_toNat_le.1 hl
        have : (512 : UInt16).toNat = 512 := rfl
        omega
      have hdl : m.data.length = m.portion.toNat := by rw [k5]; omega
      have hst : storePortion offset m temp = temp ++ m.data := by
        unfold storePortion
        rw [← ho]
        simp [← hdl]
      have hadd : (offset + m.portion).toNat = offset.toNat + m.portion.toNat := by
        rw [UInt16.toNat_add]; omega
      obtain ⟨f1, f2, f3, f4, f5⟩ := k1.fields
      rw [hst] at k8
      dsimp only at k8
      have hpeer : c1.peer = { c.peer with temp := some (temp ++ m.data) } := by rw [k8]; split <;> rfl
      have hneg : c1.neg = c.neg := by rw [k8]; split <;> exact f1
      have hprov : c1.prov = c.prov := by rw [k8]; split <;> exact f4
      have hcfg : c1.config = c.config := by rw [k8]; split <;> exact f3
      have hsent : c1.sent = c2.sent ∧ c1.sessions = c2.sessions := by rw [k8]; split <;> exact ⟨rfl, rfl⟩
      obtain ⟨l, g1, g2, g3, g4, g5, g6, g7, g8⟩ := ih (temp := temp ++ m.data) (by rw [hpeer]) (by rw [List.length_append, ho, hdl, hadd])
        (by rw [hadd]; exact b2) (by split
                                     · exact UInt16.le_refl _
                                     · rename_i hr; simpa using hr) h2
      obtain ⟨d1, d2⟩ := certHeard_facts c.neg.version.get p m
      refine ⟨(certAsk c.neg.version.get slot offset length, certHeard c.neg.version.get p m) :: l, ?_, ?_, ?_, ?_, ?_, ?_, ?_, ?_⟩
      · refine .more (.refl c) k1 k2 (.quiet ?_ g1)
        exact ⟨hsent.1, by rw [hneg, f1], by rw [hsent.2]⟩
      · refine ⟨⟨length, hl, ?_, ?_, ?_⟩, ?_⟩
        · simp
        · rw [d2, k4]
        · rw [d1, hdl]; exact UInt16.le_iff_toNat_le.1 b1
        · rw [hneg, hadd] at g2
          rw [d1, hdl]; exact g2
      · rw [g3, hpeer]
        simp [chainOf, d1]
      · rw [g4, hneg]
      · rw [g5, hprov]
      · rw [g6, hcfg]
      · intro hs ts hf hm
        subst hs
        rw [if_pos rfl] at k8
        obtain ⟨q1, q2⟩ := follows_b (req := certAsk c.neg.version.get slot offset length) (rsp := certHeard c.neg.version.get p m)
          (c2 := { c2 with peer := { c.peer with temp := some (temp ++ m.data) } }) hf hm rfl f2 f1
        rw [← k8] at q1
        exact g7 rfl _ q1 q2
      · intro hs
        rw [if_neg hs] at k8
        rw [g8 hs, k8]
        exact f2

/-- What a stored certificate chain is checked against: its length field, the library's path validation, the root certificate's
digest, and the provisioned root if there is one. -/
structure ChainValid (e : REnv) (c : Ctx) (chain : Bytes) : Prop where
  ok : ∃ hs b en root, BaseHash.size? c.neg.baseHash = some hs ∧ 4 + hs < chain.length ∧
    chain.length = (chain.getD 0 0).toNat + 256 * (chain.getD 1 0).toNat ∧ e.verifyChain (chain.drop (4 + hs)) = true ∧
    e.certFromChain (chain.drop (4 + hs)) 0 = some (b, en) ∧ b ≤ en ∧ en ≤ 4096 ∧
    root = ((chain.drop (4 + hs) ++ List.replicate (4096 - (chain.length - (4 + hs))) 0).drop b).take (en - b) ∧
    e.crypto.hash c.neg.baseHash root = some ((chain.drop 4).take hs) ∧ (∀ p, c.prov.peerRoot = some p → root = p)

theorem sizeField_nat (chain : Bytes) : (sizeField chain).toNat = (chain.getD 0 0).toNat + 256 * (chain.getD 1 0).toNat := by
  unfold sizeField
  generalize chain.getD 0 0 = x
  generalize chain.getD 1 0 = y
  have h0 := x.toNat_lt
  have h1 := y.toNat_lt
  rw [UInt16.toNat_add, UInt16.toNat_shiftLeft]
  simp [Nat.shiftLeft_eq]
  omega

theorem verifyChain_ok {c : Ctx} {u : Unit} (h : verifyChain e c = .ok u) : ∃ chain, c.peer.temp = some chain ∧ ChainValid e c chain := by
  unfold verifyChain at h
  obtain ⟨chain, h1, h2⟩ := Res.bind_ok.1 h
  obtain ⟨hs, h3, h4⟩ := Res.bind_ok.1 h2
  by_cases hl : chain.length ≤ 4 + hs
  · rw [if_pos hl] at h4; cases h4
  rw [if_neg hl] at h4
  by_cases hz : (sizeField chain).toNat ≠ chain.length
  · rw [if_pos hz] at h4; cases h4
  rw [if_neg hz] at h4
  by_cases hv : e.verifyChain (chain.drop (4 + hs)) = false
  · rw [if_pos hv] at h4; cases h4
  rw [if_neg hv] at h4
  obtain ⟨⟨b, en⟩, h5, h6⟩ := Res.bind_ok.1 h4
  obtain ⟨root, h7, h8⟩ := Res.bind_ok.1 h6
  obtain ⟨d, h9, h10⟩ := Res.bind_ok.1 h8
  by_cases hd : d ≠ (chain.drop 4).take hs
  · rw [if_pos hd] at h10; cases h10
  rw [if_neg hd] at h10
  by_cases ha : rootAuthorised c root = false
  · rw [if_pos ha] at h10; cases h10
  have hd : d = (chain.drop 4).take hs := by simpa using hd
  subst hd
  have h7' : (b ≤ en ∧ en ≤ 4096) ∧ root = ((chain.drop (4 + hs) ++ List.replicate (4096 - (chain.drop (4 + hs)).length) 0).drop b).take (en - b) := by
    unfold rootSlice at h7
    by_cases hbe : b ≤ en ∧ en ≤ 4096
    · rw [if_pos hbe] at h7; exact ⟨hbe, (Res.ok.inj h7).symm⟩
    · rw [if_neg hbe] at h7; cases h7
  refine ⟨chain, Res.ofOption_ok.1 h1, ⟨hs, b, en, root, Res.unwrap_ok.1 h3, by omega, ?_, by simpa using hv, Res.ofOption_ok.1 h5, h7'.1.1, h7'.1.2, ?_, Res.ofOption_ok.1 h9, ?_⟩⟩
  · rw [← sizeField_nat]; omega
  · rw [h7'.2, List.length_drop]
  · intro p hp
    unfold rootAuthorised at ha
    rw [hp] at ha
    simpa using ha

theorem storeChain_ok {slot : Fin 8} {total : UInt16} {c c' : Ctx} {u : Unit} (h : storeChain e slot total c = .ok u c') :
    total ≠ 0 ∧ ∃ chain, c.peer.temp = some chain ∧ ChainValid e c chain ∧
      c' = { c with peer := { chain := fun j => if j = slot then some chain else c.peer.chain j, temp := none } } := by
  unfold storeChain at h
  obtain ⟨c1, c2, h1, h2⟩ := M.bind_ok.1 h
  cases h1
  by_cases ht : total = 0
  · rw [if_pos ht] at h2
    obtain ⟨_, _, _, h3⟩ := M.bind_ok.1 h2
    cases h3
  rw [if_neg ht] at h2
  refine ⟨ht, ?_⟩
  cases hv : verifyChain e c with
  | panic => rw [hv] at h2; cases h2
  | err st =>
    rw [hv] at h2
    obtain ⟨_, _, _, h3⟩ := M.bind_ok.1 h2
    cases h3
  | ok u =>
    rw [hv] at h2
    obtain ⟨chain, k1, k2⟩ := verifyChain_ok hv
    refine ⟨chain, k1, k2, ?_⟩
    dsimp only at h2
    rw [M.set_apply] at h2
    injection h2 with _ h2
    rw [← h2, k1]

/-- A successful GET_CERTIFICATE. -/
theorem getCertificate_ok {fuel : Nat} {sid : Option UInt32} {slot : UInt8} {c c' : Ctx} {u : Unit} (h : getCertificate e fuel sid slot c = .ok u c') :
    ∃ (i : Fin 8) (l : List (Bytes × Bytes)), i.val = slot.toNat ∧ Heard e sid c l c' ∧ Portions c.neg.version.get slot 0 l ∧ ChainValid e c (chainOf l) ∧
      c'.peer = { chain := fun j => if j = i then some (chainOf l) else c.peer.chain j, temp := none } ∧ c'.neg = c.neg ∧ c'.prov = c.prov ∧ c'.config = c.config ∧
      (sid = none → ∀ ts : Spec.Transcripts, Follows ts c → Follows (ts.heardAll l) c') ∧ (sid ≠ none → c'.rt = c.rt) := by
  obtain ⟨i, c1, h1, h2⟩ := M.bind_ok.1 h
  obtain ⟨hi, rfl⟩ := ofOption_ok.1 h1
  obtain ⟨_, c2, h3, h4⟩ := M.bind_ok.1 h2
  rw [M.modify_apply] at h3
  injection h3 with _ h3
  obtain ⟨_, c3, h5, h6⟩ := M.bind_ok.1 h4
  rw [M.modify_apply] at h5
  injection h5 with _ h5
  obtain ⟨total, c4, h7, h8⟩ := M.bind_ok.1 h6
  have hq : Quiet c1 c3 := by
    rw [← h5, ← h3]
    exact (quiet_reset _ _ _).trans ⟨rfl, rfl, rfl⟩
  have hr : Ctx.resetBuffers .reqGetCertificate sid c1 = Ctx.resetM sid c1 := rfl
  have hpeer : c3.peer = { c1.peer with temp := some [] } := by rw [← h5, ← h3, hr]; cases sid <;> rfl
  have hneg : c3.neg = c1.neg := by rw [← h5, ← h3, hr]; cases sid <;> rfl
  have hprov : c3.prov = c1.prov := by rw [← h5, ← h3, hr]; cases sid <;> rfl
  have hcfg : c3.config = c1.config := by rw [← h5, ← h3, hr]; cases sid <;> rfl
  obtain ⟨l, g1, g2, g3, g4, g5, g6, g7, g8⟩ := certificateLoop_ok (temp := []) fuel (by rw [hpeer]) rfl (by decide) (by decide) h7
  obtain ⟨_, chain, k1, k2, k3⟩ := storeChain_ok h8
  have hch : chain = chainOf l := by
    rw [g3] at k1
    have := Option.some.inj k1
    simpa using this.symm
  subst hch
  have hrt : c'.rt = c4.rt := by rw [k3]
  have hn4 : c4.neg = c1.neg := by rw [g4, hneg]
  have hp4 : c4.prov = c1.prov := by rw [g5, hprov]
  refine ⟨i, l, slot?_val hi, .quiet hq ?_, ?_, ?_, ?_, by rw [k3]; exact hn4, by rw [k3]; exact hp4, by rw [k3]; exact g6.trans hcfg, ?_, ?_⟩
  · have : ∀ {a b b' : Ctx} {l}, Heard e sid a l b → b'.sent = b.sent → Heard e sid a l b' := by
      intro a b b' l hl hb
      induction hl with
      | done h => exact .done (hb.trans h)
      | more a1 a2 a3 _ ih => exact .more a1 a2 a3 (ih hb)
    exact this g1 (by rw [k3])
  · rw [hneg] at g2; exact g2
  · obtain ⟨hs, b, en, root, j1, j2, j3, j4, j5, j6, j7, j8, j9, j10⟩ := k2.ok
    exact ⟨hs, b, en, root, by rw [← hn4]; exact j1, j2, j3, j4, j5, j6, j7, j8, by rw [← hn4]; exact j9, by rw [← hp4]; exact j10⟩
  · rw [k3, g3, hpeer]
  · intro hs ts hf
    subst hs
    have hf3 : Follows { ts with m := none } c3 := by
      rw [← h5, ← h3, hr]
      exact ⟨⟨hf.a, hf.b, rfl⟩, hf.cert, hf.state⟩
    have := g7 rfl _ hf3 rfl
    have hl : l ≠ [] := by
      rintro rfl
      obtain ⟨hs, b, en, root, j1, j2, -⟩ := k2.ok
      simp [chainOf] at j2
    have hts : Spec.Transcripts.heardAll { ts with m := none } l = ts.heardAll l := by
      match l, hl, g2 with
      | (req, rsp) :: l, _, g2 =>
        obtain ⟨⟨len, _, rfl, _⟩, _⟩ := g2
        unfold Spec.Transcripts.heardAll
        rw [List.foldl_cons, List.foldl_cons]
        congr 1
    rw [hts] at this
    exact ⟨⟨by rw [hrt]; exact this.a, by rw [hrt, k3]; exact this.b, by rw [hrt, k3]; exact this.m⟩, this.cert, by rw [hrt]; exact this.state⟩
  · intro hs
    rw [hrt, g8 hs, ← h5, ← h3, hr]
    cases sid with
    | none => exact absurd rfl hs
    | some i => rfl

end Req
end Verif
