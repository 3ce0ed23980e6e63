/-
What the three negotiation exchanges leave behind at the requester and at the responder it talks to.
-/
import Verif.Requester.Linked
import Verif.Props.Negotiation

namespace Verif
namespace Req
open Rsp Props

variable {e : REnv} {f : Env} {r0 : Ctx}

theorem append_take {a b : Bytes} {n : Nat} (h : n = a.length) : (a ++ b).take n = a := by rw [h]; simp

theorem linked_version (hl : Linked e f r0) {c c' : Ctx} {u : Unit} (h : getVersion e c = .ok u c') :
    ∃ rc, Toy.runAll f r0 c'.sent = some rc ∧ rc.neg = {} ∧ rc.rt.state = .afterVersion ∧ rc.rt.messageA = c'.rt.messageA ∧
      (∃ v, c'.neg = { c.neg with version := v }) ∧ c'.config = c.config := by
  obtain ⟨pkt, bytes, t, v, m, r', h1, h2, h3, h4, h5⟩ := getVersion_ok h
  obtain ⟨rc, rc', pad, pad', b, c1, pktr, g1, g2, g3, g4, g5⟩ := hl.answer (x := versionRsp) h1 h2 (fun _ => rfl) (fun t => codes_versionRsp _ t)
    (by decide) (by decide)
  have hx := versionRsp_ok 0 0 pad rc
  rcases g4 with g4 | ⟨rep, g4, _⟩
  · have g4' := g4
    rw [show ([0, 0] ++ pad : Bytes) = 0 :: 0 :: pad from rfl, hx] at g4'
    obtain ⟨rfl, rfl⟩ : versionBytes rc.config = b ∧ fresh rc [0x10, 0x84, 0, 0] = c1 := by
      injection g4' with q1 q2
      exact ⟨q1, q2⟩
    subst h5
    refine ⟨rc', g2, ?_, ?_, ?_, ⟨_, rfl⟩, rfl⟩
    · rw [g5]; rfl
    · rw [g5]; rfl
    · rw [g5]
      show [0x10, 0x84, 0, 0] ++ versionBytes rc.config = [0x10, 0x84, 0, 0] ++ List.take r'.used bytes
      have hu : r'.used = 12 := by
        rw [h2] at g3
        simp only [versionBytes, List.cons_append, List.nil_append, List.cons.injEq] at g3
        obtain ⟨_, _, rfl⟩ := g3
        have hN : rdN 3 VersionEntry.read ⟨0 :: rc.config.version0.get :: 0 :: rc.config.version1.get :: 0 :: rc.config.version2.get :: pad', 6⟩ =
            .ok [⟨0, .ofCode rc.config.version0.get⟩, ⟨0, .ofCode rc.config.version1.get⟩, ⟨0, .ofCode rc.config.version2.get⟩] ⟨pad', 12⟩ := by
          simp [rdN, VersionEntry.read, SpdmVersion.read]
        have hR : VersionRsp.read ⟨0 :: 0 :: 0 :: 3 :: 0 :: rc.config.version0.get :: 0 :: rc.config.version1.get :: 0 :: rc.config.version2.get :: pad', 2⟩ =
            .ok ⟨[⟨0, .ofCode rc.config.version0.get⟩, ⟨0, .ofCode rc.config.version1.get⟩, ⟨0, .ofCode rc.config.version2.get⟩]⟩ ⟨pad', 12⟩ := by
          unfold VersionRsp.read
          simp only [M.bind_apply, rdU8_cons]
          rw [if_neg (by decide)]
          simp only [M.bind_apply]
          have h33 : (3 : UInt8).toNat = 3 := rfl
          rw [h33, hN]
          rfl
        rw [hR] at h3
        cases h3
        rfl
      rw [g3, append_take (hu.trans rfl)]
  · rw [show ([0, 0] ++ pad : Bytes) = 0 :: 0 :: pad from rfl, hx] at g4
    cases g4

theorem getCapsWire_version {c c' : Cc} {m : Caps} (h : c.neg.version.get = c'.neg.version.get) : getCapsWire c m = getCapsWire c' m := by
  have h1 : c.ge11 = c'.ge11 := by unfold Cc.ge11 Cc.ver; rw [h]
  have h2 : c.ge12 = c'.ge12 := by unfold Cc.ge12 Cc.ver; rw [h]
  unfold getCapsWire
  rw [h1, h2]

theorem capsWire_version {c c' : Cc} {m : Caps} (h : c.neg.version.get = c'.neg.version.get) : capsWire c m = capsWire c' m := by
  have h2 : c.ge12 = c'.ge12 := by unfold Cc.ge12 Cc.ver; rw [h]
  unfold capsWire
  rw [h2]

/-- The responder `rc` and the requester `c` hold the same negotiated parameters; in SPDM 1.0, where GET_CAPABILITIES carries no flags, the
responder has none for the requester. -/
def SameNeg (rc c : Ctx) : Prop :=
  rc.neg = if 0x11 ≤ c.neg.version.get then c.neg else { c.neg with reqCaps := 0, reqCt := 0 }

/-- what a requester configured as `q` keeps after exchanging capabilities in version `v` with a responder configured as `r`. -/
def announced (v : SpdmVersion) (q r : Config) : Neg :=
  { version := v, reqCaps := q.reqCaps, reqCt := q.reqCt, rspCaps := r.rspCaps, rspCt := r.rspCt,
    reqDts := (if 0x12 ≤ v.get then q.dts else 0), reqMms := (if 0x12 ≤ v.get then q.mms else 0),
    rspDts := (if 0x12 ≤ v.get then r.dts else 0), rspMms := (if 0x12 ≤ v.get then r.mms else 0) }

theorem linked_capabilities (hl : Linked e f r0) {c c' : Ctx} {u : Unit} {rc : Ctx} (h : getCapabilities e c = .ok u c')
    (hrun : Toy.runAll f r0 c.sent = some rc) (hneg : rc.neg = {}) (hst : rc.rt.state = .afterVersion) (hA : rc.rt.messageA = c.rt.messageA)
    (hn : ∃ v, c.neg = { version := v }) (hq : c.config.reqCaps &&& Cap.reqMask = c.config.reqCaps)
    (hr : rc.config.rspCaps &&& Cap.rspMask = rc.config.rspCaps) (hfit : c'.rt.messageA.length ≤ 156) :
    ∃ rc', Toy.runAll f r0 c'.sent = some rc' ∧ SameNeg rc' c' ∧ rc'.rt.state = .afterCapabilities ∧ rc'.rt.messageA = c'.rt.messageA ∧
      rc'.config = rc.config ∧ c'.config = c.config ∧ c'.neg = announced c.neg.version c.config rc.config := by
  obtain ⟨req, pkt, bytes, t, m, r', h1, rfl, h2, hv, h3, h5⟩ := getCapabilities_ok h
  obtain ⟨rc0, rc', pad, pad', b, c1, pktr, g1, g2, g3, g4, g5⟩ := hl.answer (x := capabilityRsp) h1 h2 (fun _ => rfl)
    (fun t => codes_capabilityRsp (c.neg.version.get :: 0xE1 :: t)) (by decide) (by decide)
  rw [hrun] at g1
  cases g1
  by_cases hok : rc.rt.state = .afterVersion ∧ 0x10 ≤ c.neg.version.get ∧ ∃ m r',
      rdGetCaps { rc.cc with neg := { rc.neg with version := SpdmVersion.ofCode c.neg.version.get } } ⟨getCapsWire c.cc (capsRequest c.config) ++ pad, 2⟩ = .ok m r'
  · obtain ⟨_, hv10, m', s', hm'⟩ := hok
    have heq := capabilityRsp_eq (k := 0xE1) hst hv10 hm'
    have hver : (Cc.mk { rc.neg with version := SpdmVersion.ofCode c.neg.version.get } rc.cc.needSummary rc.cc.needSig).neg.version.get = c.cc.neg.version.get := by
      simp [Ctx.cc]
    rw [← getCapsWire_version (m := capsRequest c.config) hver] at hm' heq
    obtain ⟨rfl, rfl⟩ := rdGetCaps_w _ _ _ _ _ _ hm'
    have hcb : capsBytes c.neg.version.get rc.config = c.neg.version.get :: 0x61 :: capsWire c.cc ⟨rc.config.rspCt, rc.config.rspCaps, rc.config.dts, rc.config.mms⟩ := by
      have hz : putU16 0 = [0, 0] := by decide
      have h12 : c.cc.ge12 = true ↔ 0x12 ≤ c.neg.version.get := by simp [Cc.ge12, Cc.ver, Ctx.cc]
      unfold capsBytes capsWire
      simp only [h12, hz]
      rfl
    dsimp only at heq
    rw [show ((c.neg.version.get :: 0xE1 :: (getCapsWire (Cc.mk { rc.neg with version := SpdmVersion.ofCode c.neg.version.get } rc.cc.needSummary rc.cc.needSig)
        (capsRequest c.config) ++ pad)).take (2 + (getCapsWire (Cc.mk { rc.neg with version := SpdmVersion.ofCode c.neg.version.get } rc.cc.needSummary
        rc.cc.needSig) (capsRequest c.config)).length)) = c.neg.version.get :: 0xE1 :: getCapsWire c.cc (capsRequest c.config) from by
          rw [Nat.add_comm, getCapsWire_version (m := capsRequest c.config) hver]; simp] at heq
    rw [getCapsWire_version (m := capsRequest c.config) hver] at heq
    obtain ⟨v, hn⟩ := hn
    have hcv : c.neg.version = v := by rw [hn]
    -- what the requester made of the answer
    have hback : ∀ z, bytes = capsBytes c.neg.version.get rc.config ++ z → c'.rt.messageA = c.rt.messageA ++ (c.neg.version.get :: 0xE1 :: getCapsWire c.cc (capsRequest c.config)) ++ capsBytes c.neg.version.get rc.config ∧
        c'.neg = announced c.neg.version c.config rc.config := by
      intro z hz
      rw [hcb] at hz
      have hz' := hz
      rw [h2] at hz
      simp only [List.cons_append, List.cons.injEq, true_and] at hz
      rw [hz] at h3
      obtain ⟨rfl, rfl⟩ := rdCaps_w _ _ _ _ _ _ h3
      refine ⟨?_, ?_⟩
      · rw [h5, hcb]
        dsimp only
        rw [hz']
        congr 1
        exact append_take (by simp; omega)
      · rw [h5]
        have h12 : c.cc.ge12 = true ↔ 0x12 ≤ c.neg.version.get := by simp [Cc.ge12, Cc.ver, Ctx.cc]
        unfold setCaps announced capsSeen
        by_cases g : 0x12 ≤ c.neg.version.get
        · simp only [h12.2 g, if_true, g, hr]
          rw [hn]
        · have g' : ¬ c.cc.ge12 = true := fun k => g (h12.1 k)
          simp only [g', if_false, g, hr]
          rw [hn]
          rfl
    have hctx := capsCtx_neg c.neg.version.get (capsAsked (Cc.mk { rc.neg with version := SpdmVersion.ofCode c.neg.version.get } rc.cc.needSummary rc.cc.needSig) (capsRequest c.config)) rc
    have hrt : (capsCtx c.neg.version.get (capsAsked (Cc.mk { rc.neg with version := SpdmVersion.ofCode c.neg.version.get } rc.cc.needSummary rc.cc.needSig)
        (capsRequest c.config)) rc).rt.messageA = rc.rt.messageA ∧ (capsCtx c.neg.version.get (capsAsked (Cc.mk { rc.neg with version := SpdmVersion.ofCode c.neg.version.get } rc.cc.needSummary rc.cc.needSig)
        (capsRequest c.config)) rc).config = rc.config := by
      refine ⟨?_, ?_⟩
      · rw [capsCtx, (setCaps_fields _ _).2.1]
      · rw [capsCtx, (setCaps_fields _ _).2.2]
    generalize hcx : capsCtx c.neg.version.get (capsAsked (Cc.mk { rc.neg with version := SpdmVersion.ofCode c.neg.version.get } rc.cc.needSummary rc.cc.needSig)
        (capsRequest c.config)) rc = cx at *
    have hov : ∀ z, bytes = capsBytes c.neg.version.get rc.config ++ z →
        ¬ 156 < rc.rt.messageA.length + (c.neg.version.get :: 0xE1 :: getCapsWire c.cc (capsRequest c.config)).length + (capsBytes c.neg.version.get rc.config).length := by
      intro z hz
      have := (hback z hz).1
      rw [this] at hfit
      simp only [List.length_append] at hfit
      rw [hA]
      omega
    rcases g4 with g4 | ⟨rep, g4, g6, g7⟩
    · rw [heq] at g4
      split at g4
      · cases g4
      · split at g4
        · cases g4
        · obtain ⟨rfl, rfl⟩ : capsBytes c.neg.version.get rc.config = b ∧ _ = c1 := by
            injection g4 with q1 q2
            exact ⟨q1, q2⟩
          obtain ⟨k1, k2⟩ := hback _ g3
          have hsent : c'.sent = c.sent ++ [pkt] := by rw [h5]
          have hcfg : c'.config = c.config := by
            rw [h5]
            exact (Rsp.setCaps_fields m c).2.2
          refine ⟨rc', by rw [hsent]; exact g2, ?_, ?_, ?_, ?_, hcfg, k2⟩
          · rw [g5]
            unfold SameNeg
            show cx.neg = _
            rw [hctx, k2, hneg]
            have h11 : (Cc.mk { rc.neg with version := SpdmVersion.ofCode c.neg.version.get } rc.cc.needSummary rc.cc.needSig).ge11 = true ↔ 0x11 ≤ c.neg.version.get := by
              simp [Cc.ge11, Cc.ver]
            have h12 : (Cc.mk { rc.neg with version := SpdmVersion.ofCode c.neg.version.get } rc.cc.needSummary rc.cc.needSig).ge12 = true ↔ 0x12 ≤ c.neg.version.get := by
              simp [Cc.ge12, Cc.ver]
            have hav : (announced c.neg.version c.config rc.config).version = c.neg.version := rfl
            rw [hav]
            rw [hneg, hv] at h11 h12
            unfold capsNeg capsAsked announced capsRequest
            dsimp only
            rw [hv]
            by_cases g11 : 0x11 ≤ c.neg.version.get
            · by_cases g12 : 0x12 ≤ c.neg.version.get
              · simp only [h11.2 g11, h12.2 g12, g11, g12, if_true, hq]
              · have g12' := mt h12.1 g12
                simp only [h11.2 g11, g12', g11, g12, if_true, if_false, hq]
            · have g11' := mt h11.1 g11
              have g12 : ¬ 0x12 ≤ c.neg.version.get := fun k => g11 (UInt8.le_trans (by decide) k)
              have g12' := mt h12.1 g12
              simp only [g11', g12', g11, g12, if_false]
              rfl
          · rw [g5]; rfl
          · rw [g5, k1]
            show cx.rt.messageA ++ _ = _
            rw [hrt.1, hA, List.append_assoc]
          · rw [g5]
            exact hrt.2
    · rw [heq] at g4
      split at g4
      · injection g4 with q1 q2
        subst q1
        exact absurd rfl g7
      · split at g4
        · rename_i hover
          injection g4 with q1 q2
          subst q1
          obtain ⟨z, hz⟩ := writeError_pre g6
          exact absurd hover (hov (z ++ pad') (by rw [g3, ← hz, List.append_assoc]))
        · cases g4
  · rcases g4 with g4 | ⟨rep, g4, _, g6⟩
    · rcases capabilityRsp_refused (k := 0xE1) hok with hx | ⟨rep, c2, hx, _⟩ <;> rw [hx] at g4 <;> cases g4
    · rcases capabilityRsp_refused (k := 0xE1) hok with hx | ⟨rep, c2, hx, k1, _⟩ <;> rw [hx] at g4 <;> cases g4
      exact absurd k1 g6

/-- every flag or algorithm bit configured is a defined one (in the code these are bit flag types, which hold no other). -/
structure DefinedBits (cfg : Config) : Prop where
  reqCaps : cfg.reqCaps &&& Cap.reqMask = cfg.reqCaps
  rspCaps : cfg.rspCaps &&& Cap.rspMask = cfg.rspCaps
  measSpec : MeasSpec.WF cfg.measSpec
  measHash : MeasHash.WF cfg.measHash
  baseHash : BaseHash.WF cfg.baseHash
  baseAsym : BaseAsym.WF cfg.baseAsym
  dhe : Dhe.WF cfg.dhe
  aead : Aead.WF cfg.aead
  reqAsym : ReqAsym.WF cfg.reqAsym
  keySchedule : KeySchedule.WF cfg.keySchedule

theorem negAlgsWire_version {c c' : Cc} {m : NegAlgs} (h : c.neg.version.get = c'.neg.version.get) : negAlgsWire c m = negAlgsWire c' m := by
  have h1 : c.ge11 = c'.ge11 := by unfold Cc.ge11 Cc.ver; rw [h]
  have h2 : c.ge12 = c'.ge12 := by unfold Cc.ge12 Cc.ver; rw [h]
  unfold negAlgsWire
  rw [h1, h2]

theorem algsWire_version {c c' : Cc} {m : Algs} (h : c.neg.version.get = c'.neg.version.get) : algsWire c m = algsWire c' m := by
  have h1 : c.ge11 = c'.ge11 := by unfold Cc.ge11 Cc.ver; rw [h]
  have h2 : c.ge12 = c'.ge12 := by unfold Cc.ge12 Cc.ver; rw [h]
  unfold algsWire
  rw [h1, h2]

theorem algsBytes_eq {n : Neg} {c : Cc} (h : c.neg.version.get = n.version.get) :
    algsBytes n = n.version.get :: 0x63 :: algsWire c (algsOf n) := by
  have h12 : c.ge12 = true ↔ 0x12 ≤ n.version.get := by simp [Cc.ge12, Cc.ver, h]
  have h11 : c.ge11 = true ↔ 0x11 ≤ n.version.get := by simp [Cc.ge11, Cc.ver, h]
  unfold algsBytes algsWire
  simp only [h11, h12]
  by_cases h : 0x11 ≤ n.version.get
  · simp [h, algsOf, AlgStruct.wire, Alg.bits, AlgType.get]
  · simp [h, algsOf]

theorem chooses_mem {α : Type} [AndOp α] [OfNat α 0] {l : List α} {a b r : α} (h : Chooses l a b r) : r ∈ l ∨ r = 0 := by
  rcases h with ⟨x, y, h, _⟩ | ⟨h, _⟩
  · left; rw [h]; simp
  · exact .inr h

theorem chooses_none {l : List UInt16} {a r : UInt16} (hl : (0 : UInt16) ∉ l) (h : Chooses l 0 a r) : r = 0 := by
  rcases h with ⟨x, y, h, h1, _⟩ | ⟨h, _⟩
  · unfold Supports at h1
    rw [UInt16.zero_and] at h1
    exact h1.symm
  · exact h

/-- what a selection consists of is defined. -/
theorem selected_wf {cfg : Config} {m : NegAlgs} {n n' : Neg} (h : Selected cfg m n n') (hm : MeasHash.WF cfg.measHash) :
    MeasSpec.WF n'.measSpec ∧ MeasHash.WF n'.measHash ∧ BaseAsym.WF n'.baseAsym ∧ BaseHash.WF n'.baseHash ∧ ∀ a ∈ (algsOf n').algs, a.WF := by
  have key8 : ∀ (l : List UInt8) (P : UInt8 → Prop), (∀ x ∈ l, P x) → P 0 → ∀ x, (x ∈ l ∨ x = 0) → P x := by
    intro l P h1 h2 x hx; rcases hx with hx | rfl; exact h1 x hx; exact h2
  have key16 : ∀ (l : List UInt16) (P : UInt16 → Prop), (∀ x ∈ l, P x) → P 0 → ∀ x, (x ∈ l ∨ x = 0) → P x := by
    intro l P h1 h2 x hx; rcases hx with hx | rfl; exact h1 x hx; exact h2
  have key32 : ∀ (l : List UInt32) (P : UInt32 → Prop), (∀ x ∈ l, P x) → P 0 → ∀ x, (x ∈ l ∨ x = 0) → P x := by
    intro l P h1 h2 x hx; rcases hx with hx | rfl; exact h1 x hx; exact h2
  refine ⟨key8 _ MeasSpec.WF (by decide) (by decide) _ (chooses_mem h.measSpec), by rw [h.measHash]; exact hm,
    key32 _ BaseAsym.WF (by decide) (by decide) _ (chooses_mem h.asym), key32 _ BaseHash.WF (by decide) (by decide) _ (chooses_mem h.hash), ?_⟩
  intro a ha
  simp only [algsOf, List.mem_cons, List.not_mem_nil, or_false] at ha
  rcases ha with rfl | rfl | rfl | rfl
  · exact ⟨rfl, key16 _ Dhe.WF (by decide) (by decide) _ (chooses_mem h.dhe)⟩
  · exact ⟨rfl, key16 _ Aead.WF (by decide) (by decide) _ (chooses_mem h.aead)⟩
  · exact ⟨rfl, key16 _ ReqAsym.WF (by decide) (by decide) _ (chooses_mem h.reqAsym)⟩
  · exact ⟨rfl, key16 _ KeySchedule.WF (by decide) (by decide) _ (chooses_mem h.schedule)⟩

theorem negAlgsSeen_version {c c' : Cc} {m : NegAlgs} (h : c.neg.version.get = c'.neg.version.get) : negAlgsSeen c m = negAlgsSeen c' m := by
  have h1 : c.ge11 = c'.ge11 := by unfold Cc.ge11 Cc.ver; rw [h]
  have h2 : c.ge12 = c'.ge12 := by unfold Cc.ge12 Cc.ver; rw [h]
  unfold negAlgsSeen
  rw [h1, h2]

theorem request_wf {cfg : Config} (h : DefinedBits cfg) : ∀ a ∈ (algsRequest cfg).algs, a.WF := by
  intro a ha
  simp only [algsRequest, List.mem_cons, List.not_mem_nil, or_false] at ha
  rcases ha with rfl | rfl | rfl | rfl
  · exact ⟨rfl, h.dhe⟩
  · exact ⟨rfl, h.aead⟩
  · exact ⟨rfl, h.reqAsym⟩
  · exact ⟨rfl, h.keySchedule⟩

/-- the requester takes over what the responder selected. -/
theorem taken {q r : Config} {c rc : Ctx} {n' : Neg} (hver : rc.neg.version = c.neg.version) (hneg : SameNeg rc c) (hn : c.neg = announced c.neg.version q r)
    (hs : Selected r (negAlgsSeen c.cc (algsRequest q)) rc.neg n') (hh : n'.baseHash ≠ 0) (ha : n'.baseAsym ≠ 0) :
    n' = if 0x11 ≤ c.neg.version.get then (takeAlgs (algsSeen c.cc (algsOf n')) c.neg).1
         else { (takeAlgs (algsSeen c.cc (algsOf n')) c.neg).1 with reqCaps := 0, reqCt := 0 } := by
  have h12 : c.cc.ge12 = true ↔ 0x12 ≤ c.neg.version.get := by simp [Cc.ge12, Cc.ver, Ctx.cc]
  have h11 : c.cc.ge11 = true ↔ 0x11 ≤ c.neg.version.get := by simp [Cc.ge11, Cc.ver, Ctx.cc]
  have hop : n'.opaqueSupport = if c.cc.ge12 = true then n'.opaqueSupport else 0 := by
    by_cases g : c.cc.ge12 = true
    · rw [if_pos g]
    · rw [if_neg g, hs.opaqueData]
      unfold negAlgsSeen
      simp [g]
  have htake : (takeAlgs (algsSeen c.cc (algsOf n')) c.neg).1 = (if c.cc.ge11 = true then (algsOf n').algs else []).foldl offerAlg
      { c.neg with measSpec := n'.measSpec, opaqueSupport := n'.opaqueSupport, measHash := n'.measHash, baseHash := n'.baseHash, baseAsym := n'.baseAsym } := by
    unfold takeAlgs algsSeen
    have e1 : ¬ (algsOf n').hash = 0 := hh
    have e2 : ¬ (algsOf n').asym = 0 := ha
    dsimp only
    rw [if_neg e1, if_neg e2]
    dsimp only
    congr 1
    show _ = { c.neg with measSpec := n'.measSpec, opaqueSupport := n'.opaqueSupport, measHash := n'.measHash, baseHash := n'.baseHash, baseAsym := n'.baseAsym }
    rw [hop]
    rfl
  rw [htake]
  by_cases g : 0x11 ≤ c.neg.version.get
  · rw [if_pos g, if_pos (h11.2 g)]
    have hrn : rc.neg = c.neg := by rw [hneg, if_pos g]
    have := hs.rest
    rw [hrn] at this
    refine this.trans ?_
    rfl
  · rw [if_neg g, if_neg (mt h11.1 g)]
    have hrn : rc.neg = { c.neg with reqCaps := 0, reqCt := 0 } := by rw [hneg, if_neg g]
    have hz : ∀ k x, offered k (negAlgsSeen c.cc (algsRequest q)) x = x := by
      intro k x
      unfold offered negAlgsSeen
      simp [mt h11.1 g]
    have d1 := hs.dhe
    have d2 := hs.aead
    have d3 := hs.reqAsym
    have d4 := hs.schedule
    rw [hz, hrn] at d1 d2 d3 d4
    dsimp only at d1 d2 d3 d4
    rw [hn] at d1 d2 d3 d4
    have d1' := chooses_none (by decide) d1
    have d2' := chooses_none (by decide) d2
    have d3' := chooses_none (by decide) d3
    have d4' := chooses_none (by decide) d4
    have := hs.rest
    rw [hrn, d1', d2', d3', d4'] at this
    refine this.trans ?_
    show _ = ({ c.neg with measSpec := n'.measSpec, opaqueSupport := n'.opaqueSupport, measHash := n'.measHash, baseHash := n'.baseHash, baseAsym := n'.baseAsym, reqCaps := 0, reqCt := 0 } : Neg)
    rw [hn]
    rfl

theorem linked_algorithms (hl : Linked e f r0) {c c' : Ctx} {u : Unit} {rc : Ctx} (h : negotiateAlgorithms e c = .ok u c')
    (hrun : Toy.runAll f r0 c.sent = some rc) (hneg : SameNeg rc c) (hst : rc.rt.state = .afterCapabilities) (hA : rc.rt.messageA = c.rt.messageA)
    (hn : c.neg = announced c.neg.version c.config rc.config) (hq : DefinedBits c.config)
    (hr : DefinedBits rc.config) (hfit : c'.rt.messageA.length ≤ 156) :
    ∃ rc', Toy.runAll f r0 c'.sent = some rc' ∧ SameNeg rc' c' ∧ rc'.rt.state = .negotiated ∧ rc'.rt.messageA = c'.rt.messageA ∧
      rc'.config = rc.config ∧ c'.config = c.config ∧ Selected rc.config (negAlgsSeen c.cc (algsRequest c.config)) rc.neg rc'.neg ∧
      AlgsWF c.cc (algsSeen c.cc (algsOf rc'.neg)) ∧ NegAlgsWF c.cc (negAlgsSeen c.cc (algsRequest c.config)) ∧
      (c.neg.reqDts = 0 ∨ (algsBytes rc'.neg).length ≤ c.neg.reqDts.toNat) := by
  obtain ⟨req, pkt, bytes, t, m, r', h1, rfl, h2, hv, h3, hh, ha, h5⟩ := negotiateAlgorithms_ok h
  obtain ⟨rc0, rc', pad, pad', b, c1, pktr, g1, g2, g3, g4, g5, gl⟩ := hl.answer' (x := algorithmRsp f) h1 h2 (fun _ => rfl)
    (fun t => codes_algorithmRsp (c.neg.version.get :: 0xE3 :: t)) (by decide) (by decide)
  rw [hrun] at g1
  cases g1
  have hver : rc.neg.version = c.neg.version := by
    rw [hneg]; split <;> rfl
  have hver' : rc.cc.neg.version.get = c.cc.neg.version.get := by
    show rc.neg.version.get = c.neg.version.get
    rw [hver]
  by_cases hok : rc.rt.state = .afterCapabilities ∧ SpdmVersion.ofCode c.neg.version.get = rc.neg.version ∧
      ∃ m r', rdNegAlgs rc.cc ⟨negAlgsWire c.cc (algsRequest c.config) ++ pad, 2⟩ = .ok m r'
  · obtain ⟨_, hv', m', s', hm'⟩ := hok
    have heq := algorithmRsp_eq (e := f) (k := 0xE3) hst hv' hm'
    rw [← negAlgsWire_version (m := algsRequest c.config) hver'] at hm'
    have hnw := rdNegAlgs_ok hm'
    obtain ⟨rfl, rfl⟩ := rdNegAlgs_w hq.measSpec hq.baseAsym hq.baseHash (by simp [algsRequest]) (request_wf hq) _ _ _ _ hm'
    rw [negAlgsSeen_version (m := algsRequest c.config) hver'] at heq
    dsimp only at heq
    rw [show ((c.neg.version.get :: 0xE3 :: (negAlgsWire c.cc (algsRequest c.config) ++ pad)).take (2 + (negAlgsWire rc.cc (algsRequest c.config)).length)) =
      c.neg.version.get :: 0xE3 :: negAlgsWire c.cc (algsRequest c.config) from by
        rw [Nat.add_comm, negAlgsWire_version (m := algsRequest c.config) hver']; simp] at heq
    generalize hreq : c.neg.version.get :: 0xE3 :: negAlgsWire c.cc (algsRequest c.config) = req at *
    rw [heq] at g4
    by_cases hov : 156 < rc.rt.messageA.length + req.length
    · rw [if_pos hov] at g4
      rcases g4 with g4 | ⟨rep, g4, _, g6⟩
      · cases g4
      · injection g4 with q1
        subst q1
        exact absurd rfl g6
    · rw [if_neg hov] at g4
      have hcw := constructChains_wp (e := f) (offerCtx (negAlgsSeen c.cc (algsRequest c.config)) req rc)
      cases hcc : Ctx.constructChains f (offerCtx (negAlgsSeen c.cc (algsRequest c.config)) req rc) with
      | panic => rw [hcc] at g4; rcases g4 with g4 | ⟨rep, g4, _⟩ <;> cases g4
      | err st c2 =>
        rw [hcc] at g4
        rcases g4 with g4 | ⟨rep, g4, _, g6⟩
        · cases g4
        · injection g4 with q1
          subst q1
          exact absurd rfl g6
      | ok un c2 =>
        rw [hcc] at g4
        dsimp only at g4
        obtain ⟨hb, hd⟩ := hcw.ok hcc
        have hA2 : c2.rt.messageA = rc.rt.messageA ++ req := by rw [hb.same]; rfl
        have hcfg2 : c2.config = rc.config := by rw [hb.same]; rfl
        have hsel : Selected rc.config (negAlgsSeen c.cc (algsRequest c.config)) rc.neg (withOpaque (negAlgsSeen c.cc (algsRequest c.config)) c2).neg := by
          have : (withOpaque (negAlgsSeen c.cc (algsRequest c.config)) c2).neg = { selectAlgs rc.config (setOffer (negAlgsSeen c.cc (algsRequest c.config)) rc.neg) with
              opaqueSupport := rc.config.opaqueSupport &&& (negAlgsSeen c.cc (algsRequest c.config)).other } := by
            unfold withOpaque
            rw [hb.same]
            rfl
          rw [this]
          exact selected_of _ _ _
        have hwA : (withOpaque (negAlgsSeen c.cc (algsRequest c.config)) c2).rt.messageA = rc.rt.messageA ++ req := hA2
        have hwcfg : (withOpaque (negAlgsSeen c.cc (algsRequest c.config)) c2).config = rc.config := hcfg2
        generalize withOpaque (negAlgsSeen c.cc (algsRequest c.config)) c2 = c3 at *
        have hver3 : c3.neg.version.get = c.neg.version.get := by
          rw [hsel.rest]
          show rc.neg.version.get = _
          rw [hver]
        obtain ⟨w1, w2, w3, w4, w5⟩ := selected_wf hsel hr.measHash
        have hback : ∀ z, bytes = algsBytes c3.neg ++ z → c'.rt.messageA = c.rt.messageA ++ req ++ algsBytes c3.neg ∧ SameNeg c3 c' ∧ AlgsWF c.cc (algsSeen c.cc (algsOf c3.neg)) := by
          intro z hz
          have hab := algsBytes_eq (n := c3.neg) (c := c.cc) hver3.symm
          rw [hab, hver3] at hz
          have hz' := hz
          rw [h2] at hz
          simp only [List.cons_append, List.cons.injEq, true_and] at hz
          rw [hz] at h3
          have hwf := rdAlgsRsp_ok h3
          obtain ⟨rfl, rfl⟩ := rdAlgsRsp_w w1 w2 w3 w4 (by simp [algsOf]) w5 _ _ _ _ h3
          refine ⟨?_, ?_, hwf⟩
          · rw [h5, hab, hver3]
            dsimp only
            rw [hz']
            congr 1
            exact append_take (by simp; omega)
          · unfold SameNeg
            have hv5 : c'.neg.version.get = c.neg.version.get := by
              rw [h5]
              show (takeAlgs (algsSeen c.cc (algsOf c3.neg)) c.neg).1.version.get = _
              unfold takeAlgs
              dsimp only
              rw [if_neg hh, if_neg ha, offerAlg_fold]
            rw [hv5, h5]
            exact taken hver hneg hn hsel hh ha
        have hov2 : ∀ z, bytes = algsBytes c3.neg ++ z → ¬ 156 < c2.rt.messageA.length + (algsBytes c3.neg).length := by
          intro z hz
          have := (hback z hz).1
          rw [this] at hfit
          rw [hA2, hA]
          simp only [List.length_append] at hfit ⊢
          omega
        by_cases hover : 156 < c2.rt.messageA.length + (algsBytes c3.neg).length
        · rw [if_pos hover] at g4
          rcases g4 with g4 | ⟨rep, g4, g6, g7⟩
          · cases g4
          · injection g4 with q1 q2
            subst q1
            obtain ⟨z, hz⟩ := writeError_pre g6
            exact absurd hover (hov2 (z ++ pad') (by rw [g3, ← hz, List.append_assoc]))
        · rw [if_neg hover] at g4
          rcases g4 with g4 | ⟨rep, g4, _⟩
          · injection g4 with q1 q2
            subst q1
            subst q2
            obtain ⟨k1, k2, k3⟩ := hback _ g3
            refine ⟨rc', by rw [h5]; exact g2, ?_, by rw [g5]; rfl, ?_, by rw [g5]; exact hwcfg, by rw [h5], by rw [g5]; exact hsel, by rw [g5]; exact k3,
              ?_, ?_⟩
            · rw [g5]; exact k2
            · rw [g5, k1]
              show c3.rt.messageA ++ _ = _
              rw [hwA, hA]
            · have e1 : rc.cc.ver = c.cc.ver := hver'
              rw [negAlgsSeen_version (m := algsRequest c.config) hver'] at hnw
              unfold NegAlgsWF AlgListWF Cc.ge11 Cc.ge12 at hnw ⊢
              rw [e1] at hnw
              exact hnw
            · rw [g5]
              have hd : c3.neg.reqDts = c.neg.reqDts := by
                rw [hsel.rest]
                show rc.neg.reqDts = _
                rw [hneg]; split <;> rfl
              unfold tooLarge at gl
              change (c3.neg.reqDts != 0 && decide (c3.neg.reqDts.toNat < _)) = false at gl
              rw [hd] at gl
              show c.neg.reqDts = 0 ∨ (algsBytes c3.neg).length ≤ _
              by_cases hz : c.neg.reqDts = 0
              · exact .inl hz
              · right
                have h1 : (c.neg.reqDts != 0) = true := by simpa using hz
                rw [h1, Bool.true_and, decide_eq_false_iff_not] at gl
                omega
          · cases g4
  · rcases g4 with g4 | ⟨rep, g4, _, g6⟩
    · rcases algorithmRsp_refused (e := f) (k := 0xE3) hok with hx | ⟨rep, c2, hx, _⟩ <;> rw [hx] at g4 <;> cases g4
    · rcases algorithmRsp_refused (e := f) (k := 0xE3) hok with hx | ⟨rep, c2, hx, k1, _⟩ <;> rw [hx] at g4 <;> cases g4
      exact absurd k1 g6

end Req
end Verif
