/-
C47, C48: what the responder answers to GET_CAPABILITIES and NEGOTIATE_ALGORITHMS and what it keeps.
-/
import Verif.Responder.Answer
import Verif.Props.Slots
import Verif.Props.Algo

namespace Verif.Props
open Verif Rsp

variable {e : Env}

/-- one message `b` was handed to the device, in one packet. -/
def SentOne (e : Env) (b : Bytes) (c c' : Ctx) : Prop := ∃ pkt, Ctx.encap e b = .ok pkt ∧ c'.sent = c.sent ++ [pkt]

/-- an SPDM message that is an ERROR. -/
def IsError (b : Bytes) : Prop := ∃ v t, b = v :: 0x7F :: t

/-! ### C48 -/

/-- the negotiated parameters after a GET_CAPABILITIES of version `v` carrying `m`: the requester's capabilities and the responder's
configured ones; the transfer sizes from 1.2 on; everything else as it was. -/
def capsNeg (v : UInt8) (m : Caps) (cfg : Config) (n : Neg) : Neg :=
  { n with version := SpdmVersion.ofCode v, reqCt := m.ct, reqCaps := m.flags, rspCt := cfg.rspCt, rspCaps := cfg.rspCaps,
           reqDts := if 0x12 ≤ v then m.dts else n.reqDts, reqMms := if 0x12 ≤ v then m.mms else n.reqMms,
           rspDts := if 0x12 ≤ v then cfg.dts else n.rspDts, rspMms := if 0x12 ≤ v then cfg.mms else n.rspMms }

/-- the CAPABILITIES message announcing configuration `cfg`. -/
def capabilityAnswer (v : UInt8) (cfg : Config) : Bytes :=
  [v, 0x61, 0, 0, 0, cfg.rspCt, 0, 0] ++ putU32 cfg.rspCaps ++ (if 0x12 ≤ v then putU32 cfg.dts ++ putU32 cfg.mms else [])

theorem capsCtx_neg (v : UInt8) (m : Caps) (c : Ctx) : (capsCtx v m c).neg = capsNeg v m c.config c.neg := by
  unfold capsCtx setCaps capsNeg
  have h12 : Cc.ge12 (Ctx.cc { c with neg := { c.neg with version := SpdmVersion.ofCode v }, rt := { c.rt with l1l2 := none } }) = true ↔ 0x12 ≤ v := by
    simp [Cc.ge12, Cc.ver, Ctx.cc]
  by_cases h : 0x12 ≤ v
  · simp only [h12.2 h, h, if_true]
  · have h' : ¬ Cc.ge12 (Ctx.cc { c with neg := { c.neg with version := SpdmVersion.ofCode v }, rt := { c.rt with l1l2 := none } }) = true := fun g => h (h12.1 g)
    simp only [h', h, if_false]
    rfl

/-- Whatever GET_CAPABILITIES arrives and whatever state the responder is in: the one message sent is an ERROR, or it starts with the
CAPABILITIES message announcing the configured capabilities, and then exactly the requester's announced capabilities and the configured ones
are recorded under the version of the request.  (What can follow is an ERROR, when the record of the negotiation is full: C23.) -/
theorem C48_capabilities (c c' : Ctx) (rx : Bytes) (v : UInt8) (t : Bytes) (hp : Plain e rx (v :: 0xE1 :: t)) (h : processMessage e rx c = .ok true c') :
    ∃ b, SentOne e b c c' ∧
      ((IsError b ∧ c'.rt.state = c.rt.state) ∨
       ∃ m r', c.rt.state = .afterVersion ∧ c'.rt.state = .afterCapabilities ∧ 0x10 ≤ v ∧
        rdGetCaps { c.cc with neg := { c.neg with version := SpdmVersion.ofCode v } } ⟨t, 2⟩ = .ok m r' ∧
        c'.neg = capsNeg v m c.config c.neg ∧
        (b = capabilityAnswer v c.config ∨
          (156 < c.rt.messageA.length + r'.used + (capabilityAnswer v c.config).length ∧ capabilityAnswer v c.config <+: b))) := by
  obtain ⟨b, c1, pkt, h1, h2⟩ := plain_answered hp rfl (codes_capabilityRsp (v :: 0xE1 :: t)) (by decide) h
  refine ⟨outgoing c1 b, ?_⟩
  by_cases hok : c.rt.state = .afterVersion ∧ 0x10 ≤ v ∧ ∃ m r', rdGetCaps { c.cc with neg := { c.neg with version := SpdmVersion.ofCode v } } ⟨t, 2⟩ = .ok m r'
  · obtain ⟨hst, hv, m, r', hr⟩ := hok
    have hu : ((v :: 0xE1 :: t).take r'.used).length = r'.used := by
      obtain ⟨bs, hb1, hb2⟩ := (rdGetCaps_good _).after hr
      have hb3 := congrArg List.length hb1
      simp at hb2 hb3 ⊢
      omega
    have hcfg : capsBytes v c.config = capabilityAnswer v c.config := rfl
    have heq := capabilityRsp_eq (k := 0xE1) hst hv hr
    dsimp only at heq
    rw [hu, hcfg] at heq
    have hneg := capsCtx_neg v m c
    have hst1 : (capsCtx v m c).rt.state = c.rt.state := by rw [capsCtx, (setCaps_fields _ _).2.1]
    have hsent : (capsCtx v m c).sent = c.sent := by unfold capsCtx setCaps; rfl
    generalize capsCtx v m c = c2 at *
    rw [heq] at h2
    have herr : ∀ (c2' : Ctx), IsError (errorBytes c2'.neg.version .responseTooLarge 0) := fun c2' => ⟨_, _, rfl⟩
    split at h2
    · rcases h2 with ⟨g, _⟩ | ⟨rep, g, _, g3, _⟩ | ⟨rep, g, g2, rfl, rfl⟩
      · cases g
      · cases g; exact absurd rfl g3
      · cases g
        refine ⟨⟨pkt, h1, by simp [withSent, hsent]⟩, .inl ⟨?_, hst1⟩⟩
        unfold outgoing; split <;> exact ⟨_, _, rfl⟩
    · split at h2
      · rename_i hov
        rcases h2 with ⟨g, _⟩ | ⟨rep, g, gw, _, _, rfl⟩ | ⟨rep, g, g2, _⟩
        · cases g
        · cases g
          refine ⟨⟨pkt, h1, by simp [withSent, withState, addA, hsent]⟩, ?_⟩
          unfold outgoing
          split
          · rename_i hl
            refine .inl ⟨herr _, ?_⟩
            simp only [withState, hl, if_true]
            exact hst1
          · rename_i hl
            simp only [hl, if_false]
            exact .inr ⟨m, r', hst, rfl, hv, hr, hneg, .inr ⟨hov, writeError_pre gw⟩⟩
        · cases g; cases g2
      · rcases h2 with ⟨g, rfl⟩ | ⟨rep, g, _⟩ | ⟨rep, g, _⟩
        · cases g
          refine ⟨⟨pkt, h1, by simp [withSent, withState, addA, hsent]⟩, ?_⟩
          unfold outgoing
          split
          · rename_i hl
            refine .inl ⟨herr _, ?_⟩
            simp only [withState, hl, if_true]
            exact hst1
          · rename_i hl
            simp only [hl, if_false]
            exact .inr ⟨m, r', hst, rfl, hv, hr, hneg, .inl trivial⟩
        · cases g
        · cases g
  · rcases capabilityRsp_refused (k := 0xE1) hok with hx | ⟨rep, c2, hx, g1, _, _, g2, g3, _⟩
    · rw [hx] at h2
      rcases h2 with ⟨g, _⟩ | ⟨rep, g, _⟩ | ⟨rep, g, _⟩ <;> cases g
    · rw [hx] at h2
      rcases h2 with ⟨g, _⟩ | ⟨rep, g, _, g4, _⟩ | ⟨rep, g, _, rfl, rfl⟩
      · cases g
      · cases g; exact absurd g1 g4
      · cases g
        refine ⟨⟨pkt, h1, by simp [withSent, g3]⟩, .inl ⟨?_, g2⟩⟩
        unfold outgoing; split <;> exact ⟨_, _, rfl⟩

theorem rdGetCaps_sizes {c : Cc} {r r' : Reader} {m : Caps} (h : rdGetCaps c r = .ok m r') (g2 : c.ge12 = true) : 42 ≤ m.dts.toNat := by
  simp only [rdGetCaps, Rd.none, Cap.readReq, M.bind_ok, rdU8_ok, g2, if_true] at h
  obtain ⟨_, t1, e1, _, t2, e2, q, t3, e3, dts, t4, e4, mms, t5, e5, e6⟩ := h
  rw [M.ite_ok] at e6
  rcases e6 with ⟨_, h⟩ | ⟨hn, h⟩
  · cases h
  · obtain ⟨rfl, _⟩ := M.pure_ok.1 h
    have := fun g => hn (.inl g)
    simp only [UInt32.lt_iff_toNat_lt] at this
    exact Nat.not_lt.1 this

/-- A well-formed GET_CAPABILITIES after GET_VERSION is answered with CAPABILITIES, if there is room in the record of the negotiation,
the requester accepts messages of that size, and the device takes the packet. -/
theorem C48_accepted (c : Ctx) (rx pkt : Bytes) (v : UInt8) (t : Bytes) (m : Caps) (r' : Reader) (hp : Plain e rx (v :: 0xE1 :: t))
    (hst : c.rt.state = .afterVersion) (hv : 0x10 ≤ v)
    (hr : rdGetCaps { c.cc with neg := { c.neg with version := SpdmVersion.ofCode v } } ⟨t, 2⟩ = .ok m r')
    (hroom : c.rt.messageA.length + r'.used + (capabilityAnswer v c.config).length ≤ 156)
    (hsize : 0x12 ≤ v ∨ c.neg.reqDts = 0) (hpkt : Ctx.encap e (capabilityAnswer v c.config) = .ok pkt) (hsend : e.send c.sent.length pkt = none) :
    ∃ c', processMessage e rx c = .ok true c' ∧ c'.sent = c.sent ++ [pkt] ∧ c'.rt.state = .afterCapabilities ∧
      c'.neg = capsNeg v m c.config c.neg := by
  have hu : ((v :: 0xE1 :: t).take r'.used).length = r'.used := by
    obtain ⟨bs, hb1, hb2⟩ := (rdGetCaps_good _).after hr
    have hb3 := congrArg List.length hb1
    simp at hb2 hb3 ⊢
    omega
  have hcfg : capsBytes v c.config = capabilityAnswer v c.config := rfl
  have heq := capabilityRsp_eq (k := 0xE1) hst hv hr
  dsimp only at heq
  rw [hu, hcfg, if_neg (by omega), if_neg (by omega)] at heq
  have hneg := capsCtx_neg v m c
  have hsent : (capsCtx v m c).sent = c.sent := by unfold capsCtx setCaps; rfl
  have hdts : 0x12 ≤ v → 42 ≤ m.dts.toNat := by
    intro g
    have := rdGetCaps_sizes hr (by simp [Cc.ge12, Cc.ver]; exact g)
    exact this
  have htl : tooLarge (addA ((v :: 0xE1 :: t).take r'.used ++ capabilityAnswer v c.config) (capsCtx v m c)) (capabilityAnswer v c.config) = false := by
    have hl : (capabilityAnswer v c.config).length ≤ 20 := by
      unfold capabilityAnswer; split <;> simp [putU32]
    have hn : (addA ((v :: 0xE1 :: t).take r'.used ++ capabilityAnswer v c.config) (capsCtx v m c)).neg = capsNeg v m c.config c.neg := hneg
    unfold tooLarge
    rw [hn]
    simp only [capsNeg]
    by_cases g : 0x12 ≤ v
    · simp only [g, if_true]
      have := hdts g
      simp
      intro _
      omega
    · rcases hsize with g' | g'
      · exact absurd g' g
      · simp [g, g']
  have hs1 : (addA ((v :: 0xE1 :: t).take r'.used ++ capabilityAnswer v c.config) (capsCtx v m c)).sent = c.sent := hsent
  refine ⟨_, plain_delivers hp rfl heq ⟨_, _, rfl⟩ (by decide) htl hpkt (by rw [hs1]; exact hsend), ?_, rfl, hneg⟩
  simp [withState, withSent, hs1]

/-- the hypotheses are met: a 1.2 GET_CAPABILITIES after GET_VERSION. -/
example : (Toy.runAll Toy.env Toy.ctx0 [Toy.version, Toy.capabilities]).map (fun c => (c.rt.state, c.neg.reqCaps, c.neg.rspCaps, c.neg.reqDts, c.sent.length)) =
    some (.afterCapabilities, 0x77C6, 0x1F6, 4096, 2) := by decide +kernel

/-- GET_CAPABILITIES with a version the responder did not offer in VERSION (here 1.3) is answered positively and that version is used from then on
(finding F16). -/
theorem C48_version_violated : ∃ c, Reachable 2 c ∧ c.rt.state = .afterVersion ∧
    ((Toy.runAll Toy.env c [5 :: 0x13 :: Toy.capabilities.drop 2]).map fun c' => (c'.rt.state, c'.neg.version.get, c'.sent.length)) =
      some (.afterCapabilities, 0x13, c.sent.length + 1) ∧
    0x13 ∉ [c.config.version0.get, c.config.version1.get, c.config.version2.get] :=
  ⟨toyRun [Toy.version], toyRun_reachable _ (by decide +kernel), by decide +kernel, by decide +kernel, by decide +kernel⟩

/-! ### C47 -/

/-- the DHE groups of an algorithm structure, and so on. -/
def dheOf : Alg → Option UInt16 | .dhe v => some v | _ => none
def aeadOf : Alg → Option UInt16 | .aead v => some v | _ => none
def reqAsymOf : Alg → Option UInt16 | .reqAsym v => some v | _ => none
def scheduleOf : Alg → Option UInt16 | .keySchedule v => some v | _ => none

/-- what the request offers in one family: the last structure of that type; without one, what `old` says. -/
def offered (f : Alg → Option UInt16) (m : NegAlgs) (old : UInt16) : UInt16 := ((m.algs.filterMap fun a => f a.alg).getLast?).getD old

/-- `n'` is the outcome of negotiating offer `m` with configuration `cfg`, starting from `n`. -/
structure Selected (cfg : Config) (m : NegAlgs) (n n' : Neg) : Prop where
  measSpec : Chooses ([0x1] : List UInt8) m.measSpec cfg.measSpec n'.measSpec
  hash : Chooses ([0x4, 0x2, 0x1] : List UInt32) m.hash cfg.baseHash n'.baseHash
  asym : Chooses ([0x80, 0x10, 0x40, 0x8, 0x2, 0x20, 0x4, 0x1] : List UInt32) m.asym cfg.baseAsym n'.baseAsym
  dhe : Chooses ([0x10, 0x8] : List UInt16) (offered dheOf m n.dhe) cfg.dhe n'.dhe
  aead : Chooses ([0x2, 0x1, 0x4] : List UInt16) (offered aeadOf m n.aead) cfg.aead n'.aead
  reqAsym : Chooses ([0x80, 0x10, 0x40, 0x8, 0x2, 0x20, 0x4, 0x1] : List UInt16) (offered reqAsymOf m n.reqAsym) cfg.reqAsym n'.reqAsym
  schedule : Chooses ([0x1] : List UInt16) (offered scheduleOf m n.keySchedule) cfg.keySchedule n'.keySchedule
  measHash : n'.measHash = cfg.measHash
  opaqueData : n'.opaqueSupport = cfg.opaqueSupport &&& m.other
  rest : n' = { n with measSpec := n'.measSpec, measHash := n'.measHash, baseHash := n'.baseHash, baseAsym := n'.baseAsym, dhe := n'.dhe,
                       aead := n'.aead, reqAsym := n'.reqAsym, keySchedule := n'.keySchedule, opaqueSupport := n'.opaqueSupport }

theorem offerAlg_fold (l : List AlgStruct) (n : Neg) :
    l.foldl offerAlg n = { n with
      dhe := ((l.filterMap fun a => dheOf a.alg).getLast?).getD n.dhe, aead := ((l.filterMap fun a => aeadOf a.alg).getLast?).getD n.aead,
      reqAsym := ((l.filterMap fun a => reqAsymOf a.alg).getLast?).getD n.reqAsym,
      keySchedule := ((l.filterMap fun a => scheduleOf a.alg).getLast?).getD n.keySchedule } := by
  induction l generalizing n with
  | nil => rfl
  | cons a l ih =>
    rw [List.foldl_cons, ih]
    obtain ⟨ty, alg⟩ := a
    have hl : ∀ (x y : UInt16) (l : List UInt16), (l.getLast?).getD x = ((x :: l).getLast?).getD y := by
      intro x y l
      rw [List.getLast?_cons]
      rfl
    cases alg <;> simp only [offerAlg, List.filterMap_cons, dheOf, aeadOf, reqAsymOf, scheduleOf]
    all_goals first | rfl | (congr 1; exact hl _ _ _)

theorem selected_of (cfg : Config) (m : NegAlgs) (n : Neg) :
    Selected cfg m n { selectAlgs cfg (setOffer m n) with opaqueSupport := cfg.opaqueSupport &&& m.other } := by
  unfold setOffer selectAlgs
  rw [offerAlg_fold]
  exact ⟨C10_MeasSpec _ _, C10_BaseHash _ _, C10_BaseAsym _ _, C10_Dhe _ _, C10_Aead _ _, C10_ReqAsym _ _, C10_KeySchedule _ _, rfl, rfl, rfl⟩

/-- the ALGORITHMS message carrying selection `n`. -/
def algorithmAnswer (n : Neg) : Bytes :=
  let v := n.version.get
  [v, 0x63, if 0x11 ≤ v then 4 else 0, 0] ++ putU16 (if 0x11 ≤ v then 52 else 36) ++ [n.measSpec, if 0x12 ≤ v then n.opaqueSupport else 0] ++
    putU32 n.measHash ++ putU32 n.baseAsym ++ putU32 n.baseHash ++ List.replicate 16 0 ++
    (if 0x11 ≤ v then [2, 0x20] ++ putU16 n.dhe ++ [3, 0x20] ++ putU16 n.aead ++ [4, 0x20] ++ putU16 n.reqAsym ++ [5, 0x20] ++ putU16 n.keySchedule
     else [])

/-- Whatever NEGOTIATE_ALGORITHMS arrives and whatever state the responder is in: the one message sent is an ERROR, or it starts with the
ALGORITHMS message carrying one algorithm of each family (or none) as `Selected` says, and that selection is what the responder keeps; the
certificate chains to serve are then there for every provisioned slot. -/
theorem C47_algorithms (c c' : Ctx) (rx : Bytes) (v : UInt8) (t : Bytes) (hp : Plain e rx (v :: 0xE3 :: t)) (h : processMessage e rx c = .ok true c') :
    ∃ b, SentOne e b c c' ∧
      ((IsError b ∧ c'.rt.state = c.rt.state) ∨
       ∃ m r', c.rt.state = .afterCapabilities ∧ c'.rt.state = .negotiated ∧ v = c.neg.version.get ∧ rdNegAlgs c.cc ⟨t, 2⟩ = .ok m r' ∧
        Selected c.config m c.neg c'.neg ∧ (∀ i d, c'.prov.chainData i = some d → (c'.prov.chain i).isSome = true) ∧
        (b = algorithmAnswer c'.neg ∨
          (156 < c.rt.messageA.length + r'.used + (algorithmAnswer c'.neg).length ∧ algorithmAnswer c'.neg <+: b))) := by
  obtain ⟨b, c1, pkt, h1, h2⟩ := plain_answered hp rfl (codes_algorithmRsp (v :: 0xE3 :: t)) (by decide) h
  refine ⟨outgoing c1 b, ?_⟩
  by_cases hok : c.rt.state = .afterCapabilities ∧ SpdmVersion.ofCode v = c.neg.version ∧ ∃ m r', rdNegAlgs c.cc ⟨t, 2⟩ = .ok m r'
  · obtain ⟨hst, hv, m, r', hr⟩ := hok
    have hv' : v = c.neg.version.get := by rw [← hv]; simp
    have hu : ((v :: 0xE3 :: t).take r'.used).length = r'.used := by
      obtain ⟨bs, hb1, hb2⟩ := (rdNegAlgs_good _).after hr
      have hb3 := congrArg List.length hb1
      simp at hb2 hb3 ⊢
      omega
    have heq := algorithmRsp_eq (e := e) (k := 0xE3) hst hv hr
    dsimp only at heq
    rw [hu] at heq
    rw [heq] at h2
    have herr : ∀ (c2' : Ctx), IsError (errorBytes c2'.neg.version .responseTooLarge 0) := fun c2' => ⟨_, _, rfl⟩
    split at h2
    · rcases h2 with ⟨g, _⟩ | ⟨rep, g, _, g3, _⟩ | ⟨rep, g, g2, rfl, rfl⟩
      · cases g
      · cases g; exact absurd rfl g3
      · cases g
        refine ⟨⟨pkt, h1, rfl⟩, .inl ⟨?_, rfl⟩⟩
        unfold outgoing; split <;> exact ⟨_, _, rfl⟩
    · have hcw := constructChains_wp (e := e) (offerCtx m ((v :: 0xE3 :: t).take r'.used) c)
      cases hcc : Ctx.constructChains e (offerCtx m ((v :: 0xE3 :: t).take r'.used) c) with
      | panic => 
        rw [hcc] at h2
        rcases h2 with ⟨g, _⟩ | ⟨rep, g, _⟩ | ⟨rep, g, _⟩ <;> cases g
      | err st c2 =>
        rw [hcc] at h2
        have hb := hcw.err hcc
        rcases h2 with ⟨g, _⟩ | ⟨rep, g, _, g3, _⟩ | ⟨rep, g, g2, rfl, rfl⟩
        · cases g
        · cases g; exact absurd rfl g3
        · cases g
          refine ⟨⟨pkt, h1, by rw [hb.same]; rfl⟩, .inl ⟨?_, by rw [hb.same]; rfl⟩⟩
          unfold outgoing; split <;> exact ⟨_, _, rfl⟩
      | ok u c2 =>
        rw [hcc] at h2
        dsimp only at h2
        obtain ⟨hb, hd⟩ := hcw.ok hcc
        have hs2 : c2.sent = c.sent := by rw [hb.same]; rfl
        have hst2 : c2.rt.state = c.rt.state := by rw [hb.same]; rfl
        have hA2 : c2.rt.messageA.length = c.rt.messageA.length + r'.used := by rw [hb.same, ← hu]; simp [offerCtx]
        have hneg : Selected c.config m c.neg (withOpaque m c2).neg := by
          have : (withOpaque m c2).neg = { selectAlgs c.config (setOffer m c.neg) with opaqueSupport := c.config.opaqueSupport &&& m.other } := by
            unfold withOpaque
            rw [hb.same]
            rfl
          rw [this]
          exact selected_of _ _ _
        have hch : ∀ i d, (withOpaque m c2).prov.chainData i = some d → ((withOpaque m c2).prov.chain i).isSome = true := by
          intro i d hid
          rcases hd i with g | g
          · exact g
          · exact absurd (g.symm.trans hid) (by simp)
        have ha : algsBytes (withOpaque m c2).neg = algorithmAnswer (withOpaque m c2).neg := rfl
        have hs3 : (withOpaque m c2).sent = c.sent := hs2
        have hst3 : (withOpaque m c2).rt.state = c.rt.state := hst2
        rw [ha, hA2] at h2
        generalize withOpaque m c2 = c3 at *
        split at h2
        · rename_i hov
          rcases h2 with ⟨g, _⟩ | ⟨rep, g, gw, _, _, rfl⟩ | ⟨rep, g, g2, _⟩
          · cases g
          · cases g
            refine ⟨⟨pkt, h1, by simp [withSent, withState, hs3]⟩, ?_⟩
            unfold outgoing
            split
            · rename_i hl
              refine .inl ⟨herr _, ?_⟩
              simp only [withState]
              exact hst3
            · rename_i hl
              exact .inr ⟨m, r', hst, rfl, hv', hr, hneg, hch, .inr ⟨hov, writeError_pre gw⟩⟩
          · cases g; cases g2
        · rcases h2 with ⟨g, rfl⟩ | ⟨rep, g, _⟩ | ⟨rep, g, _⟩
          · cases g
            refine ⟨⟨pkt, h1, by simp [withSent, withState, addA, hs3]⟩, ?_⟩
            unfold outgoing
            split
            · rename_i hl
              refine .inl ⟨herr _, ?_⟩
              simp only [withState]
              exact hst3
            · rename_i hl
              exact .inr ⟨m, r', hst, rfl, hv', hr, hneg, hch, .inl rfl⟩
          · cases g
          · cases g
  · rcases algorithmRsp_refused (e := e) (k := 0xE3) hok with hx | ⟨rep, c2, hx, g1, _, _, _, g2, g3, _⟩
    · rw [hx] at h2
      rcases h2 with ⟨g, _⟩ | ⟨rep, g, _⟩ | ⟨rep, g, _⟩ <;> cases g
    · rw [hx] at h2
      rcases h2 with ⟨g, _⟩ | ⟨rep, g, _, g4, _⟩ | ⟨rep, g, _, rfl, rfl⟩
      · cases g
      · cases g; exact absurd g1 g4
      · cases g
        refine ⟨⟨pkt, h1, by simp [withSent, g3]⟩, .inl ⟨?_, g2⟩⟩
        unfold outgoing; split <;> exact ⟨_, _, rfl⟩

/-- the hypotheses are met: the algorithms of the concrete negotiation. -/
example : (Toy.runAll Toy.env Toy.ctx0 [Toy.version, Toy.capabilities, Toy.algorithms]).map
    (fun c => (c.rt.state, [c.neg.baseHash, c.neg.baseAsym, c.neg.measHash], [c.neg.dhe, c.neg.aead, c.neg.reqAsym, c.neg.keySchedule], c.neg.opaqueSupport)) =
    some (.negotiated, [1, 0x10, 2], [8, 2, 0, 1], 2) := by decide +kernel

/-- NEGOTIATE_ALGORITHMS with the given hash algorithms. -/
def algorithmsHash (h : UInt8) : Bytes :=
  [5, 0x12, 0xE3, 4, 0, 48, 0, 1, 2, 0x10, 0, 0, 0, h, 0, 0, 0] ++ List.replicate 12 0 ++ [0, 0, 0, 0] ++
    [2, 0x20, 8, 0, 3, 0x20, 2, 0, 4, 0x20, 0, 0, 5, 0x20, 1, 0]
/-- NEGOTIATE_ALGORITHMS that offers no DHE group, no AEAD and no key schedule. -/
def algorithmsBare : Bytes :=
  [5, 0x12, 0xE3, 0, 0, 32, 0, 1, 2, 0x10, 0, 0, 0, 1, 0, 0, 0] ++ List.replicate 12 0 ++ [0, 0, 0, 0]

/-- Families without a structure in the request are not "not offered": what an earlier, refused request selected is used (finding F31).  The
request offers no DHE group; the outcome has one. -/
theorem C47_leftover_violated : ∃ c, Reachable 2 c ∧ c.rt.state = .afterCapabilities ∧
    ((Toy.runAll Toy.env c [algorithmsBare]).map fun c' => (c'.rt.state, c'.neg.dhe, c'.neg.aead)) = some (.negotiated, 8, 2) :=
  ⟨toyRun [Toy.version, Toy.capabilities, algorithmsHash 0], toyRun_reachable _ (by decide +kernel), by decide +kernel, by decide +kernel⟩

/-! ### C54 -/

/-- the form in which a provisioned chain is served: u16 total size, two zero bytes, hash `h` of the root certificate (the first certificate
of the data; its bounds are reported by the certificate library), the data. -/
def ServedChain (e : Env) (h : BaseHash) (d ch : Bytes) : Prop :=
  ∃ b en root, e.certFromChain d 0 = some (b, en) ∧ b ≤ en ∧ en ≤ 4096 ∧
    e.crypto.hash h (((d ++ List.replicate (4096 - d.length) 0).drop b).take (en - b)) = some root ∧
    ch = putU16 (UInt16.ofNat (4 + root.length + d.length)) ++ [0, 0] ++ root ++ d

/-- what one packet does to the chains: the provisioned data stay, and a chain is set only where there was none, by NEGOTIATE_ALGORITHMS,
from the provisioned data. -/
def ChainStep (e : Env) (c c' : Ctx) : Prop :=
  c'.prov.chainData = c.prov.chainData ∧
  ∀ i, c'.prov.chain i = c.prov.chain i ∨
    (c.prov.chain i = none ∧ ∃ d ch, c.prov.chainData i = some d ∧ ServedChain e c'.neg.baseHash d ch ∧ c'.prov.chain i = some ch)

theorem chainStep_same {c c' : Ctx} (h : c'.prov = c.prov) : ChainStep e c c' := ⟨by rw [h], fun i => .inl (by rw [h])⟩

/-- Every packet in every state. -/
theorem C54_step (c c' : Ctx) (rx : Bytes) (hl : HashLaw e) (h : (∃ b, processMessage e rx c = .ok b c') ∨ processMessage e rx c = .err () c') :
    ChainStep e c c' := by
  have hs : Step e rx c c' := by
    rcases h with ⟨b, h⟩ | h
    · exact (process_step hl rx c).ok h
    · exact (process_step hl rx c).err h
  cases hs with
  | ignored g => subst g; exact chainStep_same rfl
  | secured sid _ _ g => exact chainStep_same g.prov
  | plain v k t hp g =>
    by_cases k1 : k = 0x84
    · subst k1
      obtain ⟨c1, st, sent, hx, rfl⟩ := plain_left hp rfl (codes_versionRsp v t) (by decide) h
      have hv := versionRsp_prov v t c
      have hpv : c1.prov = c.prov := by
        rcases hx with ⟨b, hx⟩ | ⟨rep, hx⟩
        · exact hv.ok hx
        · exact hv.err hx
      exact chainStep_same hpv
    by_cases k2 : k = 0xE1
    · subst k2
      obtain ⟨c1, st, sent, hx, rfl⟩ := plain_left hp rfl (codes_capabilityRsp (v :: 0xE1 :: t)) (by decide) h
      have hpv : c1.prov = c.prov := by
        by_cases hok : c.rt.state = .afterVersion ∧ 0x10 ≤ v ∧ ∃ m r', rdGetCaps { c.cc with neg := { c.neg with version := SpdmVersion.ofCode v } } ⟨t, 2⟩ = .ok m r'
        · obtain ⟨hst, hv, m, r', hr⟩ := hok
          have heq := capabilityRsp_eq (k := 0xE1) hst hv hr
          have hc : (capsCtx v m c).prov = c.prov := by unfold capsCtx setCaps; rfl
          rw [heq] at hx
          dsimp only at hx
          split at hx
          · rcases hx with ⟨b, hx⟩ | ⟨rep, hx⟩ <;> cases hx; exact hc
          · split at hx
            · rcases hx with ⟨b, hx⟩ | ⟨rep, hx⟩ <;> cases hx; exact hc
            · rcases hx with ⟨b, hx⟩ | ⟨rep, hx⟩ <;> cases hx; exact hc
        · rcases capabilityRsp_refused (k := 0xE1) hok with hx' | ⟨rep, c2, hx', _, _, _, _, _, g3⟩
          · rw [hx'] at hx; rcases hx with ⟨b, hx⟩ | ⟨rep, hx⟩ <;> cases hx
          · rw [hx'] at hx; rcases hx with ⟨b, hx⟩ | ⟨rep, hx⟩ <;> cases hx
            exact g3
      exact chainStep_same hpv
    by_cases k3 : k = 0xE3
    · subst k3
      obtain ⟨c1, st, sent, hx, rfl⟩ := plain_left hp rfl (codes_algorithmRsp (e := e) (v :: 0xE3 :: t)) (by decide) h
      suffices ChainStep e c c1 from this
      by_cases hok : c.rt.state = .afterCapabilities ∧ SpdmVersion.ofCode v = c.neg.version ∧ ∃ m r', rdNegAlgs c.cc ⟨t, 2⟩ = .ok m r'
      · obtain ⟨hst, hv, m, r', hr⟩ := hok
        have heq := algorithmRsp_eq (e := e) (k := 0xE3) hst hv hr
        rw [heq] at hx
        dsimp only at hx
        have hcw := constructChains_wp (e := e) (offerCtx m ((v :: 0xE3 :: t).take r'.used) c)
        have hb : ∀ c2, Builds e (offerCtx m ((v :: 0xE3 :: t).take r'.used) c) c2 → ∀ c3 : Ctx, c3.prov = c2.prov → c3.neg.baseHash = c2.neg.baseHash → ChainStep e c c3 := by
          intro c2 hb c3 g1 g2
          refine ⟨by rw [g1, hb.data]; rfl, fun i => ?_⟩
          have hn : c2.neg.baseHash = (offerCtx m ((v :: 0xE3 :: t).take r'.used) c).neg.baseHash := by rw [hb.same]
          rcases hb.chain i with g | ⟨ga, d, ch, gb, gc, gd⟩
          · exact .inl (by rw [g1, g]; rfl)
          · exact .inr ⟨ga, d, ch, gb, by rw [g2, hn]; exact gc, by rw [g1, gd]⟩
        split at hx
        · rcases hx with ⟨b, hx⟩ | ⟨rep, hx⟩ <;> cases hx; exact chainStep_same rfl
        · cases hcc : Ctx.constructChains e (offerCtx m ((v :: 0xE3 :: t).take r'.used) c) with
          | panic => rw [hcc] at hx; rcases hx with ⟨b, hx⟩ | ⟨rep, hx⟩ <;> cases hx
          | err st2 c2 =>
            rw [hcc] at hx; rcases hx with ⟨b, hx⟩ | ⟨rep, hx⟩ <;> cases hx
            exact hb _ (hcw.err hcc) _ rfl rfl
          | ok u c2 =>
            rw [hcc] at hx
            dsimp only at hx
            split at hx
            · rcases hx with ⟨b, hx⟩ | ⟨rep, hx⟩ <;> cases hx
              exact hb _ (hcw.ok hcc).1 _ rfl rfl
            · rcases hx with ⟨b, hx⟩ | ⟨rep, hx⟩ <;> cases hx
              exact hb _ (hcw.ok hcc).1 _ rfl rfl
      · rcases algorithmRsp_refused (e := e) (k := 0xE3) hok with hx' | ⟨rep, c2, hx', _, _, _, _, _, _, g3⟩
        · rw [hx'] at hx; rcases hx with ⟨b, hx⟩ | ⟨rep, hx⟩ <;> cases hx
        · rw [hx'] at hx; rcases hx with ⟨b, hx⟩ | ⟨rep, hx⟩ <;> cases hx
          exact chainStep_same g3
    exact chainStep_same (g.keep k1 k2 k3).prov

/-- In every history starting with provisioned data and no chain built, every chain served consists of the provisioned data of its slot, with
its size and the root hash under some hash algorithm selected earlier.  (Missing: that this is the algorithm selected now; see
`C54_stale_violated`.) -/
theorem C54_history_partial (cfg : Config) (data : Fin 8 → Option Bytes) (root : Option Bytes) (n : Nat) (h : List (Env × Bytes)) (c : Ctx)
    (hr : Run (Ctx.new cfg { chainData := data, peerRoot := root } n) h c) (hl : ∀ p ∈ h, HashLaw p.1) :
    c.prov.chainData = data ∧ ∀ i ch, c.prov.chain i = some ch → ∃ p ∈ h, ∃ d hash, data i = some d ∧ ServedChain p.1 hash d ch := by
  have key : ∀ (h : List (Env × Bytes)) (e : Env) (rx : Bytes) (c c' : Ctx), ChainStep e c c' →
      (c.prov.chainData = data ∧ ∀ i ch, c.prov.chain i = some ch → ∃ p ∈ h, ∃ d hash, data i = some d ∧ ServedChain p.1 hash d ch) →
      (c'.prov.chainData = data ∧ ∀ i ch, c'.prov.chain i = some ch → ∃ p ∈ h ++ [(e, rx)], ∃ d hash, data i = some d ∧ ServedChain p.1 hash d ch) := by
    intro h e rx c c' hs ⟨h1, h2⟩
    refine ⟨hs.1.trans h1, fun i ch hi => ?_⟩
    rcases hs.2 i with g | ⟨_, d, ch', g1, g2, g3⟩
    · obtain ⟨p, hp, q⟩ := h2 i ch (g ▸ hi)
      exact ⟨p, by simp [hp], q⟩
    · rw [hi] at g3; cases g3
      exact ⟨(e, rx), by simp, d, _, by rw [← h1]; exact g1, g2⟩
  induction hr with
  | nil => exact ⟨rfl, fun i ch hi => by simp [Ctx.new] at hi⟩
  | ok hr hp ih =>
    rename_i h e rx c b c'
    exact key _ _ _ _ _ (C54_step _ _ _ (hl (e, rx) (by simp)) (.inl ⟨_, hp⟩)) (ih fun p hp => hl p (by simp [hp]))
  | err hr hp ih =>
    rename_i h e rx c b c'
    exact key _ _ _ _ _ (C54_step _ _ _ (hl (e, rx) (by simp)) (.inr hp)) (ih fun p hp => hl p (by simp [hp]))

/-- The first time algorithms are negotiated, every provisioned slot is served under the hash algorithm selected. -/
theorem C54_first (c c' : Ctx) (rx : Bytes) (v : UInt8) (t : Bytes) (hl : HashLaw e) (hp : Plain e rx (v :: 0xE3 :: t))
    (h : processMessage e rx c = .ok true c') (hnone : ∀ i, c.prov.chain i = none) (hst : c'.rt.state ≠ c.rt.state) :
    ∀ i d, c.prov.chainData i = some d → ∃ ch, c'.prov.chain i = some ch ∧ ServedChain e c'.neg.baseHash d ch := by
  obtain ⟨b, _, h2⟩ := C47_algorithms c c' rx v t hp h
  rcases h2 with ⟨_, g⟩ | ⟨m, r', _, _, _, _, _, hch, _⟩
  · exact absurd g hst
  have hs := C54_step c c' rx hl (.inl ⟨_, h⟩)
  intro i d hd
  have := hch i d (by rw [hs.1]; exact hd)
  rcases hs.2 i with g | ⟨_, d', ch, g1, g2, g3⟩
  · rw [g, hnone i] at this; cases this
  · rw [hd] at g1; cases g1
    exact ⟨ch, g3, g2⟩

/-- the hypotheses of `C54_first` and `C54_history_partial` are met. -/
example : (toyRun [Toy.version, Toy.capabilities, Toy.algorithms]).prov.chain 0 =
    some ([44, 0, 0, 0] ++ Toy.digest 32 [1, 2, 3, 4] ++ [1, 2, 3, 4, 5, 6, 7, 8]) := by decide +kernel
example : ServedChain Toy.env 1 [1, 2, 3, 4, 5, 6, 7, 8] ([44, 0, 0, 0] ++ Toy.digest 32 [1, 2, 3, 4] ++ [1, 2, 3, 4, 5, 6, 7, 8]) :=
  ⟨0, 4, Toy.digest 32 [1, 2, 3, 4], by decide, by decide, by decide, by decide +kernel, by decide +kernel⟩

/-- a responder that supports SHA-256 and SHA-384. -/
def twoHashes : Ctx := Ctx.new { Toy.cfg with baseHash := 3 } { chainData := fun i => if i = 0 then some [1, 2, 3, 4, 5, 6, 7, 8] else none } 2

/-- After a restart in which another hash algorithm is selected, the chain served still carries the root hash of the first negotiation
(finding F30). -/
theorem C54_stale_violated : ∃ c ch, Reachable 2 c ∧ c.rt.state = .negotiated ∧ c.prov.chain 0 = some ch ∧
    c.prov.chainData 0 = some [1, 2, 3, 4, 5, 6, 7, 8] ∧ ¬ ServedChain Toy.env c.neg.baseHash [1, 2, 3, 4, 5, 6, 7, 8] ch := by
  cases hc : Toy.runAll Toy.env twoHashes [Toy.version, Toy.capabilities, algorithmsHash 1, Toy.version, Toy.capabilities, algorithmsHash 2] with
  | none => exact absurd hc (by
      have : (Toy.runAll Toy.env twoHashes [Toy.version, Toy.capabilities, algorithmsHash 1, Toy.version, Toy.capabilities, algorithmsHash 2]).isSome = true := by
        decide +kernel
      intro h; rw [h] at this; cases this)
  | some c =>
    have h1 : ((Toy.runAll Toy.env twoHashes [Toy.version, Toy.capabilities, algorithmsHash 1, Toy.version, Toy.capabilities, algorithmsHash 2]).map
        fun c => (c.rt.state, c.prov.chain 0, c.prov.chainData 0, c.neg.baseHash)) =
        some (.negotiated, some ([44, 0, 0, 0] ++ Toy.digest 32 [1, 2, 3, 4] ++ [1, 2, 3, 4, 5, 6, 7, 8]), some [1, 2, 3, 4, 5, 6, 7, 8], 2) := by
      decide +kernel
    rw [hc] at h1
    simp only [Option.map_some, Option.some.injEq, Prod.mk.injEq] at h1
    obtain ⟨g1, g2, g3, g4⟩ := h1
    refine ⟨c, _, ⟨_, _, _, runAll_run _ Run.nil hc, by simp; exact toy_hashLaw⟩, g1, g2, g3, ?_⟩
    rw [g4]
    rintro ⟨b, en, root, _, _, _, h5, h6⟩
    have hl : root.length = 48 := by
      have : BaseHash.size? (2 : UInt32) = some 48 := by decide
      simp only [Toy.env, Toy.crypto, this, Option.map_some, Option.some.injEq] at h5
      rw [← h5]; exact Toy.digest_length _ _
    have := congrArg List.length h6
    simp [hl, Toy.digest_length, putU16] at this

end Verif.Props
