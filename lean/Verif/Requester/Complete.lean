/-
When the negotiation exchanges succeed.
-/
import Verif.Requester.Goes
import Verif.Requester.Connect
import Verif.Requester.Peer
import Verif.Props.ReqNegotiate

namespace Verif
namespace Req
open Rsp Props

/-- The peer of the requester is the responder `f`, started in `r0`, and nothing is lost: messages of up to 4096 bytes pass both ways, no send fails,
and what the responder sends in answer to the last packet is received. -/
structure Delivers (e : REnv) (f : Env) (r0 : Ctx) : Prop extends Linked e f r0 where
  sendable : ∀ m : Bytes, m.length ≤ 4096 → ∃ pkt, Ctx.encap e.toEnv m = .ok pkt
  repliable : ∀ m : Bytes, m.length ≤ 4096 → ∃ pkt pad, Ctx.encap f m = .ok pkt ∧ pkt.length ≤ 4160 ∧ Ctx.decap e.toEnv pkt 4096 = .ok (m ++ pad)
  sends : ∀ n p, e.send n p = none
  replies : ∀ n p, f.send n p = none
  received : ∀ sent rx rc rc' p, Toy.runAll f r0 sent = some rc → processMessage f rx rc = .ok true rc' → rc'.sent = rc.sent ++ [p] →
    e.recv (sent ++ [rx]) = some p

variable {e : REnv} {f : Env} {r0 : Ctx}

/-- one plain exchange over a link that loses nothing. -/
theorem Delivers.exchange (hl : Delivers e f r0) {x : Bytes → H Bytes} {c rc c1 : Ctx} {b t : Bytes} {v k r : UInt8}
    (hrun : Toy.runAll f r0 c.sent = some rc)
    (hd : ∀ t, dispatchCode f (ReqRespCode.ofCode k) (v :: k :: t) = (do let b ← reply (x (v :: k :: t)); Rsp.sendMessage f b))
    (hx : ∀ pad, x (v :: k :: (t ++ pad)) rc = .ok b c1) (hb : Starts r b) (hr : r ≠ 0x65) (ht : tooLarge c1 b = false)
    (hsent : c1.sent = rc.sent) (hlen : t.length + 2 ≤ 4096) (hlb : b.length ≤ 4096) (hf : c.neg.rspDts = 0 ∨ t.length + 2 ≤ c.neg.rspDts.toNat) :
    ∃ pkt pad, transact e none (v :: k :: t) c = .ok (b ++ pad) (withSent pkt c) := by
  obtain ⟨pkt, hp⟩ := hl.sendable (v :: k :: t) (by simpa using hlen)
  obtain ⟨pad, hpl⟩ := hl.out _ _ hp
  obtain ⟨pktr, padr, h1, h2, h3⟩ := hl.repliable b hlb
  rw [List.cons_append, List.cons_append] at hpl
  have hproc := plain_delivers hpl (hd _) (hx pad) hb hr ht h1 (hl.replies _ _)
  have hrec := hl.received _ _ _ _ pktr hrun hproc (by rw [← hsent]; rfl)
  exact ⟨pkt, padr, transact_goes (by simpa using hf) hp (hl.sends _ _) hrec h2 h3⟩

/-- GET_VERSION succeeds if the two ends have a version in common. -/
theorem version_goes (hl : Delivers e f r0) {c rc : Ctx} (hrun : Toy.runAll f r0 c.sent = some rc) (hn : c.neg.rspDts = 0)
    (hq : ∀ v ∈ [c.config.version0, c.config.version1, c.config.version2], v = .v10 ∨ v = .v11 ∨ v = .v12)
    (hr : ∀ v ∈ [rc.config.version0, rc.config.version1, rc.config.version2], v = .v10 ∨ v = .v11 ∨ v = .v12)
    (hc : ∃ v ∈ [c.config.version0, c.config.version1, c.config.version2], v ∈ [rc.config.version0, rc.config.version1, rc.config.version2]) :
    ∃ c', getVersion e c = .ok () c' := by
  have hrun' : Toy.runAll f r0 (Ctx.resetBuffers .reqGetVersion none c).sent = some rc := hrun
  obtain ⟨pkt, pad, ht⟩ := hl.exchange (x := versionRsp) (v := 0x10) (k := 0x84) (t := [0, 0]) (r := 0x04) hrun' (fun _ => rfl)
    (fun pad => versionRsp_ok 0 0 pad rc) ⟨_, _, rfl⟩ (by decide) (by simp [tooLarge, fresh, Ctx.reset]) (by rfl) (by decide)
    (by simp [versionBytes]) (.inl hn)
  have hbs : versionBytes rc.config ++ pad = 0x10 :: 0x04 :: (0 :: 0 :: 0 :: 3 :: 0 :: rc.config.version0.get :: 0 :: rc.config.version1.get :: 0 ::
      rc.config.version2.get :: pad) := rfl
  rw [hbs] at ht
  have hoff : versionsOffered (0 :: 0 :: 0 :: 3 :: 0 :: rc.config.version0.get :: 0 :: rc.config.version1.get :: 0 :: rc.config.version2.get :: pad) =
      [rc.config.version0.get, rc.config.version1.get, rc.config.version2.get] := rfl
  have hk : ∀ v : SpdmVersion, (v = .v10 ∨ v = .v11 ∨ v = .v12) → 0x10 ≤ v.get := by
    rintro v (rfl | rfl | rfl) <;> decide
  refine (C32_decided_partial ht (by simp) (by simp) (by simp) ?_ hq).1 ?_
  · rw [hoff]
    intro b hb
    simp only [List.mem_cons, List.not_mem_nil, or_false] at hb
    rcases hb with rfl | rfl | rfl
    · exact hk _ (hr _ (by simp))
    · exact hk _ (hr _ (by simp))
    · exact hk _ (hr _ (by simp))
  · obtain ⟨v, hv1, hv2⟩ := hc
    refine ⟨v.get, ?_, v, rfl, hq v hv1, ?_⟩
    · rw [hoff]
      simp only [List.mem_cons, List.not_mem_nil, or_false] at hv2 ⊢
      rcases hv2 with rfl | rfl | rfl <;> simp
    · simpa using hv1

/-- GET_CAPABILITIES succeeds if either side accepts the other's capabilities. -/
theorem capabilities_goes (hl : Delivers e f r0) {c rc : Ctx} (hrun : Toy.runAll f r0 c.sent = some rc) (hneg : rc.neg = {})
    (hst : rc.rt.state = .afterVersion) (hA : rc.rt.messageA = c.rt.messageA) (hlA : c.rt.messageA.length ≤ 16) (hn : c.neg.rspDts = 0)
    (hv : SpdmVersion.ofCode c.neg.version.get = c.neg.version) (hv10 : 0x10 ≤ c.neg.version.get)
    (hq : GetCapsWF c.cc (capsAsked c.cc (capsRequest c.config)))
    (hr : CapsWF c.cc (capsSeen c.cc ⟨rc.config.rspCt, rc.config.rspCaps, rc.config.dts, rc.config.mms⟩)) (hqm : c.config.reqCaps &&& Cap.reqMask = c.config.reqCaps)
    (hrm : rc.config.rspCaps &&& Cap.rspMask = rc.config.rspCaps) (hd : c.cc.ge12 = true → 20 ≤ c.config.dts.toNat) :
    ∃ c', getCapabilities e c = .ok () c' := by
  have h12 : c.cc.ge12 = true ↔ 0x12 ≤ c.neg.version.get := by simp [Cc.ge12, Cc.ver, Ctx.cc]
  generalize hm : capsAsked c.cc (capsRequest c.config) = m at hq
  generalize hs : capsSeen c.cc ⟨rc.config.rspCt, rc.config.rspCaps, rc.config.dts, rc.config.mms⟩ = s at hr
  have hw : getCapsWire c.cc (capsRequest c.config) = getCapsWire c.cc m := by
    rw [← hm]
    unfold getCapsWire capsAsked
    simp only [show (capsRequest c.config).flags &&& Cap.reqMask = (capsRequest c.config).flags from hqm]
    by_cases g1 : c.cc.ge11 = true <;> by_cases g2 : c.cc.ge12 = true <;> simp [g1, g2]
  have hws : capsBytes c.neg.version.get rc.config = c.neg.version.get :: 0x61 :: capsWire c.cc s := by
    rw [← hs]
    have hz : putU16 0 = [0, 0] := by decide
    unfold capsBytes capsWire capsSeen
    simp only [h12, hz, hrm]
    by_cases g2 : 0x12 ≤ c.neg.version.get <;> simp [g2]
  have hver : (Cc.mk { rc.neg with version := SpdmVersion.ofCode c.neg.version.get } rc.cc.needSummary rc.cc.needSig).neg.version.get = c.cc.neg.version.get := by
    simp [Ctx.cc]
  have hwf : GetCapsWF (Cc.mk { rc.neg with version := SpdmVersion.ofCode c.neg.version.get } rc.cc.needSummary rc.cc.needSig) m := by
    have e1 : (Cc.mk { rc.neg with version := SpdmVersion.ofCode c.neg.version.get } rc.cc.needSummary rc.cc.needSig).ver = c.cc.ver := hver
    unfold GetCapsWF Cc.ge11 Cc.ge12 at hq ⊢
    rw [e1]
    exact hq
  have hwl : (getCapsWire c.cc m).length ≤ 18 := by
    unfold getCapsWire; split <;> split <;> simp [putU16, putU32]
  have hbl : (capsBytes c.neg.version.get rc.config).length ≤ 20 := by
    unfold capsBytes; split <;> simp [putU32]
  have hxe : ∀ pad, capabilityRsp (c.neg.version.get :: 0xE1 :: (getCapsWire c.cc m ++ pad)) rc = .ok (capsBytes c.neg.version.get rc.config)
      (addA ((c.neg.version.get :: 0xE1 :: getCapsWire c.cc m) ++ capsBytes c.neg.version.get rc.config) (capsCtx c.neg.version.get m rc)) := by
    intro pad
    have hrd := rdGetCaps_rt hwf pad 2
    rw [getCapsWire_version (m := m) hver] at hrd
    rw [capabilityRsp_eq (k := 0xE1) hst hv10 hrd]
    dsimp only
    rw [show (c.neg.version.get :: 0xE1 :: (getCapsWire c.cc m ++ pad)).take (2 + (getCapsWire c.cc m).length) = c.neg.version.get :: 0xE1 :: getCapsWire c.cc m from by
      rw [Nat.add_comm]; simp]
    rw [if_neg (by rw [hA]; simp only [List.length_cons]; omega), if_neg (by rw [hA]; simp only [List.length_cons]; omega)]
  have hrun' : Toy.runAll f r0 (Ctx.resetBuffers .reqGetCapabilities none c).sent = some rc := hrun
  have hcn := capsCtx_neg c.neg.version.get m rc
  obtain ⟨pkt, pad, ht⟩ := hl.exchange (x := capabilityRsp) (r := 0x61) hrun' (fun _ => rfl) hxe ⟨_, _, rfl⟩ (by decide) (by
      unfold tooLarge
      show ((capsCtx c.neg.version.get m rc).neg.reqDts != 0 && decide ((capsCtx c.neg.version.get m rc).neg.reqDts.toNat < _)) = false
      rw [hcn, hneg]
      unfold capsNeg
      dsimp only
      by_cases g : 0x12 ≤ c.neg.version.get
      · have hmd : m.dts = c.config.dts := by
          rw [← hm]; unfold capsAsked; simp [h12.2 g]; rfl
        have := hd (h12.2 g)
        have hlt : ¬ c.config.dts.toNat < (capsBytes c.neg.version.get rc.config).length := by omega
        simp only [g, if_true, hmd, hlt, decide_false, Bool.and_false]
      · simp [g])
    (by
      show (capsCtx c.neg.version.get m rc).sent = rc.sent
      unfold capsCtx Rsp.setCaps
      rfl)
    (by omega) (by omega) (.inl hn)
  unfold getCapabilities
  rw [M.bind_apply, M.modify_apply]
  dsimp only
  rw [M.bind_apply, M.get_apply]
  dsimp only
  rw [M.bind_apply, encodeReq_goes (p := .getCaps _) (encGetCaps_writes _ _) (by
    show (getCapsWire c.cc (capsRequest c.config)).length + 2 ≤ 4096
    rw [hw]; omega)]
  dsimp only
  have hreq : (Ctx.resetBuffers ReqRespCode.reqGetCapabilities none c).neg.version.get :: ReqRespCode.reqGetCapabilities.get ::
      getCapsWire (Ctx.resetBuffers ReqRespCode.reqGetCapabilities none c).cc (capsRequest (Ctx.resetBuffers ReqRespCode.reqGetCapabilities none c).config) =
      c.neg.version.get :: 0xE1 :: getCapsWire c.cc m := by rw [← hw]; rfl
  rw [hreq, M.bind_apply, ht, hws]
  dsimp only
  unfold handleCapabilities
  rw [M.bind_apply, List.cons_append, List.cons_append]
  have hex : expect (some 0) .rspCapabilities (c.neg.version.get :: 0x61 :: (capsWire c.cc s ++ pad)) (withSent pkt (Ctx.resetBuffers .reqGetCapabilities none c)) =
      .ok ⟨capsWire c.cc s ++ pad, 2⟩ _ := expect_goes (k := .rspCapabilities) hv (by decide)
  rw [hex]
  dsimp only
  have hrd : rdCaps (withSent pkt (Ctx.resetBuffers .reqGetCapabilities none c)).cc ⟨capsWire c.cc s ++ pad, 2⟩ = _ := rdCaps_rt hr pad 2
  rw [M.bind_apply, readMsg_goes (x := rdCaps) hrd]
  dsimp only
  rw [M.bind_apply, M.modify_apply]
  dsimp only
  have hsl : (capsWire c.cc s).length ≤ 18 := by
    have := hbl
    rw [hws] at this
    simp only [List.length_cons] at this
    omega
  have hrt : (Req.setCaps s (withSent pkt (Ctx.resetBuffers .reqGetCapabilities none c))).rt.messageA = c.rt.messageA := rfl
  generalize Req.setCaps s (withSent pkt (Ctx.resetBuffers .reqGetCapabilities none c)) = cx at *
  rw [M.bind_apply, appendA_eq, if_pos (by rw [hrt]; simp only [List.length_cons]; omega)]
  dsimp only
  rw [appendA_eq, if_pos (by
    dsimp only
    rw [hrt]
    simp only [List.length_cons, List.length_append, List.length_take]; omega)]
  exact ⟨_, rfl⟩

/-- every provisioned chain of `c` has a first certificate to take a root hash of. -/
def Provisioned (f : Env) (c : Ctx) : Prop := ∀ i d, c.prov.chainData i = some d → ∃ b en, f.certFromChain d 0 = some (b, en) ∧ b ≤ en ∧ en ≤ 4096

theorem constructSlot_goes {i : Fin 8} {c : Ctx} (h : Provisioned f c) (hh : ∀ b, (f.crypto.hash c.neg.baseHash b).isSome = true) :
    ∃ c', Ctx.constructSlot f i c = .ok () c' := by
  unfold Ctx.constructSlot
  rw [M.bind_apply, M.get_apply]
  dsimp only
  cases hc : c.prov.chain i with
  | some ch => exact ⟨_, rfl⟩
  | none =>
    cases hd : c.prov.chainData i with
    | none => exact ⟨_, rfl⟩
    | some d =>
      obtain ⟨b, en, h1, h2, h3⟩ := h i d hd
      dsimp only
      rw [h1]
      dsimp only
      rw [if_pos ⟨h2, h3⟩]
      have := hh (((d ++ List.replicate (4096 - d.length) 0).drop b).take (en - b))
      cases hx : f.crypto.hash c.neg.baseHash (((d ++ List.replicate (4096 - d.length) 0).drop b).take (en - b)) with
      | none => rw [hx] at this; cases this
      | some root => exact ⟨_, rfl⟩

theorem constructChains_goes {c : Ctx} (h : Provisioned f c) (hh : ∀ b, (f.crypto.hash c.neg.baseHash b).isSome = true) :
    ∃ c', Ctx.constructChains f c = .ok () c' := by
  have step : ∀ (i : Fin 8) (rest : M Status Ctx Unit), (∀ c : Ctx, Provisioned f c → (∀ b, (f.crypto.hash c.neg.baseHash b).isSome = true) → ∃ c', rest c = .ok () c') →
      ∀ c : Ctx, Provisioned f c → (∀ b, (f.crypto.hash c.neg.baseHash b).isSome = true) → ∃ c', (do Ctx.constructSlot f i; rest : M Status Ctx Unit) c = .ok () c' := by
    intro i rest hr c h hh
    obtain ⟨c1, h1⟩ := constructSlot_goes (i := i) h hh
    have hb := ((constructSlot_wp i c).ok h1).1
    rw [M.bind_apply, h1]
    refine hr c1 (fun i d hd => h i d (by rw [← hb.data]; exact hd)) ?_
    rw [show c1.neg = c.neg by rw [hb.same]]
    exact hh
  unfold Ctx.constructChains
  exact step _ _ (step _ _ (step _ _ (step _ _ (step _ _ (step _ _ (step _ _ fun c h hh => constructSlot_goes h hh)))))) c h hh

theorem algsSeen_wire (c : Cc) (m : Algs) : algsWire c m = algsWire c (algsSeen c m) := by
  unfold algsWire algsSeen
  by_cases g1 : c.ge11 = true <;> by_cases g2 : c.ge12 = true <;> simp [g1, g2]

theorem negAlgsSeen_wire (c : Cc) (m : NegAlgs) : negAlgsWire c m = negAlgsWire c (negAlgsSeen c m) := by
  unfold negAlgsWire negAlgsSeen
  by_cases g1 : c.ge11 = true <;> by_cases g2 : c.ge12 = true <;> simp [g1, g2]

/-- NEGOTIATE_ALGORITHMS succeeds if the selection of the responder is acceptable. -/
theorem algorithms_goes (hl : Delivers e f r0) {c rc : Ctx} (hrun : Toy.runAll f r0 c.sent = some rc) (hneg : SameNeg rc c)
    (hst : rc.rt.state = .afterCapabilities) (hA : rc.rt.messageA = c.rt.messageA) (hlA : c.rt.messageA.length ≤ 56)
    (hv : SpdmVersion.ofCode c.neg.version.get = c.neg.version) (hq : NegAlgsWF c.cc (negAlgsSeen c.cc (algsRequest c.config)))
    (hp : Provisioned f rc) (hh : ∀ n', Selected rc.config (negAlgsSeen c.cc (algsRequest c.config)) rc.neg n' → ∀ b, (f.crypto.hash n'.baseHash b).isSome = true)
    (hsel : ∀ n', Selected rc.config (negAlgsSeen c.cc (algsRequest c.config)) rc.neg n' → AlgsWF c.cc (algsSeen c.cc (algsOf n')) ∧ n'.baseHash ≠ 0 ∧ n'.baseAsym ≠ 0)
    (hd : c.neg.reqDts = 0 ∨ 52 ≤ c.neg.reqDts.toNat) (hd' : c.neg.rspDts = 0 ∨ 48 ≤ c.neg.rspDts.toNat) :
    ∃ c', negotiateAlgorithms e c = .ok () c' := by
  have hver : rc.neg.version = c.neg.version := by rw [hneg]; split <;> rfl
  have hdts : rc.neg.reqDts = c.neg.reqDts := by rw [hneg]; split <;> rfl
  have hver' : rc.cc.neg.version.get = c.cc.neg.version.get := by
    show rc.neg.version.get = c.neg.version.get
    rw [hver]
  generalize hm : negAlgsSeen c.cc (algsRequest c.config) = m at *
  have hw : negAlgsWire c.cc (algsRequest c.config) = negAlgsWire c.cc m := by rw [← hm]; exact negAlgsSeen_wire _ _
  have hwl : (negAlgsWire c.cc m).length ≤ 46 := by
    rw [← hw]
    unfold negAlgsWire; split <;> simp [putU16, putU32, algsRequest, AlgStruct.wire]
  have hwf : NegAlgsWF rc.cc m := by
    have e1 : rc.cc.ver = c.cc.ver := hver'
    unfold NegAlgsWF AlgListWF Cc.ge11 Cc.ge12 at hq ⊢
    rw [e1]
    exact hq
  generalize hreq : c.neg.version.get :: 0xE3 :: negAlgsWire c.cc m = req at *
  have hreql : req.length ≤ 48 := by rw [← hreq]; simp only [List.length_cons]; omega
  have hs0 := selected_of rc.config m rc.neg
  obtain ⟨c2, hc2⟩ := constructChains_goes (f := f) (c := offerCtx m req rc) hp (by
    intro b
    exact hh _ hs0 b)
  obtain ⟨hb, _⟩ := (constructChains_wp (e := f) (offerCtx m req rc)).ok hc2
  have hA2 : c2.rt.messageA = rc.rt.messageA ++ req := by rw [hb.same]; rfl
  have hcfg2 : c2.config = rc.config := by rw [hb.same]; rfl
  have hsent2 : c2.sent = rc.sent := by rw [hb.same]; rfl
  have hsel2 : Selected rc.config m rc.neg (withOpaque m c2).neg := by
    have : (withOpaque m c2).neg = { selectAlgs rc.config (setOffer m rc.neg) with opaqueSupport := rc.config.opaqueSupport &&& m.other } := by
      unfold withOpaque
      rw [hb.same]
      rfl
    rw [this]
    exact hs0
  obtain ⟨hw1, hh1, ha1⟩ := hsel _ hsel2
  have hn3 : (withOpaque m c2).neg.version = c.neg.version := by rw [hsel2.rest]; exact hver
  have hd3 : (withOpaque m c2).neg.reqDts = c.neg.reqDts := by rw [hsel2.rest]; exact hdts
  have hA3 : (withOpaque m c2).rt.messageA = rc.rt.messageA ++ req := hA2
  have hs3 : (withOpaque m c2).sent = rc.sent := hsent2
  have hab := algsBytes_eq (n := (withOpaque m c2).neg) (c := c.cc) (by rw [hn3]; rfl)
  have hwl2 : (algsWire c.cc (algsOf (withOpaque m c2).neg)).length ≤ 50 := by
    unfold algsWire; split <;> simp [putU16, putU32, algsOf, AlgStruct.wire]
  generalize hbb : algsBytes (withOpaque m c2).neg = rsp at *
  have hrl : rsp.length ≤ 52 := by rw [hab]; simp only [List.length_cons]; omega
  have hxe : ∀ pad, algorithmRsp f (c.neg.version.get :: 0xE3 :: (negAlgsWire c.cc m ++ pad)) rc = .ok rsp (addA rsp (withOpaque m c2)) := by
    intro pad
    have hrd := rdNegAlgs_rt hwf pad 2
    rw [negAlgsWire_version (m := m) hver'] at hrd
    rw [algorithmRsp_eq (k := 0xE3) hst (hv.trans hver.symm) hrd]
    dsimp only
    rw [show (c.neg.version.get :: 0xE3 :: (negAlgsWire c.cc m ++ pad)).take (2 + (negAlgsWire c.cc m).length) = req from by
      rw [Nat.add_comm, ← hreq]; simp]
    rw [if_neg (by rw [hA]; omega), hc2]
    dsimp only
    rw [hbb, if_neg (by rw [hA2, hA]; simp only [List.length_append]; omega)]
  have hrun' : Toy.runAll f r0 (Ctx.resetBuffers .reqNegotiateAlgorithms none c).sent = some rc := hrun
  have hst' : Starts 0x63 rsp := ⟨_, _, hab⟩
  obtain ⟨pkt, pad, ht⟩ := hl.exchange (x := algorithmRsp f) (r := 0x63) hrun' (fun _ => rfl) hxe hst' (by decide)
    (by
      unfold tooLarge
      show ((withOpaque m c2).neg.reqDts != 0 && decide ((withOpaque m c2).neg.reqDts.toNat < _)) = false
      rw [hd3]
      rcases hd with hd | hd
      · simp [hd]
      · have hlt : ¬ c.neg.reqDts.toNat < rsp.length := by omega
        simp only [hlt, decide_false, Bool.and_false])
    (by exact hs3) (by omega) (by omega) (by
      show c.neg.rspDts = 0 ∨ (negAlgsWire c.cc m).length + 2 ≤ c.neg.rspDts.toNat
      rcases hd' with hd' | hd'
      · exact .inl hd'
      · right; omega)
  unfold negotiateAlgorithms
  rw [M.bind_apply, M.modify_apply]
  dsimp only
  rw [M.bind_apply, M.get_apply]
  dsimp only
  rw [M.bind_apply, encodeReq_goes (p := .negAlgs _) (algsRequest_writes _ _) (by
    show (negAlgsWire c.cc (algsRequest c.config)).length + 2 ≤ 4096
    rw [hw]; omega)]
  dsimp only
  have hreq' : (Ctx.resetBuffers ReqRespCode.reqNegotiateAlgorithms none c).neg.version.get :: ReqRespCode.reqNegotiateAlgorithms.get ::
      negAlgsWire (Ctx.resetBuffers ReqRespCode.reqNegotiateAlgorithms none c).cc (algsRequest (Ctx.resetBuffers ReqRespCode.reqNegotiateAlgorithms none c).config) =
      req := by rw [← hreq, ← hw]; rfl
  rw [hreq', M.bind_apply, ← hreq, ht, hab, hn3]
  dsimp only
  unfold handleAlgorithms
  rw [M.bind_apply, List.cons_append, List.cons_append]
  have hex : expect (some 0) .rspAlgorithms (c.neg.version.get :: 0x63 :: (algsWire c.cc (algsOf (withOpaque m c2).neg) ++ pad)) (withSent pkt (Ctx.resetBuffers .reqNegotiateAlgorithms none c)) =
      .ok ⟨algsWire c.cc (algsOf (withOpaque m c2).neg) ++ pad, 2⟩ _ := expect_goes (k := .rspAlgorithms) hv (by decide)
  rw [hex]
  dsimp only
  have hrd : rdAlgsRsp (withSent pkt (Ctx.resetBuffers .reqNegotiateAlgorithms none c)).cc ⟨algsWire c.cc (algsOf (withOpaque m c2).neg) ++ pad, 2⟩ =
      .ok (algsSeen c.cc (algsOf (withOpaque m c2).neg)) ⟨pad, 2 + (algsWire c.cc (algsSeen c.cc (algsOf (withOpaque m c2).neg))).length⟩ := by
    rw [algsSeen_wire]
    exact rdAlgsRsp_rt hw1 pad 2
  rw [M.bind_apply, readMsg_goes (x := rdAlgsRsp) hrd]
  dsimp only
  rw [M.bind_apply, M.get_apply]
  dsimp only
  rw [M.bind_apply, M.set_apply]
  dsimp only
  have htk : (takeAlgs (algsSeen c.cc (algsOf (withOpaque m c2).neg)) (withSent pkt (Ctx.resetBuffers .reqNegotiateAlgorithms none c)).neg).2 = true := by
    unfold takeAlgs
    dsimp only
    rw [if_neg (by exact hh1), if_neg (by exact ha1)]
  rw [if_neg (by rw [htk]; simp)]
  rw [M.bind_apply, appendA_eq, hreq, if_pos (by
    show c.rt.messageA.length + req.length ≤ 156
    omega)]
  dsimp only
  rw [appendA_eq, if_pos (by
    show (c.rt.messageA ++ req).length + (List.take _ _).length ≤ 156
    rw [← algsSeen_wire]
    simp only [List.length_append, List.length_cons, List.length_take]
    omega)]
  exact ⟨_, rfl⟩

/-! ### What a successful exchange tells -/

theorem rdGetCaps_ok {c : Cc} {r r' : Reader} {m : Caps} (h : rdGetCaps c r = .ok m r') :
    (c.ge11 = true → reqFlagsRefused c.ver m.flags = false) ∧ (c.ge12 = true → 42 ≤ m.dts.toNat ∧ m.dts.toNat ≤ m.mms.toNat) := by
  unfold rdGetCaps at h
  obtain ⟨_, r1, _, h⟩ := M.bind_ok.1 h
  obtain ⟨_, r2, _, h⟩ := M.bind_ok.1 h
  obtain ⟨⟨ct, flags⟩, r3, h3, h⟩ := M.bind_ok.1 h
  have hf : c.ge11 = true → reqFlagsRefused c.ver flags = false := by
    intro g
    rw [if_pos g] at h3
    obtain ⟨_, _, _, h3⟩ := M.bind_ok.1 h3
    obtain ⟨_, _, _, h3⟩ := M.bind_ok.1 h3
    obtain ⟨_, _, _, h3⟩ := M.bind_ok.1 h3
    obtain ⟨fl, _, _, h3⟩ := M.bind_ok.1 h3
    by_cases hr : reqFlagsRefused c.ver fl = true
    · rw [if_pos hr] at h3; cases h3
    · rw [if_neg hr] at h3
      have := (Prod.mk.inj (M.pure_ok.1 h3).1).2
      rw [← this]
      simpa using hr
  dsimp only at h
  by_cases g : c.ge12 = true
  · rw [if_pos g] at h
    obtain ⟨dts, _, _, h⟩ := M.bind_ok.1 h
    obtain ⟨mms, _, _, h⟩ := M.bind_ok.1 h
    by_cases hs : dts < 42 ∨ mms < dts
    · rw [if_pos hs] at h; cases h
    · rw [if_neg hs] at h
      have := (M.pure_ok.1 h).1
      subst this
      refine ⟨hf, fun _ => ?_⟩
      simp only [UInt32.lt_iff_toNat_lt] at hs
      have h42 : (42 : UInt32).toNat = 42 := rfl
      dsimp only
      omega
  · rw [if_neg g] at h
    have := (M.pure_ok.1 h).1
    subst this
    exact ⟨hf, fun k => absurd k g⟩

theorem rdCaps_ok {c : Cc} {r r' : Reader} {m : Caps} (h : rdCaps c r = .ok m r') :
    rspFlagsRefused c.ver m.flags = false ∧ (c.ge12 = true → 42 ≤ m.dts.toNat ∧ m.dts.toNat ≤ m.mms.toNat) := by
  unfold rdCaps at h
  obtain ⟨_, _, _, h⟩ := M.bind_ok.1 h
  obtain ⟨_, _, _, h⟩ := M.bind_ok.1 h
  obtain ⟨_, _, _, h⟩ := M.bind_ok.1 h
  obtain ⟨_, _, _, h⟩ := M.bind_ok.1 h
  obtain ⟨_, _, _, h⟩ := M.bind_ok.1 h
  obtain ⟨fl, _, _, h⟩ := M.bind_ok.1 h
  by_cases hr : rspFlagsRefused c.ver fl = true
  · rw [if_pos hr] at h; cases h
  · rw [if_neg hr] at h
    have hr' : rspFlagsRefused c.ver fl = false := by simpa using hr
    by_cases g : c.ge12 = true
    · rw [if_pos g] at h
      obtain ⟨dts, _, _, h⟩ := M.bind_ok.1 h
      obtain ⟨mms, _, _, h⟩ := M.bind_ok.1 h
      by_cases hs : dts < 42 ∨ mms < dts
      · rw [if_pos hs] at h; cases h
      · rw [if_neg hs] at h
        have := (M.pure_ok.1 h).1
        subst this
        refine ⟨hr', fun _ => ?_⟩
        simp only [UInt32.lt_iff_toNat_lt] at hs
        have h42 : (42 : UInt32).toNat = 42 := rfl
        dsimp only
        omega
    · rw [if_neg g] at h
      have := (M.pure_ok.1 h).1
      subst this
      exact ⟨hr', fun k => absurd k g⟩

/-- GET_CAPABILITIES succeeded: either side accepted the other's capabilities. -/
theorem capabilities_accepted (hl : Linked e f r0) {c c' : Ctx} {u : Unit} {rc : Ctx} (h : getCapabilities e c = .ok u c')
    (hrun : Toy.runAll f r0 c.sent = some rc) (hq : c.config.reqCaps &&& Cap.reqMask = c.config.reqCaps)
    (hneg : c'.neg = announced c.neg.version c.config rc.config) :
    (c.cc.ge11 = true → reqFlagsRefused c.cc.ver c.config.reqCaps = false) ∧
      (c.cc.ge12 = true → 42 ≤ c.config.dts.toNat ∧ c.config.dts.toNat ≤ c.config.mms.toNat) ∧
      rspFlagsRefused c.cc.ver rc.config.rspCaps = false ∧ (c.cc.ge12 = true → 42 ≤ rc.config.dts.toNat ∧ rc.config.dts.toNat ≤ rc.config.mms.toNat) := by
  have h12 : c.cc.ge12 = true ↔ 0x12 ≤ c.neg.version.get := by simp [Cc.ge12, Cc.ver, Ctx.cc]
  obtain ⟨req, pkt, bytes, t, m, r', h1, rfl, h2, hv, h3, h5⟩ := getCapabilities_ok h
  obtain ⟨k1, k2⟩ := rdCaps_ok h3
  obtain ⟨rc0, rc', pad, pad', b, c1, pktr, g1, g2, g3, g4, g5⟩ := hl.answer (x := capabilityRsp) h1 h2 (fun _ => rfl)
    (fun t => codes_capabilityRsp (c.neg.version.get :: 0xE1 :: t)) (by decide) (by decide)
  rw [hrun] at g1
  cases g1
  have hfl : m.flags = rc.config.rspCaps := by
    have := congrArg Neg.rspCaps hneg
    rw [h5] at this
    change (Req.setCaps m c).neg.rspCaps = rc.config.rspCaps at this
    unfold Req.setCaps at this
    dsimp only at this
    split at this <;> exact this
  have hsz : c.cc.ge12 = true → m.dts = rc.config.dts ∧ m.mms = rc.config.mms := by
    intro g
    have a1 := congrArg Neg.rspDts hneg
    have a2 := congrArg Neg.rspMms hneg
    rw [h5] at a1 a2
    change (Req.setCaps m c).neg.rspDts = _ at a1
    change (Req.setCaps m c).neg.rspMms = _ at a2
    unfold Req.setCaps announced at a1 a2
    dsimp only at a1 a2
    rw [if_pos g] at a1 a2
    rw [if_pos (h12.1 g)] at a1 a2
    exact ⟨a1, a2⟩
  by_cases hok : rc.rt.state = .afterVersion ∧ 0x10 ≤ c.neg.version.get ∧ ∃ m r',
      rdGetCaps { rc.cc with neg := { rc.neg with version := SpdmVersion.ofCode c.neg.version.get } } ⟨getCapsWire c.cc (capsRequest c.config) ++ pad, 2⟩ = .ok m r'
  · obtain ⟨_, hv10, m', s', hm'⟩ := hok
    have hver : (Cc.mk { rc.neg with version := SpdmVersion.ofCode c.neg.version.get } rc.cc.needSummary rc.cc.needSig).neg.version.get = c.cc.neg.version.get := by
      simp [Ctx.cc]
    have e1 : (Cc.mk { rc.neg with version := SpdmVersion.ofCode c.neg.version.get } rc.cc.needSummary rc.cc.needSig).ver = c.cc.ver := hver
    rw [← getCapsWire_version (m := capsRequest c.config) hver] at hm'
    have hw := rdGetCaps_ok hm'
    obtain ⟨rfl, rfl⟩ := rdGetCaps_w _ _ _ _ _ _ hm'
    unfold capsAsked Cc.ge11 Cc.ge12 at hw
    rw [e1] at hw
    obtain ⟨w1, w2⟩ := hw
    refine ⟨fun g => ?_, fun g => ?_, by rw [← hfl]; exact k1, fun g => ?_⟩
    · have := w1 g
      dsimp only at this
      rw [if_pos (by exact g)] at this
      change reqFlagsRefused c.cc.ver (c.config.reqCaps &&& Cap.reqMask) = false at this
      rwa [hq] at this
    · have := w2 g
      dsimp only at this
      rw [if_pos (by exact g), if_pos (by exact g)] at this
      exact this
    · obtain ⟨a1, a2⟩ := hsz g
      rw [← a1, ← a2]
      exact k2 g
  · rcases g4 with g4 | ⟨rep, g4, _, g6⟩
    · rcases capabilityRsp_refused (k := 0xE1) hok with hx | ⟨rep, c2, hx, _⟩ <;> rw [hx] at g4 <;> cases g4
    · rcases capabilityRsp_refused (k := 0xE1) hok with hx | ⟨rep, c2, hx, k1, _⟩ <;> rw [hx] at g4 <;> cases g4
      exact absurd k1 g6

/-- NEGOTIATE_ALGORITHMS succeeded: the request fitted. -/
theorem algorithms_fitted {c c' : Ctx} {u : Unit} (h : negotiateAlgorithms e c = .ok u c') :
    c.neg.rspDts = 0 ∨ (negAlgsWire c.cc (algsRequest c.config)).length + 2 ≤ c.neg.rspDts.toNat := by
  obtain ⟨_, c0, h0, h1⟩ := M.bind_ok.1 h
  cases h0
  obtain ⟨c00, c01, h00, h01⟩ := M.bind_ok.1 h1
  cases h00
  obtain ⟨req, c1, h2, h3⟩ := M.bind_ok.1 h01
  obtain ⟨rfl, rfl⟩ := encodeReq_ok (p := .negAlgs _) (algsRequest_writes _ _) h2
  obtain ⟨bytes, c2, h4, h5⟩ := M.bind_ok.1 h3
  obtain ⟨_, _, _, _, hf, _⟩ := transact_none_ok h4
  rcases hf with hf | hf
  · exact .inl hf
  · exact .inr hf

end Req
end Verif
