/-
The handlers that answer every failure with an ERROR message do not panic.
-/
import Verif.Responder.SoundSend
import Verif.Responder.SizesInv
import Verif.Responder.Negotiated

namespace Verif
open M Res
namespace Rsp
open Session
variable {e : Env} {lim : Nat} {α β : Type}

/-! ### GET_VERSION, GET_CAPABILITIES, NEGOTIATE_ALGORITHMS -/

/-- no panic from any state. -/
def NP (x : H α) : Prop := ∀ c, x.Tot c (fun _ _ => True) (fun r _ => Short r)

theorem NP.of {x : H α} (h : ∀ c0, SndH c0 x) : NP x := fun c => (h c c (Same.refl c)).mono (fun _ _ _ => trivial) fun _ _ h => h.2
theorem NP.bind {x : H α} {f : α → H β} (hx : NP x) (hf : ∀ a, NP (f a)) : NP (x >>= f) := fun c => Tot.bind (hx c) fun a t _ => hf a t
theorem NP.modify (f : Ctx → Ctx) : NP (M.modify f) := fun _ => trivial
theorem NP.get {f : Ctx → H α} (h : ∀ c, NP (f c)) : NP (M.get >>= f) := fun c => h c c
theorem NP.ite {p : Prop} [Decidable p] {x y : H α} (hx : NP x) (hy : NP y) : NP (if p then x else y) := by
  split
  · exact hx
  · exact hy
theorem NP.fail {r : Reply} (h : Short r) : NP (M.fail r : H α) := fun _ => h
theorem NP.pure (a : α) : NP (pure a : H α) := fun _ => trivial

theorem np_appendA {b : Bytes} (hb : b.length ≤ msgSize) (msg : Bytes) : NP (orAppended b (Ctx.appendA msg)) := NP.of fun _ => snd_appended hb (snd_appendA msg)
theorem np_orAppendA (msg : Bytes) : NP (orUnspecified (Ctx.appendA msg)) := NP.of fun _ => snd_or (snd_appendA msg)

theorem np_encode {k : ReqRespCode} {p : Payload} {w : Ctx → Bytes} (hw : ∀ c, Writes (p.encode c.cc) (w c)) {f : Bytes → H β} (hf : ∀ b, b.length ≤ msgSize → NP (f b)) :
    NP (encodeRsp k p >>= f) := fun c =>
  Tot.bind ((encodeRsp_tot (hw c)).mono (fun _ _ h => h) fun _ _ h => h.2) fun b t h => hf b h.2.2 t

theorem np_versionRsp (bytes : Bytes) : NP (versionRsp bytes) := by
  unfold versionRsp
  refine (NP.of fun _ => header_tot bytes).bind fun p => NP.ite (NP.fail short_nil) ?_
  refine (NP.modify _).bind fun _ => (NP.of fun _ => snd_readReq (fun _ _ => rdNoParams_good) _ _).bind fun m => (NP.modify _).bind fun _ => (np_orAppendA _).bind fun _ => ?_
  intro c
  have hx := encodeVersion_ok c
  have hl : (versionBytes c.config).length ≤ msgSize := (fits_encodeVersion c).ok hx
  refine Tot.bind (P := fun b _ => b = versionBytes c.config) (Tot.ok hx rfl) ?_
  rintro _ t rfl
  exact ((np_appendA hl _).bind fun _ => NP.pure _) t

theorem np_capabilityRsp (bytes : Bytes) : NP (capabilityRsp bytes) := by
  unfold capabilityRsp
  refine NP.get fun c => NP.ite (NP.fail short_nil) ?_
  refine (NP.of fun _ => header_tot bytes).bind fun p => NP.ite (NP.fail short_nil) ?_
  refine (NP.modify _).bind fun _ => (NP.modify _).bind fun _ => (NP.of fun _ => snd_readReq (fun c _ => rdGetCaps_good c.cc) _ _).bind fun m => (NP.modify _).bind fun _ => (np_orAppendA _).bind fun _ => ?_
  exact np_encode (p := .caps _) (fun c => encCaps_writes c.cc _) fun b hb => (np_appendA hb _).bind fun _ => NP.pure _

/-- the parser of certificate chains finds the root certificate of every chain provisioned. -/
def Chained (e : Env) (c : Ctx) : Prop := ∀ i d, c.prov.chainData i = some d → ∃ b en, e.certFromChain d 0 = some (b, en) ∧ b ≤ en ∧ en ≤ 4096

def KeepP (c c' : Ctx) : Prop := c'.prov.chainData = c.prov.chainData
instance : M.Pre KeepP where
  refl _ := rfl
  trans h h' := Eq.trans h' h

theorem Chained.keep {c c' : Ctx} (h : Chained e c) (hk : KeepP c c') : Chained e c' := by
  unfold Chained
  rw [show c'.prov.chainData = c.prov.chainData from hk]
  exact h

/-- no panic while the provisioned chains parse. -/
def NPk (e : Env) (x : H α) : Prop := ∀ c, Chained e c → x.Tot c (fun _ c' => Chained e c') (fun r _ => Short r)
theorem NPk.of {x : H α} (h : NP x) (hr : M.Rel KeepP x) : NPk e x := fun c hc =>
  ((h c).and (hr c)).mono (fun _ _ h => hc.keep h.2) fun _ _ h => h.1
theorem NPk.bind {x : H α} {f : α → H β} (hx : NPk e x) (hf : ∀ a, NPk e (f a)) : NPk e (x >>= f) := fun c hc => Tot.bind (hx c hc) fun a t h => hf a t h
theorem NPk.then {x : H α} {f : α → H β} (hx : NPk e x) (hf : ∀ a, NP (f a)) {c : Ctx} (hc : Chained e c) : (x >>= f).Tot c (fun _ _ => True) (fun r _ => Short r) :=
  Tot.bind (hx c hc) fun a t _ => hf a t

theorem tot_constructSlot (i : Fin 8) {c : Ctx} (hc : Chained e c) : (Ctx.constructSlot e i).Tot c (fun _ c' => Chained e c') (fun _ c' => Chained e c') := by
  unfold Ctx.constructSlot
  refine tot_get_bind ?_
  cases h1' : c.prov.chain i with
  | some x => exact tot_pure hc
  | none =>
    cases h2 : c.prov.chainData i with
    | none => exact tot_pure hc
    | some d =>
      dsimp only
      obtain ⟨b, en, h3, h4, h5⟩ := hc i d h2
      rw [h3]
      dsimp only
      rw [if_pos ⟨h4, h5⟩]
      split
      · exact tot_modify (hc.keep rfl)
      · exact tot_fail hc

theorem tot_constructChains {c : Ctx} (hc : Chained e c) : (Ctx.constructChains e).Tot c (fun _ c' => Chained e c') (fun _ c' => Chained e c') := by
  unfold Ctx.constructChains
  iterate 7 (refine Tot.bind (tot_constructSlot _ (by assumption)) fun _ _ _ => ?_)
  exact tot_constructSlot _ (by assumption)

theorem keepP_appendA (msg : Bytes) : M.Rel KeepP (Ctx.appendA msg) := by
  intro c
  unfold Ctx.appendA
  simp only [M.wp_bind, M.wp_get]
  split
  · exact rfl
  · exact rfl

theorem keepP_readReq {β : Type} (rd : Cc → Rd β) (bytes : Bytes) (r : Reader) : M.Rel KeepP (readReq rd bytes r) := by
  unfold readReq
  refine M.Rel.bind M.Rel.get fun c => ?_
  split
  · exact fun _ => trivial
  · exact M.Rel.fail _
  · exact M.Rel.pure _
theorem keepP_checkVersion (bytes : Bytes) : M.Rel KeepP (checkVersion bytes) := by
  unfold checkVersion header
  refine M.Rel.bind ?_ fun _ => by rel
  split
  · exact fun _ => trivial
  · exact M.Rel.fail _
  · exact M.Rel.pure _
theorem keepP_orAppendA (msg : Bytes) : M.Rel KeepP (orUnspecified (Ctx.appendA msg)) := M.Rel.mapErr _ (keepP_appendA msg)
theorem keepP_reset (k : ReqRespCode) : M.Rel KeepP (M.modify (Ctx.resetBuffers k none) : H Unit) := M.Rel.modify fun c => by
  unfold KeepP
  rw [(Ctx.frame_resetBuffers (k := true) (sid := none) k c).prov rfl]

theorem np_algorithmRsp (bytes : Bytes) {c : Ctx} (hc : Chained e c) : (algorithmRsp e bytes).Tot c (fun _ _ => True) (fun r _ => Short r) := by
  unfold algorithmRsp
  refine tot_get_bind (tot_ite (fun _ => tot_fail short_nil) fun _ => ?_)
  refine Tot.bind ((NPk.of (NP.of fun _ => snd_checkVersion bytes) (keepP_checkVersion bytes)) c hc) fun r c1 h1 => ?_
  refine Tot.bind ((NPk.of (NP.modify _) (keepP_reset _)) c1 h1) fun _ c2 h2 => ?_
  refine Tot.bind ((NPk.of (NP.of fun _ => snd_readReq (fun c _ => rdNegAlgs_good c.cc) _ _) (keepP_readReq _ _ _)) c2 h2) fun m c3 h3 => ?_
  refine Tot.bind (P := fun _ c' => Chained e c') (tot_modify (h3.keep rfl)) fun _ c4 h4 => ?_
  refine Tot.bind ((NPk.of (np_orAppendA _) (keepP_orAppendA _)) c4 h4) fun _ c5 h5 => ?_
  refine Tot.bind (P := fun _ c' => Chained e c') (tot_modify (h5.keep rfl)) fun _ c6 h6 => ?_
  refine Tot.bind (P := fun _ _ => True) ((Tot.mapErr ((tot_constructChains h6).mono (fun _ _ _ => trivial) fun _ _ _ => short_nil))) fun _ c7 _ => ?_
  exact ((NP.modify _).bind fun _ => NP.get fun c =>
    np_encode (p := .algs _) (fun c' => algs_writes c'.cc c.neg) fun b hb => (np_appendA hb _).bind fun _ => NP.pure _) c7

theorem np_dts {x : H Bytes} {c : Ctx} (h : x.Tot c (fun _ _ => True) (fun r _ => Short r)) (hk : M.Rel KeepD x) (hd : DtsOk c.neg) : x.Tot c (fun _ c' => DtsOk c'.neg) (fun r c' => DtsOk c'.neg ∧ Short r) :=
  (h.and (hk c)).mono (fun _ _ h => h.2 hd) fun _ _ h => ⟨h.2 hd, h.1⟩

theorem calm_handleVersion (hr : Roomy e.tr lim) {c : Ctx} (hd : DtsOk c.neg) (v : UInt8) (t : Bytes) : handleVersion e (v :: 0x84 :: t) c ≠ .panic := by
  unfold handleVersion
  exact plain_calm hr (k := 0x04) (by decide) (np_dts (np_versionRsp _ c) (keepD_versionRsp _) hd) (fits_versionRsp _) (codes_versionRsp _ _)
theorem calm_handleCapability (hr : Roomy e.tr lim) {c : Ctx} (hd : DtsOk c.neg) (bytes : Bytes) : handleCapability e bytes c ≠ .panic := by
  unfold handleCapability
  exact plain_calm hr (k := 0x61) (by decide) (np_dts (np_capabilityRsp bytes c) (keepD_capabilityRsp bytes) hd) (fits_capabilityRsp _) (codes_capabilityRsp _)
theorem calm_handleAlgorithm (hr : Roomy e.tr lim) {c : Ctx} (hc : Chained e c) (hd : DtsOk c.neg) (bytes : Bytes) : handleAlgorithm e bytes c ≠ .panic := by
  unfold handleAlgorithm
  exact plain_calm hr (k := 0x63) (by decide) (np_dts (np_algorithmRsp bytes hc) (keepD_algorithmRsp bytes) hd) (fits_algorithmRsp _) (codes_algorithmRsp _)

/-! ### the handlers after negotiation -/

theorem early_tot {c : Ctx} (h : c.rt.state.code < ConnState.negotiated.code) {f : Unit → H α} : TotH c (afterNegotiation >>= f) := by
  have : afterNegotiation c = .err { code := .unexpectedRequest } c := by
    unfold afterNegotiation
    rw [M.bind_apply, M.get_apply]
    dsimp only
    rw [if_pos h]
    rfl
  exact Tot.bind (P := fun _ _ => False) (Tot.err this ⟨Loose.refl c, short_nil⟩) fun _ _ h => h.elim

section
variable (hh : Honest e) (hr : Roomy e.tr lim) (ha : AeadFits e.crypto) {c : Ctx} (hd : DtsOk c.neg) {sid : Option UInt32} (hs : ∀ i, sid = some i → Ready c i)
include hh hr ha hd hs

theorem calm_handleDigest (hz : c.rt.state.code < ConnState.negotiated.code ∨ Sized c.neg) (bytes : Bytes) : handleDigest e sid bytes c ≠ .panic := by
  unfold handleDigest
  refine answer_calm hr ha (k := 0x01) (by decide) ?_ (fits_digestRsp _ _) (codes_digestRsp hh.hash _ _) hd hs
  rcases hz with hz | hz
  · unfold digestRsp
    exact early_tot hz
  · exact snd_digestRsp hh hz _ _
omit hh in
theorem calm_handleCertificate (bytes : Bytes) : handleCertificate e sid bytes c ≠ .panic := by
  unfold handleCertificate
  exact answer_calm hr ha (k := 0x02) (by decide) (snd_certificateRsp c _ _) (fits_certificateRsp _ _) (codes_certificateRsp _ _) hd hs
theorem calm_handleMeasurement (hz : c.rt.state.code < ConnState.negotiated.code ∨ Sized c.neg) (bytes : Bytes) : handleMeasurement e sid bytes c ≠ .panic := by
  unfold handleMeasurement
  refine answer_calm hr ha (k := 0x60) (by decide) ?_ (fits_measurementRsp _ _) (codes_measurementRsp _ _) hd hs
  rcases hz with hz | hz
  · unfold measurementRsp
    exact early_tot hz
  · exact snd_measurementRsp hh hr hd hz _ _
omit hh in
theorem calm_handleVendor (bytes : Bytes) : handleVendor e sid bytes c ≠ .panic := by
  unfold handleVendor
  exact answer_calm hr ha (k := 0x7E) (by decide) (snd_vendorRsp c _ _) (fits_vendorRsp _ _) (codes_vendorRsp _ _) hd hs
omit hh in
theorem calm_handleError (code : ErrorCode) (bytes : Bytes) : handleError e code sid bytes c ≠ .panic := by
  unfold handleError
  refine answer_calm hr ha (k := 0x7F) (by decide) (snd_errorResponse c _ _) (fits_errorResponse _ _) ?_ hd hs
  exact fun c => (codes_errorResponse code bytes c).mono (fun _ _ h => h.elim) fun _ _ h => h
end

theorem calm_handleChallenge (hh : Honest e) (hr : Roomy e.tr lim) (ha : AeadFits e.crypto) {c : Ctx} (hd : DtsOk c.neg) (hz : c.rt.state.code < ConnState.negotiated.code ∨ Sized c.neg) (bytes : Bytes) :
    handleChallenge e bytes c ≠ .panic := by
  unfold handleChallenge
  refine answer_calm (sid := none) hr ha (k := 0x03) (by decide) ?_ (fits_challengeRsp _) (codes_challengeRsp _) hd (fun _ h => by cases h)
  rcases hz with hz | hz
  · unfold challengeRsp
    exact early_tot hz
  · exact snd_challengeRsp hh hr hd hz _

section
variable (hr : Roomy e.tr lim) (ha : AeadFits e.crypto) {c : Ctx} (hd : DtsOk c.neg) {i : UInt32} (hs : Ready c i)
include hr ha hd hs

theorem calm_handleHeartbeat (bytes : Bytes) : handleHeartbeat e i bytes c ≠ .panic := by
  unfold handleHeartbeat
  exact answer_calm (sid := some i) hr ha (k := 0x68) (by decide) (snd_heartbeatRsp c _ _) (fits_heartbeatRsp _ _) (codes_heartbeatRsp _ _) hd (fun _ h => by cases h; exact hs)
theorem calm_handleKeyUpdate (bytes : Bytes) : handleKeyUpdate e i bytes c ≠ .panic := by
  unfold handleKeyUpdate
  obtain ⟨s, h1, h2⟩ := hs
  exact answer_calm (sid := some i) hr ha (k := 0x69) (by decide) (snd_keyUpdateRsp h1 h2 _) (fits_keyUpdateRsp _ _) (codes_keyUpdateRsp _ _) hd (fun _ h => by cases h; exact ⟨s, h1, h2⟩)
theorem calm_handleEndSession (bytes : Bytes) : handleEndSession e i bytes c ≠ .panic := by
  unfold handleEndSession
  exact answer_calm (sid := some i) hr ha (k := 0x6C) (by decide) (snd_endSessionRsp c _ _) (fits_endSessionRsp _ _) (codes_endSessionRsp _ _) hd (fun _ h => by cases h; exact hs)
end

end Rsp
end Verif
