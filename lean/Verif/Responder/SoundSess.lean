/-
The session handshake handlers do not panic.
-/
import Verif.Responder.SoundRsp
import Verif.Responder.ExchangeExact
import Verif.Props.KeyUpdate
import Verif.Props.Signing

namespace Verif
open M Res
namespace Rsp
open Session
variable {e : Env} {lim : Nat} {α β : Type} {c0 : Ctx}

/-- no panic; on success the skeleton is kept and the value satisfies `Q`. -/
abbrev SndQ (c0 : Ctx) (x : M Status Ctx α) (Q : α → Prop) : Prop := ∀ c, Same c0 c → x.Tot c (fun a c' => Same c0 c' ∧ Q a) (fun _ _ => True)

theorem SndS.q {x : M Status Ctx α} (h : SndS c0 x) : SndQ c0 x (fun _ => True) := fun c hc => (h c hc).mono (fun _ _ h => ⟨h, trivial⟩) fun _ _ _ => trivial
theorem SndQ.bind {x : M Status Ctx α} {f : α → M Status Ctx β} {P : α → Prop} {Q : β → Prop} (hx : SndQ c0 x P) (hf : ∀ a, P a → SndQ c0 (f a) Q) : SndQ c0 (x >>= f) Q :=
  fun c hc => Tot.bind (hx c hc) fun a t ht => hf a ht.2 t ht.1
theorem SndQ.pure {a : α} {Q : α → Prop} (h : Q a) : SndQ c0 (pure a : M Status Ctx α) Q := fun _ hc => tot_pure ⟨hc, h⟩
theorem SndQ.get {f : Ctx → M Status Ctx α} {Q : α → Prop} (h : ∀ c, Same c0 c → SndQ c0 (f c) Q) : SndQ c0 (M.get >>= f) Q := fun c hc => tot_get_bind (h c hc c hc)
theorem SndQ.ite {p : Prop} [Decidable p] {x y : M Status Ctx α} {Q : α → Prop} (hx : p → SndQ c0 x Q) (hy : ¬ p → SndQ c0 y Q) : SndQ c0 (if p then x else y) Q :=
  fun c hc => tot_ite (fun h => hx h c hc) fun h => hy h c hc
theorem SndQ.fail {st : Status} {Q : α → Prop} : SndQ c0 (M.fail st : M Status Ctx α) Q := fun _ _ => tot_fail trivial
theorem SndQ.modify {f : Ctx → Ctx} (h : ∀ c, Same c (f c)) : SndQ c0 (M.modify f : M Status Ctx Unit) (fun _ => True) := SndS.q (SndS.modify h)
theorem SndQ.unwrap {o : Option α} (h : o.isSome = true) : SndQ c0 (M.unwrap o : M Status Ctx α) (fun a => o = some a) := fun _ hc => tot_unwrap h fun _ ha => ⟨hc, ha⟩
theorem SndQ.ofOption {st : Status} (o : Option α) : SndQ c0 (M.ofOption st o : M Status Ctx α) (fun a => o = some a) := fun _ hc => tot_ofOption (fun _ ha => ⟨hc, ha⟩) fun _ => trivial
theorem SndQ.lift {x : Res α} (h : Safe x) : SndQ c0 (x.lift : M Status Ctx α) (fun a => x = .ok a) := fun _ hc => h.lift (fun _ ha => ⟨hc, ha⟩) fun _ => trivial
theorem SndQ.mapErr {x : M Status Ctx α} {st : Status} {Q : α → Prop} (h : SndQ c0 x Q) : SndQ c0 (x.mapErr st) Q := fun c hc => Tot.mapErr (h c hc)
theorem SndQ.weak {x : M Status Ctx α} {P Q : α → Prop} (h : SndQ c0 x P) (hq : ∀ a, P a → Q a) : SndQ c0 x Q := fun c hc => (h c hc).mono (fun _ _ h => ⟨h.1, hq _ h.2⟩) fun _ _ h => h

theorem snd_readMsg {x : Cc → Rd α} (hx : ∀ c, Same c0 c → (x c.cc).Good) (bytes : Bytes) (r : Reader) :
    SndQ c0 (readMsg x bytes r) (fun p => ∃ c r', Same c0 c ∧ x c.cc r = .ok p.1 r' ∧ p.2 = bytes.take r'.used) := by
  unfold readMsg
  refine SndQ.get fun c hc => SndQ.bind (SndQ.lift (safe_read (hx c hc) r)) fun p hp => SndQ.pure ?_
  obtain ⟨a, r'⟩ := p
  refine ⟨c, r', hc, ?_, rfl⟩
  unfold Res.read at hp
  cases h : x c.cc r with
  | ok a' r'' => rw [h] at hp; cases hp; rfl
  | err a' r'' => rw [h] at hp; cases hp
  | panic => rw [h] at hp; cases hp

theorem snd_encodeMsg {k : ReqRespCode} {p : Payload} {w : Ctx → Bytes} (hw : ∀ c, Same c0 c → Writes (p.encode c.cc) (w c)) :
    SndQ c0 (encodeMsgRsp k p) (fun b => ∃ c, Same c0 c ∧ b = c.neg.version.get :: k.get :: w c) := by
  unfold encodeMsgRsp
  intro c hc
  refine Tot.mapErr ((encodeRsp_tot (hw c hc)).mono ?_ fun _ _ _ => trivial)
  rintro b _ ⟨rfl, h, _⟩
  exact ⟨hc, _, hc, h⟩

section
variable {sid : UInt32} {s0 : Session} (h0 : c0.session? sid = some s0)
include h0

theorem snd_thOf (hh : HashLaw e) : SndQ c0 (thOf e sid) (fun h => h.length ≤ 64) := by
  unfold thOf
  refine SndQ.get fun c hc => ?_
  obtain ⟨s, hs, hcore⟩ := hc.session h0
  refine SndQ.bind (SndQ.unwrap (by rw [hs]; rfl)) fun s' _ => SndQ.mapErr (SndQ.weak (SndQ.lift ?_) fun h hx => ?_)
  · unfold Ctx.transcriptHash
    exact (safe_ofOption _ _).bind fun _ _ => safe_ofOption _ _
  · unfold Ctx.transcriptHash at hx
    simp only [Res.bind_ok, Res.ofOption_ok] at hx
    obtain ⟨x, _, hx⟩ := hx
    exact (Props.hash_pos (hh _ _ _ hx)).2

theorem snd_appendK (msg : Bytes) : SndS c0 (Ctx.appendK e sid msg) := by
  unfold Ctx.appendK
  refine SndS.get fun c hc => ?_
  intro c1 h1
  obtain ⟨s, hs, hcore⟩ := hc.session h0
  rw [hs]
  dsimp only
  have hu : ∀ x, Same c0 (c.updSession sid fun s => { s with th := x }) := fun x => hc.upd sid fun _ _ => ⟨rfl, rfl, rfl, rfl, rfl, rfl⟩
  cases s.th with
  | some x => exact tot_set (hu _)
  | none =>
    dsimp only
    cases Ctx.startTh e s with
    | none => exact tot_fail h1
    | some x => exact tot_set (hu _)

theorem snd_appendF (hm : s0.mutAuth = 0) (msg : Bytes) : SndS c0 (Ctx.appendF e false sid msg) := by
  unfold Ctx.appendF
  refine SndS.get fun c hc => ?_
  intro c1 h1
  obtain ⟨s, hs, hcore⟩ := hc.session h0
  rw [hs]
  dsimp only
  cases s.th with
  | none => exact tot_fail h1
  | some x =>
    dsimp only
    refine tot_ite (fun _ => tot_set (hc.upd sid fun _ _ => ⟨rfl, rfl, rfl, rfl, rfl, rfl⟩)) fun _ => ?_
    have : Ctx.mutDigest e false c s = .ok [] := by
      unfold Ctx.mutDigest
      rw [if_neg (fun h => h.2 (hcore.2.2.2.2.2.trans hm))]
      rfl
    rw [this]
    exact tot_set (hc.upd sid fun _ _ => ⟨rfl, rfl, rfl, rfl, rfl, rfl⟩)

theorem snd_addK (msg : Bytes) : SndQ c0 (addK e sid msg) (fun _ => True) := SndQ.mapErr (SndS.q (snd_appendK h0 msg))
theorem snd_addF (hm : s0.mutAuth = 0) (msg : Bytes) : SndQ c0 (addF e sid msg) (fun _ => True) := SndQ.mapErr (SndS.q (snd_appendF h0 hm msg))

theorem snd_onSessionQ {missing : M Status Ctx α} {x : M Status Session α} (hx : Keeps s0 x) {R : α → Prop}
    (hR : ∀ s a s', Core s0 s → x s = .ok a s' → R a) : SndQ c0 (Ctx.onSession sid missing x) R := by
  intro c hc
  have h := snd_onSession (missing := missing) h0 hx c hc
  unfold Tot at h ⊢
  obtain ⟨s, hs, hcore⟩ := hc.session h0
  cases hr : Ctx.onSession sid missing x c with
  | ok a c' =>
    rw [hr] at h
    obtain ⟨s', hx', _⟩ := onSession_ok hs hr
    exact ⟨h, hR s a s' hcore hx'⟩
  | err r c' => trivial
  | panic => rw [hr] at h; exact h

/-- `orTeardown` of something that keeps the skeleton. -/
theorem snd_orTeardown {x : M Status Ctx α} {Q : α → Prop} (hx : ∀ c, Same c0 c → x.Tot c (fun a c' => Same c0 c' ∧ Q a) (fun _ c' => Same c0 c')) :
    SndQ c0 (orTeardown sid x) Q := by
  intro c hc
  unfold orTeardown
  refine Tot.bind (P := fun r c' => Same c0 c' ∧ ∀ a, r = .ok a → Q a) (Tot.try' ((hx c hc).mono (fun _ _ h => ⟨h.1, fun _ h' => by cases h'; exact h.2⟩)
    fun _ _ h => ⟨h, fun _ h' => by cases h'⟩)) ?_
  rintro r c1 ⟨h1, h2⟩
  cases r with
  | ok a => exact tot_pure ⟨h1, h2 a rfl⟩
  | error st =>
    dsimp only
    obtain ⟨s, hs, hcore⟩ := h1.session h0
    refine Tot.bind (P := fun _ _ => True) (tot_true ?_) fun _ _ _ => tot_fail trivial
    unfold Ctx.onSession
    rw [M.bind_apply, M.get_apply]
    dsimp only
    rw [hs]
    dsimp only
    unfold Session.teardown
    rw [M.bind_apply, M.get_apply]
    dsimp only
    rw [if_pos (found_id hs)]
    exact fun h => by cases h

variable (hh : Honest e) (hz : Sized c0.neg) (hg : Good c0.neg s0)
include hh

theorem snd_keyExchangeSig : SndQ c0 (keyExchangeSig e sid) (fun sig => BaseAsym.size? c0.neg.baseAsym = some sig.length) := by
  unfold keyExchangeSig
  refine SndQ.bind (snd_thOf h0 hh.hash) fun h _ => SndQ.get fun c hc => SndQ.bind (SndQ.mapErr (SndQ.lift (safe_keyExchangeMsg _ _))) fun m _ => SndQ.weak (SndQ.ofOption _) fun sig hs => ?_
  have := hh.signs _ _ _ _ hs
  rwa [hc.asym] at this

include hg in
theorem snd_responseHmac : SndQ c0 (responseHmac e sid) (fun mac => BaseHash.size? c0.neg.baseHash = some mac.length) := by
  unfold responseHmac
  refine SndQ.bind (snd_thOf h0 hh.hash) fun h _ => SndQ.get fun c hc => ?_
  obtain ⟨s, hs, hcore⟩ := hc.session h0
  refine SndQ.bind (SndQ.unwrap (by rw [hs]; rfl)) fun s' hs' => ?_
  rw [hs] at hs'
  cases hs'
  refine SndQ.bind (P := fun mac => BaseHash.size? c0.neg.baseHash = some mac.length) (snd_orTeardown h0 fun c1 h1 => ?_) fun mac hm => ?_
  · unfold Session.hmacRsp
    refine (safe_ofOption _ _).lift (fun mac hx => ⟨h1, ?_⟩) fun _ => h1
    have := hh.macs _ _ _ _ (Res.ofOption_ok.1 hx)
    rwa [hcore.2.1, hg.hash] at this
  · exact SndQ.bind (snd_orTeardown h0 fun c1 h1 => (snd_appendK h0 mac c1 h1).mono (fun _ _ h => ⟨h, trivial⟩) fun _ _ h => h) fun _ _ => SndQ.pure hm

end

/-! ### KEY_EXCHANGE -/

theorem keyExRsp_writes {c : Cc} {m : KeyExRsp} (h4 : OptOk c.needSummary c.DigestOk m.summary) (h6 : c.SigOk m.signature) (h7 : c.DigestOk m.verify) :
    Writes (m.encode c) (m.wire c) := by
  have a1 := encDhe_writes m.exchange
  have a2 : Writes (encOpt c.needSummary (encDigest c m.summary)) (optWire c.needSummary m.summary) :=
    encOpt_writes fun hb => encDigest_writes (by simpa [OptOk, hb] using h4)
  have a3 := encOpaque_writes m.opaq
  have a4 := encSignature_writes h6
  have a5 : Writes (encOpt (!c.inClear) (encDigest c m.verify)) (optWire (!c.inClear) m.verify) := encOpt_writes fun _ => encDigest_writes h7
  unfold KeyExRsp.encode
  apply Writes.cast
  · wr
  simp [KeyExRsp.wire]

theorem Same.cc {c0 c : Ctx} (h : Same c0 c) : c.cc.hashSize? = c0.cc.hashSize? ∧ c.cc.asymSize? = c0.cc.asymSize? ∧ c.cc.inClear = c0.cc.inClear ∧ c.cc.needSummary = c0.cc.needSummary ∧
    c.cc.pskNoContext = c0.cc.pskNoContext := by
  obtain ⟨p, hp⟩ := h.neg
  unfold Cc.hashSize? Cc.asymSize? Cc.inClear Cc.pskNoContext Ctx.cc
  dsimp only
  rw [hp, h.summary]
  exact ⟨rfl, rfl, rfl, rfl, rfl⟩

theorem optOk_same {c0 c : Ctx} (h : Same c0 c) {s : Bytes} (hs : OptOk c0.cc.needSummary c0.cc.DigestOk s) : OptOk c.cc.needSummary c.cc.DigestOk s := by
  obtain ⟨h1, _, _, h4, _⟩ := h.cc
  unfold OptOk Cc.DigestOk at *
  rw [h1, h4]
  exact hs

theorem patchTail_length {n : Nat} {new b r : Bytes} (h : patchTail n new b = .ok r) : r.length = b.length := by
  unfold patchTail at h
  split at h
  · rename_i g
    cases h
    simp; omega
  · cases h

section
variable {sid : UInt32} {s0 : Session} (h0 : c0.session? sid = some s0) (hh : Honest e) (hz : Sized c0.neg) (hg : Good c0.neg s0)
include h0 hh hg

theorem snd_keyExchangePatch {inClear : Bool} {asym hs : Nat} {sig rsp : Bytes} (ha : sig.length = asym) (hhs : BaseHash.size? c0.neg.baseHash = some hs) (hl : inClear = false → asym + hs ≤ rsp.length) :
    SndQ c0 (keyExchangePatch e sid inClear asym hs sig rsp) (fun _ => True) := by
  unfold keyExchangePatch
  refine SndQ.ite (fun _ => SndQ.pure trivial) fun hc => ?_
  have hl := hl (by simpa using hc)
  refine SndQ.bind (snd_responseHmac h0 hh hg) fun mac hm => ?_
  have hm : mac.length = hs := by rw [hhs] at hm; cases hm; rfl
  refine SndQ.bind (SndQ.lift (safe_patchTail hl (by simp [ha]))) fun rsp' hr => ?_
  have := patchTail_length hr
  exact SndQ.weak (SndQ.lift (safe_patchTail (by omega) hm)) fun _ _ => trivial

include hz in
theorem snd_keyExchangeBody (m : KeyEx) (req : Bytes) (rspId : UInt16) (exchange sum opaq : Bytes) (hsum : OptOk c0.cc.needSummary c0.cc.DigestOk sum) :
    SndQ c0 (keyExchangeBody e m req sid rspId exchange sum opaq) (fun _ => True) := by
  unfold keyExchangeBody
  refine SndQ.bind (SndQ.ofOption _) fun random _ => SndQ.get fun c hc => ?_
  obtain ⟨z1, z2, _⟩ := Sized.cc hz hc.toLoose
  refine SndQ.bind (SndQ.unwrap z2) fun asym ha => SndQ.bind (SndQ.unwrap z1) fun hs hhs => ?_
  have hw : ∀ c', Same c0 c' → Writes (Payload.encode c'.cc (.keyExRsp ⟨c.config.heartbeat, rspId, e.mutAuth, 0, random, exchange, sum, opaq, List.replicate asym 0xbb, List.replicate hs 0xcc⟩))
      (KeyExRsp.wire c'.cc ⟨c.config.heartbeat, rspId, e.mutAuth, 0, random, exchange, sum, opaq, List.replicate asym 0xbb, List.replicate hs 0xcc⟩) := fun c' h' =>
    keyExRsp_writes (optOk_same h' hsum) (by unfold Cc.SigOk; rw [h'.cc.2.1, ← hc.cc.2.1, ha]; simp) (by unfold Cc.DigestOk; rw [h'.cc.1, ← hc.cc.1, hhs]; simp)
  refine SndQ.bind (snd_encodeMsg hw) fun rsp hrsp => ?_
  obtain ⟨c', hc', rfl⟩ := hrsp
  have hcl : c'.cc.inClear = c.cc.inClear := hc'.cc.2.2.1.trans hc.cc.2.2.1.symm
  have hlen : (if c.cc.inClear = true then asym else asym + hs) ≤ (c'.neg.version.get :: ReqRespCode.rspKeyExchangeRsp.get :: KeyExRsp.wire c'.cc
      ⟨c.config.heartbeat, rspId, e.mutAuth, 0, random, exchange, sum, opaq, List.replicate asym 0xbb, List.replicate hs 0xcc⟩).length := by
    simp only [KeyExRsp.wire, hcl, List.length_cons, List.length_append, List.length_replicate]
    cases c.cc.inClear <;> simp [optWire] <;> omega
  generalize (c'.neg.version.get :: ReqRespCode.rspKeyExchangeRsp.get :: KeyExRsp.wire c'.cc
      ⟨c.config.heartbeat, rspId, e.mutAuth, 0, random, exchange, sum, opaq, List.replicate asym 0xbb, List.replicate hs 0xcc⟩) = rsp at hlen ⊢
  have ha0 : BaseAsym.size? c0.neg.baseAsym = some asym := by rw [← hc.asym]; exact ha
  have hh0 : BaseHash.size? c0.neg.baseHash = some hs := by rw [← hc.hash]; exact hhs
  refine SndQ.bind (SndQ.lift (safe_dropTail hlen)) fun body _ => SndQ.bind (snd_addK h0 _) fun _ _ => SndQ.bind (snd_addK h0 _) fun _ _ =>
    SndQ.bind (snd_keyExchangeSig h0 hh) fun sig hsig => SndQ.bind (snd_addK h0 _) fun _ _ => SndQ.bind (snd_thOf h0 hh.hash) fun th1 _ =>
    SndQ.bind (SndS.q (snd_onSession h0 (keeps_genHandshake e.crypto _ hg.armed th1))) fun _ _ => ?_
  have hsl : sig.length = asym := by rw [ha0] at hsig; cases hsig; rfl
  refine SndQ.bind (snd_keyExchangePatch h0 hh hg hsl hh0 fun h => ?_) fun rsp' _ => SndQ.bind (SndS.q (snd_onSession h0 (keeps_modify fun s => ?_))) fun _ _ => SndQ.bind (P := fun _ => True) ?_ fun _ _ => SndQ.pure trivial
  · simpa [h] using hlen
  · unfold pickSecureVersion
    split <;> exact ⟨rfl, rfl, rfl, rfl, rfl, rfl⟩
  · unfold rememberSession
    exact SndQ.ite (fun _ => SndQ.modify fun c => (Same.refl c).of rfl rfl rfl rfl) fun _ => SndQ.pure trivial

end

/-! ### opening a session -/

theorem tot_ofOption_bind {ε σ : Type} {r : ε} {o : Option α} {f : α → M ε σ β} {s : σ} {Q : β → σ → Prop} {E : ε → σ → Prop} (h : ∀ a, o = some a → (f a).Tot s Q E) (hn : E r s) :
    (M.ofOption r o >>= f : M ε σ β).Tot s Q E := Tot.bind (P := fun a t => t = s ∧ o = some a) (tot_ofOption (fun _ ha => ⟨rfl, ha⟩) fun _ => hn) (by rintro a _ ⟨rfl, ha⟩; exact h a ha)
theorem tot_lift_bind {σ : Type} {x : Res α} {f : α → M Status σ β} {s : σ} {Q : β → σ → Prop} {E : Status → σ → Prop} (hx : Safe x) (h : ∀ a, x = .ok a → (f a).Tot s Q E) (hn : ∀ r, E r s) :
    (x.lift >>= f : M Status σ β).Tot s Q E := Tot.bind (P := fun a t => t = s ∧ x = .ok a) (hx.lift (fun _ ha => ⟨rfl, ha⟩) hn) (by rintro a _ ⟨rfl, ha⟩; exact h a ha)

theorem tot_exchangeStart (bytes : Bytes) (c : Ctx) : (exchangeStart bytes).Tot c (fun _ c' => c' = c ∧ ¬ c.rt.state.code < ConnState.negotiated.code) (fun _ _ => True) := by
  unfold exchangeStart
  refine tot_get_bind (tot_ite (fun _ => tot_fail trivial) fun h => tot_lift_bind (safe_read Header.read_good _) (fun p _ => ?_) fun _ => trivial)
  exact tot_ite (fun _ => tot_fail trivial) fun _ => tot_ite (fun _ => tot_fail trivial) fun _ => tot_pure ⟨rfl, h⟩

theorem tot_readMsg {x : Cc → Rd α} {c : Ctx} (hx : (x c.cc).Good) (bytes : Bytes) (r : Reader) : (readMsg x bytes r).Tot c (fun _ c' => c' = c) (fun _ _ => True) := by
  unfold readMsg
  exact tot_get_bind (tot_lift_bind (safe_read hx _) (fun p _ => tot_pure rfl) fun _ => trivial)

theorem tot_summary (hh : Honest e) {ε : Type} (t : SummaryHashType) (c : Ctx) : (summaryHash e t : M ε Ctx (Option Bytes)).Tot c
    (fun o c' => (c'.neg = c.neg ∧ c'.sessions = c.sessions) ∧ ∀ s, o = some s → OptOk c'.cc.needSummary c'.cc.DigestOk s) (fun _ _ => False) := by
  unfold summaryHash
  refine tot_ite (fun _ => ?_) fun _ => ?_
  · refine tot_modify_bind (tot_get_bind ?_)
    dsimp only
    cases hs : e.summary c.neg.version c.neg.baseHash c.neg.measSpec c.neg.measHash t with
    | none => exact tot_pure ⟨⟨rfl, rfl⟩, fun s h => by cases h⟩
    | some d =>
      refine tot_ite (fun _ => tot_pure ⟨⟨rfl, rfl⟩, fun s h => by cases h⟩) fun _ => tot_pure ⟨⟨rfl, rfl⟩, fun s h => ?_⟩
      cases h
      exact hh.summary _ _ _ _ _ _ hs
  · refine tot_modify_bind (tot_pure ⟨⟨rfl, rfl⟩, fun s h => ?_⟩)
    cases h
    rfl

theorem reset_none (k : ReqRespCode) (c : Ctx) : (Ctx.resetBuffers k none c).neg = c.neg ∧ (Ctx.resetBuffers k none c).sessions = c.sessions := by
  unfold Ctx.resetBuffers
  have h1 : (if k ≠ .reqGetMeasurements then Ctx.resetM none c else c).neg = c.neg ∧ (if k ≠ .reqGetMeasurements then Ctx.resetM none c else c).sessions = c.sessions := by
    split <;> exact ⟨rfl, rfl⟩
  dsimp only
  generalize (if k ≠ .reqGetMeasurements then Ctx.resetM none c else c) = c1 at h1 ⊢
  have h3 : (if c1.rt.state.code < 5 then c1.resetM1M2 else c1).neg = c.neg ∧ (if c1.rt.state.code < 5 then c1.resetM1M2 else c1).sessions = c.sessions := by
    split <;> exact h1
  split <;> first | exact h3 | exact h1

/-- slots opened by a handler: free, so there the id is zero; afterwards the new session is found and fits the negotiation. -/
theorem tot_open {c : Ctx} (ht : TableOk 0 c.sessions) (hl : c.sessions.length < 0xFFFD) {r req : UInt16} (hn : Ctx.nextHalf false 0 c.sessions = some r) {x : M Status Session Unit}
    (hx : ∀ s, s.id = 0 → x s ≠ .panic) (hg : ∀ s s', x s = .ok () s' → s'.id = joinId r req ∧ Good c.neg s') :
    (Ctx.onSession 0 (M.fail .invalidStateLocal) x).Tot c (fun _ c' => c'.neg = c.neg ∧ c'.rt = c.rt ∧ ∃ s, c'.session? (joinId r req) = some s ∧ Good c'.neg s) (fun _ _ => True) := by
  unfold Ctx.onSession
  refine tot_get_bind ?_
  cases hs : c.session? 0 with
  | none => exact tot_fail trivial
  | some s =>
    dsimp only
    have hid := found_id hs
    cases hr : x s with
    | panic => exact absurd hr (hx s hid)
    | err st s' => exact trivial
    | ok a s' =>
      obtain ⟨h1, h2⟩ := hg s s' hr
      exact ⟨rfl, rfl, s', session?_opened ht hl hn h1, h2⟩

theorem openDhe_calm {c : Ctx} (hz : Sized c.neg) (sid : UInt32) (slot : UInt8) (certHash final : Bytes) {s : Session} (hs : s.id = 0) : openDhe e c sid slot certHash final s ≠ .panic := by
  refine Tot.ne (Q := fun _ _ => True) (E := fun _ _ => True) ?_
  unfold openDhe
  refine Tot.bind (P := fun _ t => t = { s.setDefault with id := sid }) ?_ ?_
  · unfold Session.setup
    refine tot_get_bind ?_
    rw [if_pos hs]
    exact tot_set rfl
  · rintro _ _ rfl
    refine tot_modify_bind ?_
    generalize hs1 : dheSession e c slot { s.setDefault with id := sid } = s1
    have hh : (BaseHash.size? s1.hash).isSome = true := by rw [← hs1]; exact hz.hash
    have hid : s1.id = sid := by rw [← hs1]; rfl
    refine Tot.bind (P := fun _ t => Core s1 t) (Tot.try' ((keeps_setDhe e.crypto c.neg.version hh final s1 (Core.refl s1)).mono (fun _ _ h => h) fun _ _ h => h)) fun r t ht => ?_
    cases r with
    | ok _ => exact tot_modify trivial
    | error _ =>
      dsimp only
      refine Tot.bind (P := fun _ _ => True) ?_ fun _ _ _ => tot_fail trivial
      unfold Session.teardown
      refine tot_get_bind ?_
      rw [if_pos (ht.1.trans hid)]
      exact tot_set trivial

theorem Sized.policy {n : Neg} (h : Sized n) (p : Bool) : Sized { n with terminationPolicy := p } := ⟨h.hash, h.asym, h.dhe, h.aead⟩

theorem tot_keyExchangeRsp (hh : Honest e) (hm : e.asksMutual = false) {c : Ctx} (ht : TableOk 0 c.sessions) (hl : c.sessions.length < 0xFFFD)
    (hz : c.rt.state.code < ConnState.negotiated.code ∨ Sized c.neg) (bytes : Bytes) :
    (keyExchangeRsp e bytes).Tot c (fun _ c' => ∃ p, c'.neg = { c.neg with terminationPolicy := p }) (fun _ _ => True) := by
  unfold keyExchangeRsp
  refine Tot.bind (tot_exchangeStart bytes c) ?_
  rintro r c' ⟨hc', hst⟩
  rw [hc']
  have hz := hz.resolve_left hst
  refine tot_modify_bind ?_
  obtain ⟨n1, n2⟩ := reset_none .reqKeyExchange c
  generalize Ctx.resetBuffers .reqKeyExchange none c = c1 at n1 n2 ⊢
  have hd : (c1.cc.dheSize?).isSome = true := by unfold Cc.dheSize? Ctx.cc; dsimp only; rw [n1]; exact hz.dhe
  refine Tot.bind (tot_readMsg (KeyEx.read_good hd) bytes r) ?_
  rintro ⟨m, req⟩ c' hc'
  rw [hc']
  dsimp only
  refine Tot.bind ((tot_summary hh m.summary c1).mono (fun _ _ h => h) fun _ _ h => h.elim) ?_
  rintro o c2 ⟨⟨g1, g2⟩, hsum⟩
  refine tot_ofOption_bind (fun sum hs => ?_) trivial
  have hsum := hsum sum hs
  refine tot_modify_bind (tot_get_bind ?_)
  have e1 : c2.neg = c.neg := g1.trans n1
  have e2 : c2.sessions = c.sessions := g2.trans n2
  refine tot_lift_bind (Props.C42_never_panics _ _ _) (fun opaq _ => ?_) fun _ => trivial
  refine tot_ofOption_bind (fun _ _ => tot_modify_bind ?_) trivial
  dsimp only
  refine tot_unwrap_bind (Option.some_get (hh.groups _ (by rw [e1]; exact hz.dhe))).symm ?_
  generalize (e.dheGen c2.neg.dhe).get _ = q
  obtain ⟨exchange, fin⟩ := q
  dsimp only
  refine tot_ofOption_bind (fun final _ => ?_) trivial
  refine Tot.bind (P := fun a t => t = _ ∧ Ctx.nextHalf false 0 c2.sessions = some a) (Tot.mapErr ((safe_ofOption _ _).lift (fun a ha => ⟨rfl, Res.ofOption_ok.1 ha⟩) fun _ => trivial)) ?_
  rintro rspId _ ⟨rfl, hn⟩
  refine tot_ofOption_bind (fun certHash _ => ?_) trivial
  have hz2 : Sized { c2.neg with terminationPolicy := m.policy &&& 1 == 1 } := Sized.policy (by rw [e1]; exact hz) _
  refine Tot.bind (tot_open (r := rspId) (req := m.reqSession) ?_ ?_ ?_ ?_ ?_) ?_
  · show TableOk 0 c2.sessions
    rw [e2]; exact ht
  · show c2.sessions.length < 0xFFFD
    rw [e2]; exact hl
  · exact hn
  · exact fun s hs => openDhe_calm hz2 _ _ _ _ hs
  · intro s s' hs'
    obtain ⟨root, master, _, _, rfl⟩ := openDhe_ok hs'
    refine ⟨rfl, ?_, rfl, ?_, fun h => by cases h⟩
    · show e.mutAuth = 0
      unfold Env.mutAuth
      rw [hm]; rfl
    · show KeySched.Single c2.neg.baseHash c2.neg.aead
      rw [e1]; exact hz.aead
  · rintro _ c3 ⟨f1, f2, s, hs, hg⟩
    dsimp only at f1 f2
    have hz3 : Sized c3.neg := by rw [f1]; exact hz2
    have hsum3 : OptOk c3.cc.needSummary c3.cc.DigestOk sum := by
      unfold OptOk Cc.DigestOk Cc.hashSize? Ctx.cc at *
      dsimp only at *
      rw [f1, f2]
      exact hsum
    refine (snd_keyExchangeBody hs hh hz3 hg m req rspId exchange sum opaq hsum3 c3 (Same.refl c3)).mono (fun _ c4 h4 => ?_) fun _ _ h => h
    obtain ⟨p, hp⟩ := h4.1.neg
    exact ⟨p, by rw [hp, f1, e1]⟩


/-! ### PSK_EXCHANGE -/

/-- the key schedule of the platform: HKDF-Expand works for keys of the hash size, and a provider that knows a PSK for the handshake keys derives the data keys from it too. -/
structure KeyLaws (c : Crypto) : Prop where
  expand : Props.ExpandLaw c
  psk : ∀ v h hint i o, c.pskHandshake v h hint i = some o → ∀ i', ∃ o', c.pskMaster v h hint i' = some o' ∧ BaseHash.size? h = some o'.length

theorem direction_some {c : Crypto} {v : SpdmVersion} {h : BaseHash} {hint : Bytes} (hh : (BaseHash.size? h).isSome = true)
    (hp : ∀ i', ∃ o', c.pskMaster v h hint i' = some o' ∧ BaseHash.size? h = some o'.length) (key l : Bytes) (th : Option Bytes) (hl : l.length + (th.getD []).length ≤ 76) :
    ∃ o, KeySched.directionSecret c v h true key (some hint) c.pskMaster l th = .ok o ∧ BaseHash.size? h = some o.length := by
  obtain ⟨n, hn⟩ := Option.isSome_iff_exists.1 hh
  obtain ⟨o, h1, h2⟩ := hp (KeySched.infoBytes (UInt16.ofNat n) v l th)
  refine ⟨o, ?_, h2⟩
  unfold KeySched.directionSecret KeySched.hashLen
  simp only [Res.bind_ok, Res.unwrap_ok, if_true]
  have := Props.hash_pos h2
  exact ⟨n, hn, _, KeySched.binconcat_ok.2 ⟨hl, rfl⟩, hint, rfl, o, Res.ofOption_ok.2 h1, KeySched.sized_ok.2 ⟨this.1, this.2, rfl⟩⟩

theorem keyIv_some {c : Crypto} (hx : Props.ExpandLaw c) (v : SpdmVersion) {h : BaseHash} {a : Aead} (hs : KeySched.Single h a) {o : Bytes} (ho : BaseHash.size? h = some o.length) :
    ∃ k, KeySched.aeadKeyIv c v h a o = .ok k := by
  obtain ⟨ks, ha⟩ := Option.isSome_iff_exists.1 hs.key
  obtain ⟨is, hi⟩ := Option.isSome_iff_exists.1 hs.iv
  obtain ⟨k, q1, _⟩ := Props.expandSecret_some hx (h := h) (key := o) (n := 32) (info := KeySched.infoBytes (UInt16.ofNat ks) v KeySched.lKey none) (max := 32) ho (by decide) (by decide) (by decide)
  obtain ⟨iv, q2, _⟩ := Props.expandSecret_some hx (h := h) (key := o) (n := 12) (info := KeySched.infoBytes (UInt16.ofNat is) v KeySched.lIv none) (max := 12) ho (by decide) (by decide) (by decide)
  refine ⟨(k, iv), ?_⟩
  unfold KeySched.aeadKeyIv
  simp only [Res.bind_ok, Res.unwrap_ok]
  exact ⟨ks, ha, _, KeySched.binconcat_ok.2 ⟨by decide, rfl⟩, k, q1, is, hi, _, KeySched.binconcat_ok.2 ⟨by decide, rfl⟩, iv, q2, rfl⟩

theorem genData_some {c : Crypto} (hx : Props.ExpandLaw c) {v : SpdmVersion} {s : Session} (ha : Armed s) (hp : s.usePsk = true) {hint : Bytes} (hi : s.pskHint = some hint)
    (hm : ∀ i', ∃ o', c.pskMaster v s.hash hint i' = some o' ∧ BaseHash.size? s.hash = some o'.length) {th : Bytes} (hth : th.length ≤ 64) :
    ∃ s', genData c v th s = .ok () s' := by
  have hh := ha.algs.hash
  obtain ⟨a, a1, a2⟩ := direction_some hh hm s.master KeySched.lReqApp (some th) (by
    have : KeySched.lReqApp.length = 12 := by decide
    simp only [Option.getD_some]; omega)
  obtain ⟨b, b1, b2⟩ := direction_some hh hm s.master KeySched.lRspApp (some th) (by
    have : KeySched.lRspApp.length = 12 := by decide
    simp only [Option.getD_some]; omega)
  obtain ⟨x, x1, x2⟩ := direction_some hh hm s.master KeySched.lExpMaster none (by decide)
  obtain ⟨ka, hka⟩ := keyIv_some hx v ha.algs a2
  obtain ⟨kb, hkb⟩ := keyIv_some hx v ha.algs b2
  refine ⟨_, genData_ok.2 ⟨a, b, ka, kb, x, ?_, ?_, hka, hkb, ?_, rfl⟩⟩
  · unfold KeySched.reqData; rw [hp, hi]; exact a1
  · unfold KeySched.rspData; rw [hp, hi]; exact b1
  · unfold KeySched.exportMaster; rw [hp, hi]; exact x1

theorem pskExRsp_writes {c : Cc} {m : PskExRsp} (h1 : OptOk c.needSummary c.DigestOk m.summary) (h5 : c.DigestOk m.verify) : Writes (m.encode c)
    ([m.heartbeat] ++ [0] ++ putU16 m.rspSession ++ putU16 0 ++ putU16 (if c.pskNoContext = true then 0 else m.context.length.toUInt16) ++ putU16 m.opaq.length.toUInt16 ++
      optWire c.needSummary m.summary ++ optWire (!c.pskNoContext) m.context ++ m.opaq ++ m.verify) := by
  have a1 : Writes (encOpt c.needSummary (encDigest c m.summary)) (optWire c.needSummary m.summary) :=
    encOpt_writes fun hb => encDigest_writes (by simpa [OptOk, hb] using h1)
  have a2 : Writes (encOpt (!c.pskNoContext) (encBytes m.context)) (optWire (!c.pskNoContext) m.context) := encOpt_writes fun hb => Writes.bytes _
  have a3 := encDigest_writes h5
  unfold PskExRsp.encode
  apply Writes.cast
  · wr
  simp

section
variable {sid : UInt32} {s0 : Session} (h0 : c0.session? sid = some s0) (hh : Honest e) (hz : Sized c0.neg) (hg : Good c0.neg s0)
include h0 hh hg

theorem snd_pskEstablish (hk : Props.ExpandLaw e.crypto) (hp : s0.usePsk = true) {hint : Bytes} (hi : s0.pskHint = some hint)
    (hm : ∀ i', ∃ o', e.crypto.pskMaster c0.neg.version s0.hash hint i' = some o' ∧ BaseHash.size? s0.hash = some o'.length) (noContext : Bool) :
    SndQ c0 (pskEstablish e noContext sid) (fun _ => True) := by
  unfold pskEstablish
  refine SndQ.ite (fun _ => SndQ.pure trivial) fun _ => SndQ.bind (snd_thOf h0 hh.hash) fun th2 hth => SndQ.get fun c hc => ?_
  obtain ⟨s, hs, hcore⟩ := hc.session h0
  refine SndQ.bind (SndQ.unwrap (by rw [hs]; rfl)) fun s' hs' => ?_
  rw [hs] at hs'
  cases hs'
  obtain ⟨c1, c2, c3, c4, c5, c6⟩ := hcore
  obtain ⟨t, ht⟩ := genData_some hk (v := c.neg.version) (s := s) (hg.armed.core ⟨c1, c2, c3, c4, c5, c6⟩) (c4.trans hp) (c5.trans hi) (by rw [hc.version, c2]; exact hm) hth
  rw [ht]
  intro c' _
  refine tot_set ⟨hc.upd sid fun s' hs' => ?_, trivial⟩
  rw [hs] at hs'; cases hs'
  have := keeps_genData e.crypto c.neg.version (hg.armed.core ⟨c1, c2, c3, c4, c5, c6⟩) th2 s (Core.refl s)
  have := this.of_ok ht
  exact ⟨this.1, this.2.1, this.2.2.1, this.2.2.2.1, this.2.2.2.2.1, this.2.2.2.2.2⟩

include hz in
theorem snd_pskExchangeBody (hk : KeyLaws e.crypto) (hp : s0.usePsk = true) (req : Bytes) (rspId : UInt16) (context sum opaq : Bytes) (hsum : OptOk c0.cc.needSummary c0.cc.DigestOk sum) :
    SndQ c0 (pskExchangeBody e req sid rspId context sum opaq) (fun _ => True) := by
  unfold pskExchangeBody
  refine SndQ.get fun c hc => ?_
  obtain ⟨z1, z2, _⟩ := Sized.cc hz hc.toLoose
  refine SndQ.bind (SndQ.unwrap z1) fun hs hhs => ?_
  refine SndQ.bind (snd_encodeMsg (p := .pskExRsp _) fun c' h' => pskExRsp_writes (optOk_same h' hsum) (by unfold Cc.DigestOk; rw [h'.cc.1, ← hc.cc.1, hhs]; simp)) fun rsp hrsp => ?_
  have hlen : hs ≤ rsp.length := by
    obtain ⟨c', _, rfl⟩ := hrsp
    simp only [List.length_cons, List.length_append, List.length_replicate]
    omega
  clear hrsp
  have hh0 : BaseHash.size? c0.neg.baseHash = some hs := by rw [← hc.hash]; exact hhs
  obtain ⟨hint, hi⟩ := Option.isSome_iff_exists.1 (hg.armed.hint hp)
  refine SndQ.bind (SndQ.lift (safe_dropTail hlen)) fun body _ => SndQ.bind (snd_addK h0 _) fun _ _ => SndQ.bind (snd_addK h0 _) fun _ _ => SndQ.bind (snd_thOf h0 hh.hash) fun th1 _ =>
    SndQ.bind (snd_onSessionQ (R := fun _ => ∃ i o, e.crypto.pskHandshake c0.neg.version s0.hash hint i = some o) h0 (keeps_genHandshake e.crypto _ hg.armed th1) ?_) fun _ hhs => ?_
  · intro s _ s' hcore hx
    obtain ⟨a, _, _, _, _, _, h1, _⟩ := genHandshake_ok.1 hx
    unfold KeySched.reqHandshake KeySched.directionSecret at h1
    rw [hcore.2.2.2.1, hp, hcore.2.2.2.2.1, hi, hcore.2.1, hc.version] at h1
    simp only [Res.bind_ok, Res.unwrap_ok, if_true, Res.ofOption_ok] at h1
    obtain ⟨_, _, i, _, _, hx, o, h1, _⟩ := h1
    cases hx
    exact ⟨i, o, h1⟩
  obtain ⟨i, o, ho⟩ := hhs
  refine SndQ.bind (snd_responseHmac h0 hh hg) fun mac hm => ?_
  have hm : mac.length = hs := by rw [hh0] at hm; cases hm; rfl
  refine SndQ.bind (SndQ.lift (safe_patchTail hlen hm)) fun rsp' _ => SndQ.bind (SndS.q (snd_onSession h0 (keeps_modify fun s => ⟨rfl, rfl, rfl, rfl, rfl, rfl⟩))) fun _ _ =>
    SndQ.bind (snd_pskEstablish h0 hh hg hk.expand hp hi (hk.psk _ _ _ _ _ ho) _) fun _ _ => SndQ.bind (SndS.q (snd_onSession h0 (keeps_modify fun s => ?_))) fun _ _ => SndQ.pure trivial
  unfold pickSecureVersion
  split <;> exact ⟨rfl, rfl, rfl, rfl, rfl, rfl⟩
end

theorem openPsk_calm {c : Ctx} (sid : UInt32) (hint : Bytes) {s : Session} (hs : s.id = 0) : openPsk e c sid hint s ≠ .panic := by
  unfold openPsk Session.setup
  simp only [M.bind_apply, M.get_apply]
  rw [if_pos hs]
  exact fun h => by cases h

theorem tot_pskExchangeRsp (hh : Honest e) (hk : KeyLaws e.crypto) {c : Ctx} (ht : TableOk 0 c.sessions) (hl : c.sessions.length < 0xFFFD)
    (hz : c.rt.state.code < ConnState.negotiated.code ∨ Sized c.neg) (bytes : Bytes) :
    (pskExchangeRsp e bytes).Tot c (fun _ c' => ∃ p, c'.neg = { c.neg with terminationPolicy := p }) (fun _ _ => True) := by
  unfold pskExchangeRsp
  refine Tot.bind (tot_exchangeStart bytes c) ?_
  rintro r c' ⟨hc', hst⟩
  rw [hc']
  have hz := hz.resolve_left hst
  refine tot_modify_bind ?_
  obtain ⟨n1, n2⟩ := reset_none .reqPskExchange c
  generalize Ctx.resetBuffers .reqPskExchange none c = c1 at n1 n2 ⊢
  refine Tot.bind (tot_readMsg (PskEx.read_good c1.cc) bytes r) ?_
  rintro ⟨m, req⟩ c' hc'
  rw [hc']
  dsimp only
  refine Tot.bind ((tot_summary hh m.summary c1).mono (fun _ _ h => h) fun _ _ h => h.elim) ?_
  rintro o c2 ⟨⟨g1, g2⟩, hsum⟩
  refine tot_ofOption_bind (fun sum hs => ?_) trivial
  have hsum := hsum sum hs
  refine tot_get_bind ?_
  have e1 : c2.neg = c.neg := g1.trans n1
  have e2 : c2.sessions = c.sessions := g2.trans n2
  refine tot_lift_bind (Props.C42_never_panics _ _ _) (fun opaq _ => ?_) fun _ => trivial
  refine Tot.bind (P := fun _ t => t = c2) ?_ ?_
  · unfold pskContext
    exact tot_ite (fun _ => tot_ofOption_bind (fun _ _ => tot_pure rfl) trivial) fun _ => tot_pure rfl
  rintro context c' hc'
  rw [hc']
  refine Tot.bind (P := fun a t => t = c2 ∧ Ctx.nextHalf false 0 c2.sessions = some a) (Tot.mapErr ((safe_ofOption _ _).lift (fun a ha => ⟨rfl, Res.ofOption_ok.1 ha⟩) fun _ => trivial)) ?_
  rintro rspId c' ⟨hc', hn⟩
  rw [hc']
  have hz2 : Sized c2.neg := by rw [e1]; exact hz
  have step : (Ctx.onSession 0 (M.fail .invalidStateLocal) (openPsk e c2 (joinId rspId m.reqSession) m.hint)).Tot c2
      (fun _ c' => (c'.neg = c2.neg ∧ c'.rt = c2.rt) ∧ ∃ s, c'.session? (joinId rspId m.reqSession) = some s ∧ Good c'.neg s ∧ s.usePsk = true) (fun _ _ => True) := by
    unfold Ctx.onSession
    refine tot_get_bind ?_
    cases hs : c2.session? 0 with
    | none => exact tot_fail trivial
    | some s =>
      dsimp only
      cases hr : openPsk e c2 (joinId rspId m.reqSession) m.hint s with
      | panic => exact absurd hr (openPsk_calm _ _ (found_id hs))
      | err st s' => exact trivial
      | ok a s' =>
        have h1 := openPsk_ok hr
        refine ⟨⟨rfl, rfl⟩, s', session?_opened (by rw [e2]; exact ht) (by rw [e2]; exact hl) hn (by rw [h1]; rfl), ?_, by rw [h1]; rfl⟩
        rw [h1]
        exact ⟨rfl, rfl, hz2.aead, fun _ => rfl⟩
  refine Tot.bind step ?_
  rintro _ c3 ⟨⟨f1, f2⟩, s, hs, hg, hp⟩
  have hsum3 : OptOk c3.cc.needSummary c3.cc.DigestOk sum := by
    unfold OptOk Cc.DigestOk Cc.hashSize? Ctx.cc at *
    dsimp only at *
    rw [f1, f2]
    exact hsum
  refine (snd_pskExchangeBody hs hh (by rw [f1]; exact hz2) hg hk hp req rspId context sum opaq hsum3 c3 (Same.refl c3)).mono (fun _ c4 h4 => ?_) fun _ _ h => h
  obtain ⟨p, hp⟩ := h4.1.neg
  exact ⟨p, by rw [hp, f1, e1]⟩

/-! ### FINISH and PSK_FINISH -/

theorem finishRsp_writes {c : Cc} {v : Bytes} (h : c.DigestOk v) : Writes (encFinishRsp c v) ([0] ++ [0] ++ optWire c.inClear v) := by
  have a1 : Writes (encOpt c.inClear (encDigest c v)) (optWire c.inClear v) := encOpt_writes fun _ => encDigest_writes h
  unfold encFinishRsp
  apply Writes.cast
  · wr
  simp

theorem snd_finishStart (bytes : Bytes) : SndQ c0 (finishStart bytes) (fun r => ∃ h : Header, (Reader.init bytes).After h.wire r) := by
  unfold finishStart
  refine SndQ.bind (SndQ.lift (safe_read Header.read_good _)) fun p hp => SndQ.get fun c hc => ?_
  obtain ⟨h, r⟩ := p
  refine SndQ.ite (fun _ => SndQ.fail) fun _ => SndQ.pure ⟨h, ?_⟩
  unfold Res.read at hp
  cases hx : Header.read (Reader.init bytes) with
  | ok a' r'' => rw [hx] at hp; cases hp; exact (Header.read_ok.1 hx).2
  | err a' r'' => rw [hx] at hp; cases hp
  | panic => rw [hx] at hp; cases hp

section
variable {sid : UInt32} {s0 : Session} (h0 : c0.session? sid = some s0) (hh : Honest e) (hz : Sized c0.neg) (hg : Good c0.neg s0)
include h0 hg

theorem snd_finishMutAuth (m : Finish) : SndQ c0 (finishMutAuth e sid m) (fun _ => True) := by
  unfold finishMutAuth
  refine SndQ.get fun c hc => ?_
  obtain ⟨s, hs, hcore⟩ := hc.session h0
  refine SndQ.bind (SndQ.unwrap (by rw [hs]; rfl)) fun s' hs' => ?_
  rw [hs] at hs'
  cases hs'
  refine SndQ.ite (fun _ => SndQ.fail) fun _ => SndQ.ite (fun h => absurd (hcore.2.2.2.2.2.trans hg.alone) h) fun _ => SndQ.pure trivial

include hh

theorem snd_checkHmac (mac : Bytes) : SndQ c0 (checkHmac e sid mac) (fun _ => True) := by
  unfold checkHmac
  refine SndQ.bind (snd_thOf h0 hh.hash) fun h _ => SndQ.get fun c hc => ?_
  obtain ⟨s, hs, hcore⟩ := hc.session h0
  refine SndQ.bind (SndQ.unwrap (by rw [hs]; rfl)) fun s' hs' => ?_
  exact SndQ.ite (fun _ => snd_addF h0 hg.alone _) fun _ => SndQ.fail

theorem snd_deriveData : SndQ c0 (deriveData e sid) (fun _ => True) := by
  unfold deriveData
  exact SndQ.bind (snd_thOf h0 hh.hash) fun th2 _ => SndQ.get fun c hc => SndS.q (snd_onSession h0 (keeps_genData e.crypto _ hg.armed th2))

include hz

theorem snd_finishAnswer : SndQ c0 (finishAnswer e sid) (fun _ => True) := by
  unfold finishAnswer
  refine SndQ.get fun c hc => ?_
  obtain ⟨z1, z2, _⟩ := Sized.cc hz hc.toLoose
  refine SndQ.bind (SndQ.unwrap z1) fun hs hhs => ?_
  refine SndQ.bind (snd_encodeMsg (p := .finishRsp _) fun c' h' => finishRsp_writes (by unfold Cc.DigestOk; rw [h'.cc.1, ← hc.cc.1, hhs]; simp)) fun rsp hrsp => ?_
  refine SndQ.ite (fun hcl => ?_) fun _ => SndQ.bind (snd_addF h0 hg.alone _) fun _ _ => SndQ.pure trivial
  have hlen : hs ≤ rsp.length := by
    obtain ⟨c', hc', rfl⟩ := hrsp
    have : c'.cc.inClear = true := (hc'.cc.2.2.1.trans hc.cc.2.2.1.symm).trans hcl
    simp only [this, optWire, if_true, List.length_cons, List.length_append, List.length_replicate]
    omega
  have hh0 : BaseHash.size? c0.neg.baseHash = some hs := by rw [← hc.hash]; exact hhs
  refine SndQ.bind (SndQ.lift (safe_dropTail hlen)) fun body _ => SndQ.bind (snd_addF h0 hg.alone _) fun _ _ => SndQ.bind (snd_thOf h0 hh.hash) fun h _ => SndQ.get fun c1 hc1 => ?_
  obtain ⟨s, hs', hcore⟩ := hc1.session h0
  refine SndQ.bind (SndQ.unwrap (by rw [hs']; rfl)) fun s' hs'' => ?_
  rw [hs'] at hs''
  cases hs''
  refine SndQ.bind (SndQ.mapErr (SndQ.lift (safe_ofOption _ _))) fun mac hm => SndQ.bind (snd_addF h0 hg.alone _) fun _ _ => SndQ.weak (SndQ.lift (safe_patchTail hlen ?_)) fun _ _ => trivial
  have := hh.macs _ _ _ _ (Res.ofOption_ok.1 hm)
  rw [hcore.2.1, hg.hash, hh0] at this
  cases this; rfl

theorem snd_finishRsp (bytes : Bytes) : SndQ c0 (finishRsp e sid bytes) (fun _ => True) := by
  unfold finishRsp
  refine SndQ.bind (snd_finishStart bytes) fun r _ => SndQ.bind (SndQ.modify (same_reset _ _)) fun _ _ =>
    SndQ.bind (snd_readMsg (fun c hc => Finish.read_good (Sized.cc hz hc.toLoose).1 (Sized.cc hz hc.toLoose).2.1) bytes r) fun p _ => ?_
  obtain ⟨m, req⟩ := p
  refine SndQ.bind (snd_addF h0 hg.alone _) fun _ _ => SndQ.bind (snd_finishMutAuth h0 hg m) fun _ _ => SndQ.get fun c hc => SndQ.bind (SndQ.unwrap (Sized.cc hz hc.toLoose).1) fun _ _ => ?_
  obtain ⟨s, hs, hcore⟩ := hc.session h0
  refine SndQ.bind (SndQ.unwrap (by rw [hs]; rfl)) fun s' hs' => SndQ.ite (fun _ => SndQ.fail) fun _ => ?_
  exact SndQ.bind (snd_checkHmac h0 hh hg _) fun _ _ => SndQ.bind (snd_finishAnswer h0 hh hz hg) fun rsp _ => SndQ.bind (snd_deriveData h0 hh hg) fun _ _ => SndQ.pure trivial

theorem snd_pskFinishRsp (bytes : Bytes) : SndQ c0 (pskFinishRsp e sid bytes) (fun _ => True) := by
  unfold pskFinishRsp
  refine SndQ.bind (snd_finishStart bytes) fun r hr => SndQ.bind (SndQ.modify (same_reset _ _)) fun _ _ =>
    SndQ.bind (snd_readMsg (fun c hc => rdPskFinish_good (Sized.cc hz hc.toLoose).1) bytes r) fun p hp => ?_
  obtain ⟨mac, req⟩ := p
  refine SndQ.get fun c hc => SndQ.bind (SndQ.unwrap (Sized.cc hz hc.toLoose).1) fun hs hhs => ?_
  have hlen : hs ≤ req.length := by
    obtain ⟨h, hr⟩ := hr
    obtain ⟨c', r', hc', hp, rfl⟩ := hp
    simp only [rdPskFinish, M.bind_ok, rdU8_ok, rdDigest_ok] at hp
    obtain ⟨_, _, h1, _, _, h2, h3, h4⟩ := hp
    have h5 := ((hr.trans h1).trans h2).trans h4
    have h6 : hs = mac.length := by
      have := hc'.cc.1.trans hc.cc.1.symm
      rw [hhs, show c'.cc.hashSize? = some mac.length from h3] at this
      cases this; rfl
    obtain ⟨h7, h8⟩ := h5
    simp only [Reader.init] at h7 h8
    rw [h8, h7]
    simp only [List.length_take, List.length_append]
    omega
  refine SndQ.bind (SndQ.lift (safe_dropTail hlen)) fun body _ => ?_
  obtain ⟨s, hs, hcore⟩ := hc.session h0
  refine SndQ.bind (SndQ.unwrap (by rw [hs]; rfl)) fun s' hs' => SndQ.ite (fun _ => SndQ.fail) fun _ => ?_
  exact SndQ.bind (snd_addF h0 hg.alone _) fun _ _ => SndQ.bind (snd_checkHmac h0 hh hg _) fun _ _ =>
    SndQ.bind (snd_encodeMsg (p := .pskFinishRsp) (fun c' _ => Payload.encode_writes (c := c'.cc) (p := .pskFinishRsp) trivial)) fun rsp _ => SndQ.bind (snd_addF h0 hg.alone _) fun _ _ =>
    SndQ.bind (snd_deriveData h0 hh hg) fun _ _ => SndQ.pure trivial
end

end Rsp
end Verif
