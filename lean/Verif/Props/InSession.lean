/-
C59: GET_DIGESTS, GET_CERTIFICATE and GET_MEASUREMENTS inside a session: what the sealed answers say, and what signed measurements cover.
-/
import Verif.Props.Attest
import Verif.Props.KeyUpdate
import Verif.Responder.VendorDoes
import Verif.Requester.Frames

namespace Verif.Props
open Verif Rsp

variable {e : Env}

theorem digest_in_place {sid : UInt32} {v : UInt8} {t : Bytes} (d : Ctx) :
    dispatchApplication e sid (v :: 0x81 :: t) d = (do let b ← reply (digestRsp e (some sid) (v :: 0x81 :: t)); sendSecured e sid b false) d := by
  unfold dispatchApplication
  simp only [M.bind_apply, Res.read, header_read, Res.lift]
  rfl
theorem certificate_in_place {sid : UInt32} {v : UInt8} {t : Bytes} (d : Ctx) :
    dispatchApplication e sid (v :: 0x82 :: t) d = (do let b ← reply (certificateRsp e (some sid) (v :: 0x82 :: t)); sendSecured e sid b false) d := by
  unfold dispatchApplication
  simp only [M.bind_apply, Res.read, header_read, Res.lift]
  rfl
theorem measurement_in_place {sid : UInt32} {v : UInt8} {t : Bytes} (d : Ctx) :
    dispatchApplication e sid (v :: 0xE0 :: t) d = (do let b ← reply (measurementRsp e (some sid) (v :: 0xE0 :: t)); sendSecured e sid b false) d := by
  unfold dispatchApplication
  simp only [M.bind_apply, Res.read, header_read, Res.lift]
  rfl

/-- the responder sent one packet, with message `b` sealed for session `s`. -/
def SealedOne (e : Env) (s : Session) (b : Bytes) (c c' : Ctx) : Prop := ∃ pkt, SealedBy e s b pkt ∧ c'.sent = c.sent ++ [pkt]

theorem patchDigests_at {c d : Ctx} (hp : d.prov = c.prov) (hn : d.neg = c.neg) {b b' : Bytes} {is : List (Fin 8)}
    (h : patchDigests e d is b = .ok b') : patchDigests e c is b = .ok b' := by rwa [patchDigests_congr hp hn] at h

/-- **C59**: a GET_DIGESTS inside an established session that is answered, by something other than ERROR: the sealed answer says what DIGESTS outside a session
says (C49). -/
theorem C59_digests_partial (hl : DialogueLaws e) (c c0 c' : Ctx) (rx : Bytes) (sid : UInt32) (s : Session) (v : UInt8) (t : Bytes)
    (ho : Opens e rx c sid (v :: 0x81 :: t) false c0) (hs : c.session? sid = some s) (hst : s.state = .established)
    (h : processMessage e rx c = .ok true c') (ha : AnsweredIn e s c c') :
    v = c.neg.version.get ∧ ∃ b, SaysDigests e c v b ∧ SealedOne e s b c c' := by
  obtain ⟨b, c1, pkt, y, ⟨-, v', k', p1, p2, t', hs', hb, hver, hhs, hpd, -⟩, -, g1, g2, -, rfl⟩ :=
    secured_positive ho hs hst digest_in_place (codes_digestRsp hl.hash _ _) (by decide) (om_digestRsp _) (digest_does_in _ _ _)
      (wp_sent (sid := some sid) (k := true) (rel_digestRsp _)) h ha
  injection hb with hb1 hb2
  injection hb2 with hb2 hb3
  subst hb1 hb2 hb3
  refine ⟨by have hver : SpdmVersion.ofCode v = c.neg.version := hver; rw [← hver, SpdmVersion.get_ofCode], b, ?_, pkt, g1, by show c1.sent ++ _ = _; rw [g2]⟩
  exact digests_said hl.hash hhs (patchDigests_at (c := c) (d := c.updSession sid (·.bump true)) rfl rfl hpd)

/-- **C59**: a GET_CERTIFICATE inside an established session that is answered, by something other than ERROR: the sealed answer is the portion of the chain
asked for. -/
theorem C59_certificate (c c0 c' : Ctx) (hsz : ∀ i ch, c.prov.chain i = some ch → ch.length < 65536) (rx : Bytes) (sid : UInt32) (s : Session) (v : UInt8) (t : Bytes)
    (ho : Opens e rx c sid (v :: 0x82 :: t) false c0) (hs : c.session? sid = some s) (hst : s.state = .established)
    (h : processMessage e rx c = .ok true c') (ha : AnsweredIn e s c c') :
    v = c.neg.version.get ∧ ∃ p off len rest chain, t = [0, p] ++ putU16 off ++ putU16 len ++ rest ∧ c.prov.chain 0 = some chain ∧ off.toNat ≤ chain.length ∧
      SealedOne e s (certMessage v chain off.toNat len.toNat) c c' := by
  obtain ⟨b, c1, pkt, y, ⟨-, v', k', p, off, len, t', chain, hb, hver, hch, hoff, rfl, -⟩, -, g1, g2, -, rfl⟩ :=
    secured_positive ho hs hst certificate_in_place (codes_certificateRsp _ _) (by decide) (om_certificateRsp _) (certificate_does_in _ _ _ hsz)
      (wp_sent (sid := some sid) (k := true) (rel_certificateRsp _)) h ha
  injection hb with hb1 hb2
  injection hb2 with hb2 hb3
  subst hb1 hb2 hb3
  refine ⟨by have hver : SpdmVersion.ofCode v = c.neg.version := hver; rw [← hver, SpdmVersion.get_ofCode], p, off, len, t', chain, by simp, hch, hoff,
    pkt, g1, by show c1.sent ++ _ = _; rw [g2]⟩

/-- what is in the measurement transcript of session `s` when a request comes. -/
def measured (c : Ctx) (s : Session) : Bytes :=
  match s.l1l2 with
  | some x => x.data
  | none => if 0x12 ≤ c.neg.version.get then c.rt.messageA else []

/-- the transcript is hashed with the hash that was negotiated. -/
def HashesWith (c : Ctx) (s : Session) : Prop := ∀ x, s.l1l2 = some x → x.algo = c.neg.baseHash

theorem measurementSig_in {c : Ctx} {sid : UInt32} {s : Session} {x : HashCtx} {sig : Bytes} (hs : c.session? sid = some s) (hx : s.l1l2 = some x)
    (h : measurementSig e (some sid) c = .ok sig) :
    ∃ d, e.crypto.hash x.algo x.data = some d ∧ e.sign c.neg.baseHash c.neg.baseAsym (Spec.signedData .measurements d) = some sig := by
  unfold measurementSig at h
  have hx : l1l2? c (some sid) = some x := by unfold l1l2?; dsimp only; rw [hs]; exact hx
  rw [hx] at h
  obtain ⟨y, h1, h2⟩ := Res.bind_ok.1 h
  cases h1
  obtain ⟨d, h3, h4⟩ := Res.bind_ok.1 h2
  obtain ⟨m, h5, h6⟩ := Res.bind_ok.1 h4
  have h3 := Res.ofOption_ok.1 h3
  have h6 := Res.ofOption_ok.1 h6
  have := C40_only_signed_data c.cc .measurements d m h5
  rw [this.2.2] at h6
  exact ⟨d, h3, h6⟩

/-- the session after `msg` was added. -/
theorem addM_session {c : Ctx} {sid : UInt32} {s : Session} {msg : Bytes} (hs : c.session? sid = some s) (ha : HashesWith c s) :
    (addM (some sid) msg c).session? sid = some { s with l1l2 := some ⟨c.neg.baseHash, measured c s ++ msg⟩ } := by
  have hn : nextM c (some sid) msg = ⟨c.neg.baseHash, measured c s ++ msg⟩ := by
    unfold nextM l1l2? measured
    dsimp only
    rw [hs]
    dsimp only [Option.bind]
    have h12 : c.cc.ge12 = decide (0x12 ≤ c.neg.version.get) := rfl
    cases hx : s.l1l2 with
    | some x => simp [ha x hx]
    | none => simp [h12]
  unfold addM
  dsimp only
  rw [hn]
  exact session?_upd (f := fun s => { s with l1l2 := some ⟨c.neg.baseHash, _⟩ }) hs (show s.id = sid from session?_id hs)

/-- **C59**: a GET_MEASUREMENTS inside an established session that is answered, by something other than ERROR: the sealed answer gives exactly what the device
reports, with a nonce drawn for it; it is signed exactly if that was asked for, and the signature covers the measurement transcript of this session, the
request and the answer up to the signature.  A signature ends the transcript, an unsigned answer extends it. -/
theorem C59_measurements (hl : DialogueLaws e) (c c0 c' : Ctx) (rx : Bytes) (sid : UInt32) (s : Session) (v : UInt8) (t : Bytes)
    (ho : Opens e rx c sid (v :: 0xE0 :: t) false c0) (hs : c.session? sid = some s) (hst : s.state = .established) (hh : HashesWith c s)
    (h : processMessage e rx c = .ok true c') (ha : AnsweredIn e s c c') :
    v = c.neg.version.get ∧ ∃ attr op slot theirs rest number r nonce sig asym,
      t = getMeasurementsTail v attr op slot theirs ++ rest ∧ attr ≤ 3 ∧ theirs.length = 32 ∧
      Reported e c op number r ∧ Ctx.random e 32 = some nonce ∧ c.cc.asymSize? = some asym ∧
      let req := [v, 0xE0] ++ getMeasurementsTail v attr op slot theirs
      let body := measurements v number (measurementsParam2 c attr slot) r nonce
      (if attr &&& 1 = 0 then sig = [] else (∃ chain, chainIn c slot = some chain) ∧ sig.length = asym ∧
        ∃ d, e.crypto.hash c.neg.baseHash (measured c s ++ req ++ body) = some d ∧
          e.sign c.neg.baseHash c.neg.baseAsym (Spec.signedData .measurements d) = some sig) ∧
      SealedOne e s (body ++ sig) c c' ∧
      c'.session? sid = some { (s.bump true).bump false with
        l1l2 := if attr &&& 1 = 0 then some ⟨c.neg.baseHash, measured c s ++ req ++ body⟩ else none } := by
  obtain ⟨b, c1, pkt, y, ⟨m, req, number, record, nonce, asym, hv, -, hcase⟩, -, h1, h2, h3, rfl⟩ :=
    secured_positive ho hs hst measurement_in_place (codes_measurementRsp _ _) (by decide) (om_measurementRsp _) (measurement_does hl.record (some sid) _ _)
      (wp_sent (sid := some sid) (k := true) (rel_measurementRsp _)) h ha
  dsimp only at hcase
  have hs1 : (c.updSession sid (·.bump true)).session? sid = some (s.bump true) := session?_upd hs (by rw [Session.bump_id]; exact session?_id hs)
  generalize hcb : c.updSession sid (·.bump true) = cb at *
  have nb : cb.neg = c.neg := by rw [← hcb]; rfl
  have rb : cb.rt = c.rt := by rw [← hcb]; rfl
  have pb : cb.prov = c.prov := by rw [← hcb]; rfl
  have fb : cb.config = c.config := by rw [← hcb]; rfl
  have sb : cb.sent = c.sent := by rw [← hcb]; rfl
  have ccb : cb.cc = c.cc := by unfold Ctx.cc; rw [nb, rb]
  obtain ⟨v', k', t', r', hb, hver, hr, hreq⟩ := hv.wire
  injection hb with hb1 hb2
  injection hb2 with hb2 hb3
  subst hb1 hb2 hb3
  rw [ccb] at hr
  rw [nb] at hver
  obtain ⟨hwf, haft, hused⟩ := GetMeas.read_exact hr
  have hvg : v = c.neg.version.get := by rw [← hver, SpdmVersion.get_ofCode]
  have h11 : c.cc.ge11 = decide (0x11 ≤ v) := by rw [hvg]; rfl
  have hwire : GetMeas.wire c.cc m = getMeasurementsTail v m.attr m.op.get m.slot m.nonce := by
    unfold GetMeas.wire getMeasurementsTail
    rw [h11]
    simp
  have htail : t = getMeasurementsTail v m.attr m.op.get m.slot m.nonce ++ r'.rest := by rw [← hwire]; exact haft
  have hreq : req = [v, 0xE0] ++ getMeasurementsTail v m.attr m.op.get m.slot m.nonce := by
    rw [hreq, ← hwire]
    have h1 : t = GetMeas.wire c.cc m ++ r'.rest := haft
    have h2 : r'.used = 2 + (GetMeas.wire c.cc m).length := hused
    rw [h1, h2]
    simp [Nat.add_comm 2]
  have hbody : measBody cb.neg.version.get number (measParam2 cb m.signed m.slot) record nonce = measurements v number (measurementsParam2 c m.attr m.slot) record nonce := by
    have : measParam2 cb m.signed m.slot = measParam2 c m.signed m.slot := by unfold measParam2 contentChanged; rw [ccb, fb, rb]
    rw [this, param2_eq, nb, ← hvg]
    simp [measBody, measurements]
  rw [hbody] at hcase
  subst hreq
  generalize hR : [v, 0xE0] ++ getMeasurementsTail v m.attr m.op.get m.slot m.nonce = req at *
  generalize hB : measurements v number (measurementsParam2 c m.attr m.slot) record nonce = body at *
  -- the session through the additions
  have hstart : (measStart (some sid) cb m.signed).session? sid = some (s.bump true) := by
    unfold measStart
    rw [resetMeas_fields]
    exact hs1
  have nstart : (measStart (some sid) cb m.signed).neg = c.neg := by unfold measStart; rw [resetMeas_fields]; exact nb
  have astart : (measStart (some sid) cb m.signed).rt.messageA = c.rt.messageA := by unfold measStart; rw [resetMeas_fields]; show cb.rt.messageA = _; rw [rb]
  have sstart : (measStart (some sid) cb m.signed).sent = c.sent := by unfold measStart; rw [resetMeas_fields]; exact sb
  have hl12 : (s.bump true).l1l2 = s.l1l2 := by unfold Session.bump; cases s.state <;> rfl
  generalize hcs : measStart (some sid) cb m.signed = cs at *
  have hm0 : measured cs (s.bump true) = measured c s := by unfold measured; rw [hl12, nstart, astart]
  have g1 : (addM (some sid) req cs).session? sid = some { s.bump true with l1l2 := some ⟨c.neg.baseHash, measured c s ++ req⟩ } := by
    rw [addM_session hstart (by intro x hx; rw [hl12] at hx; rw [nstart]; exact hh x hx), hm0, nstart]
  have g2 : (addM (some sid) body (addM (some sid) req cs)).session? sid = some { s.bump true with l1l2 := some ⟨c.neg.baseHash, measured c s ++ req ++ body⟩ } := by
    rw [addM_session g1 (by intro x hx; cases hx; exact congrArg Neg.baseHash nstart.symm)]
    have : (addM (some sid) req cs).neg = c.neg := nstart
    rw [this]
    rfl
  have gneg : (addM (some sid) body (addM (some sid) req cs)).neg = c.neg := nstart
  have gsent : (addM (some sid) body (addM (some sid) req cs)).sent = c.sent := sstart
  generalize addM (some sid) body (addM (some sid) req cs) = c2 at *
  subst hR hB
  refine ⟨hvg, m.attr, m.op.get, m.slot, m.nonce, r'.rest, number, record, nonce, ?_⟩
  have hrep : Reported e c m.op.get number record := by
    have := reported hwf.2.1 hv.measured
    unfold Reported Reports at this ⊢
    rwa [nb] at this
  have hasym : c.cc.asymSize? = some asym := by rw [← ccb]; exact hv.asym
  have hslot := hv.slot
  by_cases hsig : m.signed = true
  · rw [if_pos hsig] at hcase hslot
    have hne : ¬ m.attr &&& 1 = 0 := by unfold GetMeas.signed at hsig; simpa using hsig
    rcases hcase with ⟨sig, k1, k2, rfl, rfl⟩ | ⟨st, _, _, g⟩
    · obtain ⟨chain, hch⟩ := Option.isSome_iff_exists.1 hslot
      obtain ⟨d, d1, d2⟩ := measurementSig_in g2 rfl k1
      rw [gneg] at d2
      have hm : (Ctx.resetM (some sid) c2).session? sid = some { s.bump true with l1l2 := none } := by
        rw [show Ctx.resetM (some sid) c2 = c2.updSession sid (fun s => { s with l1l2 := none }) from rfl]
        have hid : (s.bump true).id = sid := by rw [Session.bump_id]; exact session?_id hs
        have := session?_upd (f := fun s => { s with l1l2 := none }) g2 hid
        exact this
      refine ⟨sig, asym, htail, hwf.1, hwf.2.2.1, hrep, hv.nonce, hasym, ?_, ⟨pkt, h1, ?_⟩, ?_⟩
      · rw [if_neg hne]
        refine ⟨⟨chain, ?_⟩, k2, d, d1, d2⟩
        rw [← localChain_eq]
        unfold localChain Ctx.slot? at hch ⊢
        rw [pb] at hch
        exact hch
      · show (Ctx.resetM (some sid) c2).sent ++ [pkt] = _
        rw [h2]
      · rw [hm] at h3
        cases h3
        rw [if_neg hne]
        refine session?_upd (f := fun _ => { (s.bump true).bump false with l1l2 := none }) hm ?_
        show ((s.bump true).bump false).id = sid
        rw [Session.bump_id, Session.bump_id]
        exact session?_id hs
    · exfalso
      obtain ⟨p, hp⟩ := sendError_sends hl.error g
      rw [h2, gsent] at hp
      have := congrArg List.length hp
      simp at this
  · rw [if_neg hsig] at hcase
    have h0 : m.attr &&& 1 = 0 := by unfold GetMeas.signed at hsig; simpa using hsig
    obtain ⟨rfl, rfl⟩ := hcase
    refine ⟨[], asym, htail, hwf.1, hwf.2.2.1, hrep, hv.nonce, hasym, by rw [if_pos h0], ⟨pkt, by rw [List.append_nil]; exact h1, ?_⟩, ?_⟩
    · show c1.sent ++ [pkt] = _
      rw [h2]
    · rw [g2] at h3
      cases h3
      rw [if_pos h0]
      refine session?_upd (f := fun _ => { (s.bump true).bump false with l1l2 := some ⟨c.neg.baseHash, _⟩ }) g2 ?_
      show ((s.bump true).bump false).id = sid
      rw [Session.bump_id, Session.bump_id]
      exact session?_id hs

/-! ### the transcript of a session -/

theorem heartbeat_in_place {sid : UInt32} {v : UInt8} {t : Bytes} (d : Ctx) :
    dispatchApplication e sid (v :: 0xE8 :: t) d = (do let b ← reply (heartbeatRsp sid (v :: 0xE8 :: t)); sendSecured e sid b false) d := by
  unfold dispatchApplication
  simp only [M.bind_apply, Res.read, header_read, Res.lift]
  rfl
theorem vendor_in_place {sid : UInt32} {v : UInt8} {t : Bytes} (d : Ctx) :
    dispatchApplication e sid (v :: 0xFE :: t) d = (do let b ← reply (vendorRsp e (some sid) (v :: 0xFE :: t)); sendSecured e sid b false) d := by
  unfold dispatchApplication
  simp only [M.bind_apply, Res.read, header_read, Res.lift]
  rfl

/-- the session has no measurement transcript. -/
def Empty (sid : UInt32) (c : Ctx) : Prop := ∀ s, c.session? sid = some s → s.l1l2 = none

theorem empty_reset {k : ReqRespCode} (hk : k ≠ .reqGetMeasurements) (sid : UInt32) (c : Ctx) : Empty sid (Ctx.resetBuffers k (some sid) c) := by
  intro s hs
  rw [resetBuffers_session _ _ _ hk] at hs
  cases hc : c.session? sid with
  | none => rw [hc] at hs; cases hs
  | some s0 => rw [hc] at hs; cases hs; rfl

theorem heartbeat_does_in (sid : UInt32) (bytes : Bytes) (c : Ctx) : Does (heartbeatRsp sid bytes) c (fun _ c1 => Empty sid c1) := by
  unfold heartbeatRsp
  refine (does_version bytes _).bind ?_
  rintro r c1 ⟨rfl, v, k, t, rfl, hv, rfl⟩
  refine (does_modify _ _).bind ?_
  rintro _ c2 rfl
  refine (does_read _ _ _ _).bind ?_
  rintro ⟨m, req⟩ c3 ⟨rfl, -⟩
  refine (does_encode (p := .heartbeatAck) (w := [0, 0]) ?_ ?_).mono ?_
  · exact encNoParams_writes
  · simp [msgSize]
  rintro _ _ ⟨-, rfl⟩
  exact empty_reset (by decide) _ _

/-- what is left of the session by a request that is not GET_MEASUREMENTS. -/
def Dropped (sid : UInt32) (c c' : Ctx) : Prop :=
  ∃ s', c'.session? sid = some s' ∧ s'.state = .established ∧ s'.l1l2 = none ∧ c'.neg = c.neg ∧ c'.rt.messageA = c.rt.messageA

theorem kept_inside (hh : HashLaw e) {c c' c0 : Ctx} {rx msg : Bytes} {sid : UInt32} {isApp : Bool} (ho : Opens e rx c sid msg isApp c0) {b : Bool}
    (h : processMessage e rx c = .ok b c') : c'.neg = c.neg ∧ c'.rt.messageA = c.rt.messageA := by
  obtain ⟨hsf, _⟩ := ho.eq
  rcases (process_step hh rx c).ok h with rfl | ⟨v, k, t, hp, hs⟩ | ⟨sid', _, _, h⟩
  · exact ⟨rfl, rfl⟩
  · exfalso
    obtain ⟨a1, a2, a3, a4, a5, h1, -⟩ := hsf
    unfold Plain at hp
    rw [h1] at hp
    cases hp
  · exact ⟨h.neg, h.messageA⟩

/-- GET_DIGESTS, GET_CERTIFICATE, HEARTBEAT and VENDOR_DEFINED_REQUEST in a session. -/
theorem dropped (hl : DialogueLaws e) (hvl : VendorLaw e) {c c0 c' : Ctx} (hsz : ∀ i ch, c.prov.chain i = some ch → ch.length < 65536) {rx : Bytes} {sid : UInt32} {s : Session}
    {v k : UInt8} {t : Bytes} (hk : k = 0x81 ∨ k = 0x82 ∨ k = 0xE8 ∨ k = 0xFE) (ho : Opens e rx c sid (v :: k :: t) false c0) (hs : c.session? sid = some s)
    (hst : s.state = .established) (h : processMessage e rx c = .ok true c') (ha : AnsweredIn e s c c') : Dropped sid c c' := by
  have key : ∃ (c1 : Ctx) (pkt : Bytes) (y : Option HashCtx), Empty sid c1 ∧ c1.session? sid = some { s.bump true with l1l2 := y } ∧
      c' = withSent pkt (c1.updSession sid fun _ => { (s.bump true).bump false with l1l2 := y }) := by
    rcases hk with rfl | rfl | rfl | rfl
    · obtain ⟨b, c1, pkt, y, h1, -, -, -, h3, h4⟩ :=
        secured_positive ho hs hst digest_in_place (codes_digestRsp hl.hash _ _) (by decide) (om_digestRsp _)
          ((digest_does_in _ _ _).mono (Q := fun _ c1 => Empty sid c1) fun _ _ ⟨_, _, _, _, _, _, _, _, _, _, _, h⟩ => h ▸ empty_reset (by decide) _ _)
          (wp_sent (sid := some sid) (k := true) (rel_digestRsp _)) h ha
      exact ⟨c1, pkt, y, h1, h3, h4⟩
    · obtain ⟨b, c1, pkt, y, h1, -, -, -, h3, h4⟩ :=
        secured_positive ho hs hst certificate_in_place (codes_certificateRsp _ _) (by decide) (om_certificateRsp _)
          ((certificate_does_in _ _ (c.updSession sid (·.bump true)) hsz).mono (Q := fun _ c1 => Empty sid c1) fun _ _ h => by obtain ⟨_, _, _, _, _, _, _, _, _, _, _, _, _, h⟩ := h; exact h ▸ empty_reset (by decide) _ _)
          (wp_sent (sid := some sid) (k := true) (rel_certificateRsp _)) h ha
      exact ⟨c1, pkt, y, h1, h3, h4⟩
    · obtain ⟨b, c1, pkt, y, h1, -, -, -, h3, h4⟩ :=
        secured_positive ho hs hst heartbeat_in_place (codes_heartbeatRsp _ _) (by decide) (om_heartbeatRsp _) (heartbeat_does_in _ _ _)
          (wp_sent (sid := some sid) (k := true) (rel_heartbeatRsp _ _)) h ha
      exact ⟨c1, pkt, y, h1, h3, h4⟩
    · obtain ⟨b, c1, pkt, y, h1, -, -, -, h3, h4⟩ :=
        secured_positive ho hs hst vendor_in_place (codes_vendorRsp _ _) (by decide) (om_vendorRsp _)
          ((vendor_does hvl _ _ _).mono (Q := fun _ c1 => Empty sid c1) fun _ _ h => h.1 ▸ empty_reset (by decide) _ _)
          (wp_sent (sid := some sid) (k := true) (rel_vendorRsp _)) h ha
      exact ⟨c1, pkt, y, h1, h3, h4⟩
  obtain ⟨c1, pkt, y, h1, h2, h3⟩ := key
  obtain ⟨k1, k2⟩ := kept_inside hl.hash ho h
  have hy : y = none := h1 _ h2
  subst hy h3
  refine ⟨{ (s.bump true).bump false with l1l2 := none }, ?_, ?_, rfl, k1, k2⟩
  · refine session?_upd (f := fun _ => { (s.bump true).bump false with l1l2 := none }) h2 ?_
    show ((s.bump true).bump false).id = sid
    rw [Session.bump_id, Session.bump_id]
    exact session?_id hs
  · show ((s.bump true).bump false).state = _
    rw [Session.bump_state, Session.bump_state]; exact hst

theorem kept_ops (v : SpdmVersion) (op : KeyUpdateOp) {s s' : Session} {a : Bool} (h : keyUpdateOps e v op s = .ok a s') :
    s'.l1l2 = s.l1l2 ∧ s'.state = s.state ∧ s'.id = s.id := by
  have hx : M.Rel (fun s s' : Session => s'.l1l2 = s.l1l2) (keyUpdateOps e v op) := by
    let _ : M.Pre (fun s s' : Session => s'.l1l2 = s.l1l2) := ⟨fun _ => rfl, fun h h' => h'.trans h⟩
    have h1 : M.Rel (fun s s' : Session => s'.l1l2 = s.l1l2) (Session.createReq e.crypto v) := by
      unfold Session.createReq
      rel <;> exact M.Rel.modify fun _ => rfl
    have h2 : M.Rel (fun s s' : Session => s'.l1l2 = s.l1l2) (Session.createRsp e.crypto v) := by
      unfold Session.createRsp
      rel <;> exact M.Rel.modify fun _ => rfl
    have h3 : ∀ a b, M.Rel (fun s s' : Session => s'.l1l2 = s.l1l2) (Session.createUpdate e.crypto v a b) := by
      intro a b
      unfold Session.createUpdate
      rel
    have h4 : ∀ a b n (s : Session), (Session.activateUpdate a b n s).l1l2 = s.l1l2 := by
      intro a b n s
      unfold Session.activateUpdate
      cases a <;> cases b <;> cases n <;> rfl
    unfold keyUpdateOps
    split <;> rel
    · exact h3 _ _
    · exact h3 _ _
    · exact M.Rel.modify fun s => h4 _ _ _ s
    · exact M.Rel.modify fun s => h4 _ _ _ s
  have hk := (keep_keyUpdateOps v op s).ok h
  exact ⟨(hx s).ok h, hk.2.1, hk.1⟩

/-- KEY_UPDATE with a defined operation in a session. -/
theorem dropped_update (hl : HashLaw e) {c c0 c' : Ctx} {rx : Bytes} {sid : UInt32} {s : Session} {v op tag : UInt8} {t : Bytes}
    (ho : Opens e rx c sid (v :: 0xE9 :: op :: tag :: t) false c0) (hs : c.session? sid = some s) (hst : s.state = .established)
    (hv : SpdmVersion.ofCode v = c.neg.version) (hop : op = 1 ∨ op = 2 ∨ op = 3) (h : processMessage e rx c = .ok true c') : Dropped sid c c' := by
  obtain ⟨k1, k2⟩ := kept_inside hl ho h
  obtain ⟨b, c2, hs1, h1, h2⟩ := keyUpdate_answered ho hs hst h
  have hk : (KeyUpdateOp.ofCode op).known = true := by rcases hop with rfl | rfl | rfl <;> rfl
  obtain ⟨known, s2, g1, g2⟩ := keyUpdateRsp_ok hs1 hv hk h1
  have hkn : known = true := by
    unfold keyUpdateOps at g1
    rcases hop with rfl | rfl | rfl
    all_goals
      obtain ⟨_, _, _, g⟩ := M.bind_ok.1 g1
      cases g; rfl
  obtain ⟨rfl, rfl⟩ := g2 hkn
  obtain ⟨q1, q2, q3⟩ := kept_ops _ _ g1
  have hid2 : s2.id = sid := by
    rw [q3]
    show (s.bump true).id = sid
    rw [Session.bump_id]
    exact session?_id hs
  have hs2 : ((Ctx.resetBuffers .reqKeyUpdate (some sid) (c.updSession sid (·.bump true))).updSession sid fun _ => s2).session? sid = some s2 := by
    refine session?_upd (f := fun _ => s2) (s := opened s) ?_ hid2
    rw [resetBuffers_session _ _ _ (by decide), hs1]
    rfl
  obtain ⟨s3, pkt, j1, j2, j3, rfl⟩ := sendSecured_exact (code := 0x69) ⟨v, [op, tag], rfl⟩ (by decide) (by decide) (by decide) h2
  rw [hs2] at j1
  cases j1
  refine ⟨s2.bump false, session?_upd (f := fun _ => s2.bump false) hs2 (by rw [Session.bump_id]; exact hid2), ?_, ?_, k1, k2⟩
  · rw [Session.bump_state, q2]
    show (s.bump true).state = _
    rw [Session.bump_state]; exact hst
  · have : (s2.bump false).l1l2 = s2.l1l2 := by unfold Session.bump; cases s2.state <;> rfl
    rw [this, q1]

/-- a packet that is not for session `sid` and does not restart the negotiation. -/
def Elsewhere (e : Env) (rx : Bytes) (sid : UInt32) : Prop :=
  ¬ SecuredFor e rx sid ∧ ∀ v k t, Plain e rx (v :: k :: t) → k ≠ 0x84 ∧ k ≠ 0xE1 ∧ k ≠ 0xE3

theorem Reachable.next {n : Nat} {c c' : Ctx} (h : Reachable n c) (hl : HashLaw e) {rx : Bytes}
    (hr : (∃ b, processMessage e rx c = .ok b c') ∨ processMessage e rx c = .err () c') : Reachable n c' := by
  obtain ⟨cfg, prov, l, h1, h2⟩ := h
  refine ⟨cfg, prov, l ++ [(e, rx)], ?_, ?_⟩
  · rcases hr with ⟨b, hr⟩ | hr
    · exact h1.ok hr
    · exact h1.err hr
  · intro p hp
    rcases List.mem_append.1 hp with hp | hp
    · exact h2 p hp
    · simp at hp; subst hp; exact hl

/-- A packet that is for something else leaves an established session, and what it depends on, alone. -/
theorem elsewhere (n : Nat) (hn : n < 0xFFFD) (hl : HashLaw e) {c c' : Ctx} (h : Reachable n c) {rx : Bytes} {sid : UInt32} {s : Session} (he : Elsewhere e rx sid)
    (hr : (∃ b, processMessage e rx c = .ok b c') ∨ processMessage e rx c = .err () c') (hs : c.session? sid = some s) (hst : s.state = .established) :
    c'.session? sid = some s ∧ c'.neg.baseHash = c.neg.baseHash ∧ c'.neg.version = c.neg.version ∧ c'.rt.messageA = c.rt.messageA ∧ c'.prov = c.prov := by
  have hc' := h.next hl hr
  have hstep : Step e rx c c' := by
    rcases hr with ⟨b, hr⟩ | hr
    · exact (process_step hl rx c).ok hr
    · exact (process_step hl rx c).err hr
  have hid := session?_id hs
  obtain ⟨i, hi⟩ : ∃ i : Nat, c.sessions[i]? = some s := by
    have := List.mem_of_find?_eq_some hs
    obtain ⟨i, hi, rfl⟩ := List.mem_iff_getElem.1 this
    exact ⟨i, List.getElem?_eq_getElem hi⟩
  have h0 : s.id ≠ 0 := C21_nonzero n hn c h i s hi (by rw [hst]; decide)
  have hfind : c'.sessions[i]? = some s → c'.session? sid = some s := fun hi' => (C21_lookup n hn c' hc' sid (by rw [← hid]; exact h0) s).2 ⟨hid, i, hi'⟩
  rcases hstep with rfl | ⟨v, k, t, hp, hs'⟩ | ⟨sid', h1, -, h3⟩
  · exact ⟨hs, rfl, rfl, rfl, rfl⟩
  · obtain ⟨e1, e2, e3⟩ := he.2 v k t hp
    obtain ⟨⟨p, q1⟩, q2, q3, -⟩ := hs'.keep e1 e2 e3
    refine ⟨?_, by rw [q1], by rw [q1], q2, q3⟩
    by_cases hk : k = 0xE5
    · subst hk
      rcases hs'.table with h | ⟨h, -⟩ | ⟨h, -⟩ | ⟨h, -⟩ | ⟨sid', s', -, -, -, g1, g2, g3⟩
      · unfold Ctx.session? at hs ⊢; rw [h]; exact hs
      · cases h
      · cases h
      · cases h
      · obtain ⟨s1, hi1, hi2⟩ := All2.get? g3 hi
        rcases hi2 with rfl | ⟨hi2, -⟩
        · exact hfind hi1
        · exfalso
          rw [hid] at hi2
          subst hi2
          rw [hs] at g1
          cases g1
          rw [hst] at g2
          cases g2
    · exact hfind (C21_open_others n hn hl c c' h rx v k t hp ⟨e1, hk⟩ hr i s hi h0)
  · refine ⟨?_, by rw [h3.neg], by rw [h3.neg], h3.messageA, h3.prov⟩
    obtain ⟨s1, hi1, hi2⟩ := All2.get? h3.sessions hi
    rcases hi2 with rfl | ⟨hi2, -⟩
    · exact hfind hi1
    · exact absurd h1 (by rw [← hi2, hid]; exact he.1)

/-- One exchange inside a session. -/
inductive SessionEntry where
  /-- GET_MEASUREMENTS with the request as far as it was read, and the answer as it was sealed -/
  | measurements (signed : Bool) (req rsp : Bytes)
  | other
  deriving DecidableEq

/-- The measurement transcript of a session: `start` and the unsigned GET_MEASUREMENTS exchanges since the last signed one or the last other request; none
if there was none since. -/
def sessionTranscript (start : Bytes) (h : List SessionEntry) : Option Bytes :=
  h.foldl (fun m x => match x with
    | .measurements false req rsp => some (m.getD start ++ req ++ rsp)
    | .measurements true _ _ => none
    | .other => none) none

/-- request `req` of GET_MEASUREMENTS and what follows it. -/
def IsGetMeasurements (msg req : Bytes) (signed : Bool) : Prop :=
  ∃ v attr op slot nonce rest, msg = req ++ rest ∧ req = [v, 0xE0] ++ getMeasurementsTail v attr op slot nonce ∧ nonce.length = 32 ∧ signed = decide (attr &&& 1 ≠ 0)

/-- What happens between the opening of session `sid` and some later moment: packets for other things, in any number and with any outcome, and requests inside
the session that are answered by something other than ERROR. -/
inductive SessionTalk (n : Nat) (sid : UInt32) (c0 : Ctx) : List SessionEntry → Ctx → Prop
  | start : SessionTalk n sid c0 [] c0
  | elsewhere {h : List SessionEntry} {c c' : Ctx} {e : Env} {rx : Bytes} : SessionTalk n sid c0 h c → DialogueLaws e → Elsewhere e rx sid →
      ((∃ b, processMessage e rx c = .ok b c') ∨ processMessage e rx c = .err () c') → SessionTalk n sid c0 h c'
  | measurements {h : List SessionEntry} {c c1 c' : Ctx} {e : Env} {rx : Bytes} {s : Session} {v : UInt8} {t req rsp : Bytes} {signed : Bool} :
      SessionTalk n sid c0 h c → DialogueLaws e → SealLaw e → Opens e rx c sid (v :: 0xE0 :: t) false c1 → c.session? sid = some s →
      processMessage e rx c = .ok true c' → AnsweredIn e s c c' → IsGetMeasurements (v :: 0xE0 :: t) req signed → SealedOne e s rsp c c' →
      SessionTalk n sid c0 (h ++ [.measurements signed req rsp]) c'
  | other {h : List SessionEntry} {c c1 c' : Ctx} {e : Env} {rx : Bytes} {s : Session} {v k : UInt8} {t : Bytes} :
      SessionTalk n sid c0 h c → DialogueLaws e → VendorLaw e → Opens e rx c sid (v :: k :: t) false c1 → c.session? sid = some s →
      (k = 0x81 ∨ k = 0x82 ∨ k = 0xE8 ∨ k = 0xFE) → processMessage e rx c = .ok true c' → AnsweredIn e s c c' → SessionTalk n sid c0 (h ++ [.other]) c'
  | keyUpdate {h : List SessionEntry} {c c1 c' : Ctx} {e : Env} {rx : Bytes} {v op tag : UInt8} {t : Bytes} :
      SessionTalk n sid c0 h c → DialogueLaws e → Opens e rx c sid (v :: 0xE9 :: op :: tag :: t) false c1 → SpdmVersion.ofCode v = c.neg.version →
      (op = 1 ∨ op = 2 ∨ op = 3) → processMessage e rx c = .ok true c' → SessionTalk n sid c0 (h ++ [.other]) c'

/-- the session is in its application phase and its measurement transcript is `m`. -/
structure Measuring (n : Nat) (sid : UInt32) (c0 : Ctx) (m : Option Bytes) (c : Ctx) : Prop where
  reach : Reachable n c
  session : ∃ s, c.session? sid = some s ∧ s.state = .established ∧ s.l1l2 = m.map (⟨c0.neg.baseHash, ·⟩)
  hash : c.neg.baseHash = c0.neg.baseHash
  version : c.neg.version = c0.neg.version
  messageA : c.rt.messageA = c0.rt.messageA
  prov : c.prov = c0.prov

/-- what a measurement transcript starts with. -/
def startOf (c : Ctx) : Bytes := if 0x12 ≤ c.neg.version.get then c.rt.messageA else []

theorem sessionTranscript_snoc (start : Bytes) (h : List SessionEntry) (x : SessionEntry) :
    sessionTranscript start (h ++ [x]) = (match x with
      | .measurements false req rsp => some ((sessionTranscript start h).getD start ++ req ++ rsp)
      | .measurements true _ _ => none
      | .other => none) := by
  unfold sessionTranscript
  rw [List.foldl_append]
  rfl

theorem kept_prov (hh : HashLaw e) {c c' c0 : Ctx} {rx msg : Bytes} {sid : UInt32} {isApp : Bool} (ho : Opens e rx c sid msg isApp c0) {b : Bool}
    (h : processMessage e rx c = .ok b c') : c'.prov = c.prov := by
  obtain ⟨hsf, _⟩ := ho.eq
  rcases (process_step hh rx c).ok h with rfl | ⟨v, k, t, hp, hs⟩ | ⟨sid', _, _, h⟩
  · rfl
  · exfalso
    obtain ⟨a1, a2, a3, a4, a5, h1, -⟩ := hsf
    unfold Plain at hp
    rw [h1] at hp
    cases hp
  · exact h.prov

/-- the request is determined by the message. -/
theorem isGet_unique {msg req req' : Bytes} {a b : Bool} (h : IsGetMeasurements msg req a) (h' : IsGetMeasurements msg req' b) : req = req' ∧ a = b := by
  obtain ⟨v, attr, op, slot, nonce, rest, h1, h2, h3, h4⟩ := h
  obtain ⟨v', attr', op', slot', nonce', rest', g1, g2, g3, g4⟩ := h'
  have hm : req ++ rest = req' ++ rest' := h1.symm.trans g1
  subst h2 g2
  unfold getMeasurementsTail at hm ⊢
  simp at hm
  obtain ⟨rfl, rfl, rfl, hm⟩ := hm
  subst h4 g4
  refine ⟨?_, rfl⟩
  by_cases ha : attr &&& 1 = 0
  · simp [ha]
  · simp [ha] at hm ⊢
    have hn : nonce = nonce' := by
      have := congrArg (List.take 32) hm
      rwa [List.take_left' h3, List.take_left' g3] at this
    subst hn
    have := List.append_cancel_left hm
    by_cases hv : 0x11 ≤ v
    · simp [hv] at this ⊢
      exact this.1
    · simp [hv]

theorem measuring_measured {n : Nat} {sid : UInt32} {c0 c : Ctx} {m : Option Bytes} {s : Session} (h : Measuring n sid c0 m c) (hs : c.session? sid = some s) :
    s.state = .established ∧ HashesWith c s ∧ measured c s = m.getD (startOf c0) := by
  obtain ⟨s', h1, h2, h3⟩ := h.session
  rw [hs] at h1
  cases h1
  refine ⟨h2, ?_, ?_⟩
  · intro x hx
    rw [h3] at hx
    cases m with
    | none => cases hx
    | some m => cases hx; exact h.hash.symm
  · unfold measured startOf
    rw [h3, h.version, h.messageA]
    cases m <;> rfl

theorem one_packet {c c' : Ctx} {p q : Bytes} (h : c'.sent = c.sent ++ [p]) (h' : c'.sent = c.sent ++ [q]) : p = q := by
  rw [h] at h'
  simpa using h'

theorem session_talk {n : Nat} (hn : n < 0xFFFD) {sid : UInt32} {c0 c : Ctx} (hr : Reachable n c0) (hsz : ∀ i ch, c0.prov.chain i = some ch → ch.length < 65536)
    {s0 : Session} (h1 : c0.session? sid = some s0) (h2 : s0.state = .established) (h3 : s0.l1l2 = none) {h : List SessionEntry}
    (ht : SessionTalk n sid c0 h c) : Measuring n sid c0 (sessionTranscript (startOf c0) h) c := by
  induction ht with
  | start => exact ⟨hr, ⟨s0, h1, h2, h3⟩, rfl, rfl, rfl, rfl⟩
  | elsewhere _ hl he hp ih =>
    obtain ⟨s, g1, g2, g3⟩ := ih.session
    obtain ⟨k1, k2, k3, k4, k5⟩ := Props.elsewhere n hn hl.hash ih.reach he hp g1 g2
    exact ⟨ih.reach.next hl.hash hp, ⟨s, k1, g2, g3⟩, k2.trans ih.hash, k3.trans ih.version, k4.trans ih.messageA, k5.trans ih.prov⟩
  | @measurements h c c1 c' e rx s v t req rsp signed _ hl hsl ho hs hp ha hg hso ih =>
    obtain ⟨q1, q2, q3⟩ := measuring_measured ih hs
    obtain ⟨-, attr, op, slot, theirs, rest, number, r, nonce, sig, asym, rfl, hattr, hlen, -, -, -, hsig, ⟨pkt, hpk, hsent⟩, hsess⟩ :=
      C59_measurements hl c c1 c' rx sid s v t ho hs q1 q2 hp ha
    obtain ⟨k1, k2⟩ := kept_inside hl.hash ho hp
    have hprov := kept_prov hl.hash ho hp
    have hg' : IsGetMeasurements (v :: 0xE0 :: (getMeasurementsTail v attr op slot theirs ++ rest)) ([v, 0xE0] ++ getMeasurementsTail v attr op slot theirs)
        (decide (attr &&& 1 ≠ 0)) := ⟨v, attr, op, slot, theirs, rest, by simp, rfl, hlen, rfl⟩
    obtain ⟨rfl, rfl⟩ := isGet_unique hg hg'
    obtain ⟨pkt', hpk', hsent'⟩ := hso
    have := one_packet hsent hsent'
    subst this
    have hrsp := hsl _ _ _ _ hpk' hpk
    subst hrsp
    refine ⟨ih.reach.next hl.hash (.inl ⟨_, hp⟩), ⟨_, hsess, ?_, ?_⟩, by rw [k1]; exact ih.hash, by rw [k1]; exact ih.version, by rw [k2]; exact ih.messageA,
      hprov.trans ih.prov⟩
    · show ((s.bump true).bump false).state = _
      rw [Session.bump_state, Session.bump_state]; exact q1
    · rw [sessionTranscript_snoc, ← q3]
      by_cases h0 : attr &&& 1 = 0
      · rw [if_pos h0] at hsig
        subst hsig
        simp [h0, ih.hash]
      · simp [h0]
  | @other h c c1 c' e rx s v k t _ hl hvl ho hs hk hp ha ih =>
    obtain ⟨q1, q2, q3⟩ := measuring_measured ih hs
    obtain ⟨s', g1, g2, g3, g4, g5⟩ := dropped hl hvl (by rw [ih.prov]; exact hsz) hk ho hs q1 hp ha
    refine ⟨ih.reach.next hl.hash (.inl ⟨_, hp⟩), ⟨s', g1, g2, ?_⟩, by rw [g4]; exact ih.hash, by rw [g4]; exact ih.version, by rw [g5]; exact ih.messageA,
      (kept_prov hl.hash ho hp).trans ih.prov⟩
    rw [g3, sessionTranscript_snoc]; rfl
  | @keyUpdate h c c1 c' e rx v op tag t _ hl ho hv hop hp ih =>
    obtain ⟨s, q0, q1, -⟩ := ih.session
    obtain ⟨s', g1, g2, g3, g4, g5⟩ := dropped_update hl.hash ho q0 q1 hv hop hp
    refine ⟨ih.reach.next hl.hash (.inl ⟨_, hp⟩), ⟨s', g1, g2, ?_⟩, by rw [g4]; exact ih.hash, by rw [g4]; exact ih.version, by rw [g5]; exact ih.messageA,
      (kept_prov hl.hash ho hp).trans ih.prov⟩
    rw [g3, sessionTranscript_snoc]; rfl

/-- **C59**: at any moment after the opening of a session, whatever happened in between inside and outside of it: a signed GET_MEASUREMENTS inside the session that
is answered is signed over the start (the negotiation messages from SPDM 1.2 on, nothing before), the unsigned GET_MEASUREMENTS exchanges of this session since
the last signed one or the last other request in it, this request, and this answer up to the signature. -/
theorem C59_transcript (n : Nat) (hn : n < 0xFFFD) (sid : UInt32) (c0 c c1 c' : Ctx) (hr : Reachable n c0)
    (hsz : ∀ i ch, c0.prov.chain i = some ch → ch.length < 65536) (s0 : Session) (h1 : c0.session? sid = some s0) (h2 : s0.state = .established)
    (h3 : s0.l1l2 = none) (h : List SessionEntry) (ht : SessionTalk n sid c0 h c) (hl : DialogueLaws e) (rx : Bytes) (s : Session) (v : UInt8) (t req : Bytes)
    (ho : Opens e rx c sid (v :: 0xE0 :: t) false c1) (hs : c.session? sid = some s) (hp : processMessage e rx c = .ok true c') (ha : AnsweredIn e s c c')
    (hg : IsGetMeasurements (v :: 0xE0 :: t) req true) :
    ∃ body sig d, SealedOne e s (body ++ sig) c c' ∧ c.cc.asymSize? = some sig.length ∧
      e.crypto.hash c0.neg.baseHash ((sessionTranscript (startOf c0) h).getD (startOf c0) ++ req ++ body) = some d ∧
      e.sign c0.neg.baseHash c.neg.baseAsym (Spec.signedData .measurements d) = some sig := by
  have hm := session_talk hn hr hsz h1 h2 h3 ht
  obtain ⟨q1, q2, q3⟩ := measuring_measured hm hs
  obtain ⟨-, attr, op, slot, theirs, rest, number, r, nonce, sig, asym, rfl, hattr, hlen, -, -, hasym, hsig, hso, -⟩ :=
    C59_measurements hl c c1 c' rx sid s v t ho hs q1 q2 hp ha
  have hg' : IsGetMeasurements (v :: 0xE0 :: (getMeasurementsTail v attr op slot theirs ++ rest)) ([v, 0xE0] ++ getMeasurementsTail v attr op slot theirs)
      (decide (attr &&& 1 ≠ 0)) := ⟨v, attr, op, slot, theirs, rest, by simp, rfl, hlen, rfl⟩
  obtain ⟨rfl, hb⟩ := isGet_unique hg hg'
  have h0 : ¬ attr &&& 1 = 0 := by simpa using hb.symm
  rw [if_neg h0] at hsig
  obtain ⟨-, k1, d, k2, k3⟩ := hsig
  rw [hm.hash] at k2 k3
  rw [q3] at k2
  exact ⟨_, sig, d, hso, by rw [k1]; exact hasym, k2, k3⟩

/-- **C59**: a session that FINISH or PSK_FINISH inside it has established starts without a measurement transcript, whatever was said before. -/
theorem C59_start (c c1 c' : Ctx) (rx : Bytes) (sid : UInt32) (s : Session) (v k : UInt8) (t : Bytes) (hk : k = 0xE5 ∨ k = 0xE7)
    (ho : Opens e rx c sid (v :: k :: t) false c1) (hs : c.session? sid = some s) (hst : s.state = .handshaking)
    (hdts : c.neg.reqDts = 0 ∨ 4 ≤ c.neg.reqDts.toNat) (h : processMessage e rx c = .ok true c') :
    ∃ s', c'.session? sid = some s' ∧ s'.l1l2 = none ∧ s'.state = .established := by
  rw [process_opened ho, isOk_true] at h
  obtain ⟨_, _, _, _, rfl⟩ := ho.eq
  have hs1 : (c.updSession sid (·.bump true)).session? sid = some (s.bump true) := session?_upd hs (by rw [Session.bump_id]; exact session?_id hs)
  have hst1 : (s.bump true).state = .handshaking := by rw [Session.bump_state]; exact hst
  obtain ⟨hcl, hd⟩ := Req.dispatch_handshake hs1 hst1 h
  have key : ∃ b c2 s2 code, Starts code b ∧ (code = 0x65 ∨ code = 0x67) ∧ c2.session? sid = some s2 ∧ s2.l1l2 = none ∧ c2.neg = c.neg ∧ b.length = 4 ∧
      sendSecured e sid b false c2 = .ok () c' := by
    rcases hk with rfl | rfl
    · change handleFinish e sid _ _ = _ at hd
      unfold handleFinish at hd
      rw [M.bind_apply, M.get_apply] at hd
      dsimp only at hd
      obtain ⟨b, c2, h1, h2⟩ := M.bind_ok.1 hd
      rw [hcl] at h2
      obtain ⟨v', k, attr, slot, sig, mac, rest, s0, x, d, th, rmac, th2, s', a1, a2, a3, a4, a5, a6, a7, a8, a9, rfl, -, a12, a13, a14, a15⟩ := finishRsp_ok h1
      obtain ⟨_, _, _, _, _, _, _, _, _, _, rfl⟩ := Session.genData_ok.1 a13
      exact ⟨_, c2, _, 0x65, ⟨_, _, rfl⟩, .inl rfl, a14, rfl, congrArg Cc.neg a15, by simp [hcl], h2⟩
    · change handlePskFinish e sid _ _ = _ at hd
      unfold handlePskFinish at hd
      obtain ⟨b, c2, h1, h2⟩ := M.bind_ok.1 hd
      obtain ⟨v', k, p, q, mac, rest, s0, x, th, th2, s', a1, a2, a3, a4, a5, a6, a8, a9, rfl, a12, a13, a14, a15⟩ := pskFinishRsp_ok h1
      obtain ⟨_, _, _, _, _, _, _, _, _, _, rfl⟩ := Session.genData_ok.1 a13
      exact ⟨_, c2, _, 0x67, ⟨_, _, rfl⟩, .inr rfl, a14, rfl, congrArg Cc.neg a15, rfl, h2⟩
  obtain ⟨b, c2, s2, code, k1, k2, k3, k4, k5, k6, k7⟩ := key
  obtain ⟨s3, pkt, g1, g2, g3, g4⟩ := Req.sendSecured_after k1 k7
  rw [k3] at g1
  cases g1
  have g5 := Req.afterSecured_ok k3 g4
  have hsmall : tooLarge c2 b = false := by
    unfold tooLarge
    rw [k5, k6]
    rcases hdts with h | h
    · simp [h]
    · simp; intro _; exact h
  have hid := session?_id k3
  rw [hsmall] at g5
  have h6C : code ≠ 0x6C := by rcases k2 with rfl | rfl <;> decide
  have hc' : c' = withSent pkt (c2.updSession sid fun _ => { s2.bump false with state := .established }) := by
    rw [g5]
    unfold Req.answered
    simp only [Bool.false_eq_true, if_false]
    rw [if_neg h6C, if_pos k2]
  subst hc'
  refine ⟨{ s2.bump false with state := .established }, session?_upd (f := fun _ => { s2.bump false with state := .established }) k3 (by rw [← hid]; exact Session.bump_id s2 false), ?_, rfl⟩
  have : (s2.bump false).l1l2 = s2.l1l2 := by unfold Session.bump; cases s2.state <;> rfl
  show (s2.bump false).l1l2 = none
  rw [this, k4]

/-! ### a concrete session -/

theorem frames_toy : Frames Toy.env.tr where
  record := ⟨1, fun r pkt h => by
    have h1 : Ctx.intoBuf (Toy.env.tr.encap r true) 4160 = _ := intoBuf_put (6 :: r) 4160
    rw [h1] at h
    split at h
    · cases h; exact ⟨[6], [], rfl, by simp⟩
    · cases h⟩
  message := ⟨[8], fun m a h => by
    have h1 : Ctx.intoBuf (Toy.env.tr.encapApp m false) 4160 = _ := intoBuf_put (8 :: m) 4160
    rw [h1] at h
    split at h
    · cases h; rfl
    · cases h⟩

theorem toy_sealLaw : SealLaw Toy.env := sealLaw_of Toy.aeadLaws frames_toy

/-- the packet that seals `msg`. -/
def sealedPacket (e : Env) (s : Session) (msg : Bytes) : Option Bytes :=
  match Ctx.intoBuf (e.tr.encapApp msg false) 4160 with
  | .ok app => match Session.encodeMsg e.crypto s app 4160 (s.dir false) with
    | .ok rec => match Ctx.intoBuf (e.tr.encap rec true) 4160 with
      | .ok pkt => some pkt
      | _ => none
    | _ => none
  | _ => none

theorem sealedPacket_some {s : Session} {msg pkt : Bytes} (h : sealedPacket e s msg = some pkt) : SealedBy e s msg pkt := by
  unfold sealedPacket at h
  split at h
  · rename_i app h1
    split at h
    · rename_i rec h2
      split at h
      · rename_i h3; cases h; exact ⟨app, rec, h1, h2, h3⟩
      · cases h
    · cases h
  · cases h

/-- the context after a packet in the concrete environment. -/
def toyThen (c : Ctx) (rx : Bytes) : Ctx := (after? Toy.env c rx).getD c

/-- the answer is `rsp`, sealed for the session in slot 0. -/
def toyTold (c : Ctx) (rx rsp : Bytes) : Prop :=
  (after? Toy.env c rx).isSome = true ∧ c.session? 0xFFFD0007 = some (Toy.slot 0 c) ∧ rsp[1]? ≠ some 0x7F ∧
    ∃ p ∈ sealedPacket Toy.env (Toy.slot 0 c) rsp, (toyThen c rx).sent = c.sent ++ [p]
instance (c : Ctx) (rx rsp : Bytes) : Decidable (toyTold c rx rsp) := by unfold toyTold; infer_instance

theorem toyTold.out {c : Ctx} {rx rsp : Bytes} (h : toyTold c rx rsp) : processMessage Toy.env rx c = .ok true (toyThen c rx) ∧
    c.session? 0xFFFD0007 = some (Toy.slot 0 c) ∧ AnsweredIn Toy.env (Toy.slot 0 c) c (toyThen c rx) ∧ SealedOne Toy.env (Toy.slot 0 c) rsp c (toyThen c rx) := by
  obtain ⟨h1, h2, h3, p, h4, h5⟩ := h
  obtain ⟨c', hc'⟩ := Option.isSome_iff_exists.1 h1
  have ha : toyThen c rx = c' := by unfold toyThen; rw [hc']; rfl
  have hs := sealedPacket_some (Option.mem_def.1 h4)
  refine ⟨by rw [ha]; exact after?_ok hc', h2, ⟨p, h5, ?_⟩, p, hs, h5⟩
  rintro b ⟨v, t, rfl⟩ hb
  have := toy_sealLaw _ _ _ _ hb hs
  subst this
  exact h3 rfl

/-- unsigned GET_MEASUREMENTS of everything, inside the session. -/
def inMeas (c : Ctx) : Bytes := Toy.sealIn 0 c ([8] ++ (measurementsPacket false).drop 1)
def inC1 : Ctx := toyThen toyOpened (inMeas toyOpened)
def inC2 : Ctx := toyThen inC1 digestsPacket
def inSigned : Bytes := Toy.sealIn 0 inC2 ([8] ++ (measurementsPacket true).drop 1)

def inAnswer : Bytes := [0x12, 0x60, 0, 0, 1, 4, 0, 0, 0xFF, 1, 2, 3] ++ List.replicate 32 0x5A ++ [0, 0]

/-- a session in which unsigned measurements were read, and digests outside of it; the hypotheses of `C59_transcript` are met. -/
def toySessionTalks : Prop :=
  Reachable 2 toyOpened ∧ (∃ s0, toyOpened.session? 0xFFFD0007 = some s0 ∧ s0.state = .established ∧ s0.l1l2 = none) ∧
    SessionTalk 2 0xFFFD0007 toyOpened [.measurements false [0x12, 0xE0, 0, 0xFF] inAnswer] inC2 ∧
    ∃ c1 c' s, Opens Toy.env inSigned inC2 0xFFFD0007 ([0x12, 0xE0, 1, 0xFF] ++ List.replicate 32 9 ++ [0]) false c1 ∧ inC2.session? 0xFFFD0007 = some s ∧
      processMessage Toy.env inSigned inC2 = .ok true c' ∧ AnsweredIn Toy.env s inC2 c' ∧
      IsGetMeasurements ([0x12, 0xE0, 1, 0xFF] ++ List.replicate 32 9 ++ [0]) ([0x12, 0xE0, 1, 0xFF] ++ List.replicate 32 9 ++ [0]) true

theorem toy_elsewhere : Elsewhere Toy.env digestsPacket 0xFFFD0007 := by
  have h : received Toy.env digestsPacket = some ([0x12, 0x81, 0, 0], false) := by decide +kernel
  refine ⟨?_, ?_⟩
  · rintro ⟨_, _, _, _, _, h', -⟩
    rw [h] at h'
    cases h'
  · intro v k t hp
    unfold Plain at hp
    rw [h] at hp
    cases hp
    decide

/-- the signed answer. -/
def inSignedAnswer : Bytes := [0x12, 0x60, 0, 0, 1, 4, 0, 0, 0xFF, 1, 2, 3] ++ List.replicate 32 0x5A ++ [0, 0] ++
  ((Toy.env.crypto.hash inC2.neg.baseHash (inC2.rt.messageA ++ [0x12, 0xE0, 0, 0xFF] ++ inAnswer ++ ([0x12, 0xE0, 1, 0xFF] ++ List.replicate 32 9 ++ [0]) ++ inAnswer)).bind
    fun d => Toy.env.sign inC2.neg.baseHash inC2.neg.baseAsym (Spec.signedData .measurements d)).getD []

theorem toy_t1 : toyTold toyOpened (inMeas toyOpened) inAnswer := by decide +kernel
theorem toy_t2 : toyTold inC2 inSigned inSignedAnswer := by decide +kernel
theorem toy_o1 : openedAs Toy.env (inMeas toyOpened) toyOpened = some (0xFFFD0007, [0x12, 0xE0, 0, 0xFF], false) := by decide +kernel
theorem toy_o2 : openedAs Toy.env inSigned inC2 = some (0xFFFD0007, [0x12, 0xE0, 1, 0xFF] ++ List.replicate 32 9 ++ [0], false) := by decide +kernel
theorem toy_d1 : (after? Toy.env inC1 digestsPacket).isSome = true := by decide +kernel
theorem toy_s0 : (Toy.slot 0 toyOpened).state = .established ∧ (Toy.slot 0 toyOpened).l1l2 = none := by decide +kernel
theorem toy_reach : Reachable 2 toyOpened := toyRun_reachable toyPackets (by decide +kernel)
theorem inC1_eq : inC1 = toyThen toyOpened (inMeas toyOpened) := rfl
theorem inC2_eq : inC2 = toyThen inC1 digestsPacket := rfl

theorem toy_get1 : IsGetMeasurements [0x12, 0xE0, 0, 0xFF] [0x12, 0xE0, 0, 0xFF] false := ⟨0x12, 0, 0xFF, 0, List.replicate 32 0, [], rfl, by decide, by simp, by decide⟩
theorem toy_get2 : IsGetMeasurements ([0x12, 0xE0, 1, 0xFF] ++ List.replicate 32 9 ++ [0]) ([0x12, 0xE0, 1, 0xFF] ++ List.replicate 32 9 ++ [0]) true :=
  ⟨0x12, 1, 0xFF, 0, List.replicate 32 9, [], by rw [List.append_nil], by decide, by rw [List.length_replicate], by decide⟩

/-- what the responder does with a request inside the session. -/
def inRefused : Option Ctx := Toy.runAll Toy.env toyOpened [Toy.sealIn 0 toyOpened [8, 0x12, 0xE0, 0, 9]]

/-- C59 fails for a request that is refused: asked inside an established session, whose L1/L2 is empty, for a measurement it does not have, the responder answers
ERROR (InvalidRequest), sealed, and keeps message A and the request in the L1/L2 of that session, to be signed with the next measurements (finding F27). -/
theorem C59_refused_violated :
    (Toy.slot 0 toyOpened).state = .established ∧ (Toy.slot 0 toyOpened).l1l2 = none ∧
    (∃ p ∈ sealedPacket Toy.env (Toy.slot 0 toyOpened) [0x12, 0x7F, 1, 0], inRefused.map (·.sent) = some (toyOpened.sent ++ [p])) ∧
    inRefused.map (fun c => (Toy.slot 0 c).l1l2.map (·.data)) = some (some (toyOpened.rt.messageA ++ [0x12, 0xE0, 0, 9])) := by
  decide +kernel

attribute [local irreducible] toyOpened inC1 inC2 inMeas inSigned inAnswer inSignedAnswer toyThen Toy.slot

theorem toy_session : toySessionTalks := by
  obtain ⟨p1, p2, p3, p4⟩ := toy_t1.out
  obtain ⟨q1, q2, q3, -⟩ := toy_t2.out
  obtain ⟨d1, o1⟩ := openedAs_some toy_o1
  obtain ⟨d2, o2⟩ := openedAs_some toy_o2
  obtain ⟨c2, hc2⟩ := Option.isSome_iff_exists.1 toy_d1
  have hc2' : inC2 = c2 := by rw [inC2_eq]; unfold toyThen; rw [hc2]; rfl
  rw [← inC1_eq] at p1 p3 p4
  have hstep : SessionTalk 2 0xFFFD0007 toyOpened [.measurements false [0x12, 0xE0, 0, 0xFF] inAnswer] inC1 :=
    SessionTalk.measurements (h := []) (v := 0x12) (t := [0, 0xFF]) .start toy_laws toy_sealLaw o1 p2 p1 p3 toy_get1 p4
  have hnext : SessionTalk 2 0xFFFD0007 toyOpened [.measurements false [0x12, 0xE0, 0, 0xFF] inAnswer] inC2 :=
    hstep.elsewhere toy_laws toy_elsewhere (.inl ⟨true, by rw [hc2']; exact after?_ok hc2⟩)
  exact ⟨toy_reach, ⟨_, p2, toy_s0⟩, hnext, d2, _, _, o2, q2, q1, q3, toy_get2⟩

/-- GET_CERTIFICATE and GET_DIGESTS inside the session are answered (`C59_certificate`, `C59_digests_partial`). -/
theorem toy_certificate : toyTold (toyRun toyPackets) (Toy.sealIn 0 (toyRun toyPackets) [8, 0x12, 0x82, 0, 0, 0, 0, 16, 0])
    (certMessage 0x12 (((toyRun toyPackets).prov.chain 0).getD []) 0 16) := by decide +kernel
theorem toy_digests : toyTold (toyRun toyPackets) (Toy.sealIn 0 (toyRun toyPackets) [8, 0x12, 0x81, 0, 0])
    ([0x12, 0x01, 0, 1] ++ (Toy.env.crypto.hash (toyRun toyPackets).neg.baseHash (((toyRun toyPackets).prov.chain 0).getD [])).getD []) := by decide +kernel

end Verif.Props
