/-
What the requester sends is as large as the responder allows.
-/
import Verif.Responder.Sizes
import Verif.Requester.History

namespace Verif
namespace Req
open Rsp

variable {e : REnv} {sid : Option UInt32}

/-- packets were only added, all within the limit the responder set, which is the same as before. -/
def Fitting (e : REnv) (c c' : Ctx) : Prop :=
  c'.neg.rspDts = c.neg.rspDts ∧ ∃ l, c'.sent = c.sent ++ l ∧ ∀ p ∈ l, Within e.toEnv c.neg.rspDts p

instance : M.Pre (Fitting e) where
  refl _ := ⟨rfl, [], by simp, by simp⟩
  trans h h' := by
    obtain ⟨h1, l, h2, h3⟩ := h
    obtain ⟨g1, k, g2, g3⟩ := h'
    refine ⟨g1.trans h1, l ++ k, by rw [g2, h2, List.append_assoc], fun p hp => ?_⟩
    rcases List.mem_append.1 hp with hp | hp
    · exact h3 p hp
    · rw [h1] at g3; exact g3 p hp

theorem fit_silent {c c' : Ctx} (h : Silent c c') : Fitting e c c' := ⟨by rw [h.1], [], by simp [h.2], by simp⟩
theorem fit_of {α : Type} {x : M Status Ctx α} (h : M.Rel Silent x) : M.Rel (Fitting e) x := h.mono fun _ _ => fit_silent

theorem mute_of {ε α : Type} {x : M ε Ctx α} (h : M.Rel Unsent x) (h' : M.Rel (Frame true sid) x) : M.Rel Silent x := fun c =>
  ((h c).and (h' c)).mono (fun _ _ g => ⟨g.2.neg rfl, g.1⟩) (fun _ _ g => ⟨g.2.neg rfl, g.1⟩)

/-! ### sending -/

theorem fit_devSend {p : Bytes} {c0 c : Ctx} (hs : Silent c0 c) (hp : Within e.toEnv c0.neg.rspDts p) :
    (Ctx.devSend e.toEnv p).wp c (fun _ => Fitting e c0) (fun _ => Fitting e c0) := by
  unfold Ctx.devSend
  simp only [M.wp_bind, M.wp_get, M.wp_set]
  have : Fitting e c0 { c with sent := c.sent ++ [p] } := ⟨by show c.neg.rspDts = _; rw [hs.1], [p], by show c.sent ++ [p] = _; rw [hs.2], by simpa using hp⟩
  cases e.send c.sent.length p with
  | none => exact this
  | some st => exact this

theorem fit_sendMessage (b : Bytes) : M.Rel (Fitting e) (sendMessage e b) := by
  intro c
  unfold sendMessage
  rw [M.wp_bind, M.wp_get]
  by_cases h : c.neg.rspDts ≠ 0 ∧ c.neg.rspDts.toNat < b.length
  · rw [if_pos h]; exact M.Pre.refl (R := Fitting e) c
  · rw [if_neg h, M.wp_bind]
    cases hp : Ctx.encap e.toEnv b with
    | err st => exact M.Pre.refl (R := Fitting e) c
    | panic => trivial
    | ok pkt =>
      refine fit_devSend (M.Pre.refl (R := Silent) c) ⟨b, false, .inl ⟨rfl, hp⟩, .inr ?_⟩
      by_cases h0 : c.neg.rspDts = 0
      · exact .inl h0
      · exact .inr (Nat.le_of_not_lt fun hh => h ⟨h0, hh⟩)

theorem mute_encodeSecured (i : UInt32) (msg : Bytes) (isReq isApp : Bool) : M.Rel Silent (Ctx.encodeSecured e.toEnv i msg isReq isApp) := by
  unfold Ctx.encodeSecured
  repeat' (first | exact M.Rel.lift _ | exact Rsp.still_onSession _ _ (M.Rel.fail _) | apply M.Rel.bind | intro _)

theorem fit_sendSecured (i : UInt32) (b : Bytes) (isApp : Bool) : M.Rel (Fitting e) (sendSecured e i b isApp) := by
  intro c
  unfold sendSecured
  rw [M.wp_bind, M.wp_get]
  by_cases h : isApp = false ∧ c.neg.rspDts ≠ 0 ∧ c.neg.rspDts.toNat < b.length
  · rw [if_pos h]; exact M.Pre.refl (R := Fitting e) c
  · rw [if_neg h, M.wp_bind]
    have hs := mute_encodeSecured (e := e) i b true isApp c
    unfold M.wp
    cases hp : Ctx.encodeSecured e.toEnv i b true isApp c with
    | panic => trivial
    | err st c1 => exact fit_silent (hs.err hp)
    | ok pkt c1 =>
      refine fit_devSend (hs.ok hp) ⟨b, isApp, carried_of hp, ?_⟩
      cases isApp with
      | true => exact .inl rfl
      | false =>
        by_cases h0 : c.neg.rspDts = 0
        · exact .inr (.inl h0)
        · exact .inr (.inr (Nat.le_of_not_lt fun hh => h ⟨rfl, h0, hh⟩))

/-! ### everything else -/

theorem mute_encodeAs (v : SpdmVersion) (k : ReqRespCode) (p : Payload) : M.Rel Silent (encodeAs v k p) := by
  intro c
  unfold M.wp encodeAs
  cases Msg.encode c.cc ⟨⟨v, k⟩, p⟩ (Writer.init 4096) with
  | panic => trivial
  | err _ _ => exact M.Pre.refl (R := Silent) c
  | ok n w =>
    dsimp only
    by_cases hn : n ≤ 4096
    · rw [if_pos hn]; exact M.Pre.refl (R := Silent) c
    · rw [if_neg hn]; trivial
theorem mute_encodeReq (k : ReqRespCode) (p : Payload) : M.Rel Silent (encodeReq k p) := M.Rel.bind M.Rel.get fun _ => mute_encodeAs _ _ _
theorem mute_receive : M.Rel Silent (receive e) := by unfold receive; rel
theorem mute_receiveMessage : M.Rel Silent (receiveMessage e) := .bind mute_receive fun _ => .lift _
theorem mute_receiveSecured (i : UInt32) : M.Rel Silent (receiveSecured e i) := by
  unfold receiveSecured Ctx.decodeSecured
  refine .bind mute_receive fun _ => ?_
  rel
  exact Rsp.still_onSession _ _ (.fail _)
theorem fit_transact (b : Bytes) : M.Rel (Fitting e) (transact e sid b) := by
  cases sid with
  | none => exact .bind (fit_sendMessage _) fun _ => fit_of mute_receiveMessage
  | some i => exact .bind (fit_sendSecured _ _ _) fun _ => fit_of (mute_receiveSecured _)

theorem mute_errorPayload {α : Type} (p : UInt8) : M.Rel Silent (errorPayload sid p : M Status Ctx α) := by
  unfold errorPayload
  apply M.Rel.ite <;> intro _
  · cases sid with
    | none => exact .fail _
    | some i => exact .bind (Rsp.still_onSession _ _ (.fail _)) fun _ => .fail _
  · unfold simpleError
    rel
    cases sid with
    | none => exact .fail _
    | some i => exact .bind (Rsp.still_onSession _ _ (.fail _)) fun _ => .fail _
theorem mute_sort (k : ReqRespCode) (bytes : Bytes) (h : Header) (r : Reader) : M.Rel Silent (sort sid k bytes h r) := by
  unfold sort handleError
  rel
  exact mute_errorPayload _
theorem mute_expect (k : ReqRespCode) (bytes : Bytes) : M.Rel Silent (expect sid k bytes) := by
  unfold expect
  rel
  exact mute_sort _ _ _ _
theorem mute_expectAny (k : ReqRespCode) (bytes : Bytes) : M.Rel Silent (expectAnyVersion sid k bytes) := by
  unfold expectAnyVersion
  rel
  exact mute_sort _ _ _ _
theorem mute_readMsg {α : Type} (x : Cc → Rd α) (bytes : Bytes) (r : Reader) : M.Rel Silent (Rsp.readMsg x bytes r) := by
  unfold Rsp.readMsg; rel
theorem mute_resetBuffers {ε : Type} (k : ReqRespCode) : M.Rel Silent (M.modify (Ctx.resetBuffers k sid) : M ε Ctx Unit) :=
  mute_of (ns_resetBuffers _ _) (Ctx.rel_resetBuffers (sid := sid) _)
theorem mute_appendB (msg : Bytes) : M.Rel Silent (Ctx.appendB e.toEnv msg) := mute_of (ns_appendB _) (Ctx.rel_appendB (sid := none) _)
theorem mute_appendC (msg : Bytes) : M.Rel Silent (Ctx.appendC e.toEnv msg) := mute_of (ns_appendC _) (Ctx.rel_appendC (sid := none) _)
theorem mute_appendM (msg : Bytes) : M.Rel Silent (Ctx.appendM e.toEnv sid msg) := mute_of (ns_appendM _) (Ctx.rel_appendM (sid := sid) _)
theorem mute_appendK (i : UInt32) (msg : Bytes) : M.Rel Silent (Ctx.appendK e.toEnv i msg) := mute_of (ns_appendK _) (rel_appendK _)
theorem mute_appendF (r : Bool) (i : UInt32) (msg : Bytes) : M.Rel Silent (Ctx.appendF e.toEnv r i msg) := mute_of (ns_appendF _ _) (rel_appendF _ _)
theorem mute_appendA (msg : Bytes) : M.Rel Silent (Ctx.appendA msg) := by
  intro c
  unfold Ctx.appendA
  rw [M.wp_bind, M.wp_get, M.wp_ite]
  exact ⟨fun _ => ⟨rfl, rfl⟩, fun _ => ⟨rfl, rfl⟩⟩
theorem mute_appendBBoth (req rsp : Bytes) : M.Rel Silent (appendBBoth e sid req rsp) := by
  unfold appendBBoth
  cases sid with
  | none => exact .bind (mute_appendB _) fun _ => mute_appendB _
  | some i => exact .pure _
theorem mute_thOf (i : UInt32) : M.Rel Silent (thOf e i) := by
  unfold thOf
  exact .bind .get fun _ => .bind (.unwrap _) fun _ => .lift _

/-- follow the structure of an operation. -/
macro "fits" : tactic => `(tactic|
  repeat' (first
    | with_reducible assumption
    | with_reducible first
      | exact M.Rel.pure _ | exact M.Rel.panic | exact M.Rel.fail _ | exact M.Rel.unwrap _ | exact M.Rel.ofOption _ _
      | exact M.Rel.get | exact M.Rel.lift _
      | exact fit_transact _ | exact fit_sendMessage _ | exact fit_sendSecured _ _ _
      | exact fit_of (mute_encodeReq _ _) | exact mute_encodeReq _ _
      | exact fit_of mute_receiveMessage | exact fit_of (mute_receiveSecured _) | exact mute_receiveMessage | exact mute_receiveSecured _
      | exact fit_of (mute_readMsg _ _ _) | exact mute_readMsg _ _ _ | exact fit_of (mute_expect _ _) | exact mute_expect _ _
      | exact fit_of (mute_expectAny _ _) | exact mute_expectAny _ _ | exact fit_of (mute_resetBuffers _) | exact mute_resetBuffers _
      | exact mute_appendC _ | exact mute_appendM _ | exact mute_appendK _ _ | exact mute_appendF _ _ _ | exact mute_appendBBoth _ _ | exact mute_thOf _
      | exact fit_of (mute_appendBBoth _ _)
      | apply Rsp.still_onSession
      | apply M.Rel.mapErr | apply M.Rel.try' | apply M.Rel.ite | apply M.Rel.bind
      | intro _))

theorem fit_getDigests : M.Rel (Fitting e) (getDigests e sid) := by
  unfold getDigests handleDigests
  fits

theorem fit_getCertificatePartial (slot : UInt8) (total offset length : UInt16) : M.Rel (Fitting e) (getCertificatePartial e sid slot total offset length) := by
  unfold getCertificatePartial
  refine .bind (fit_of (mute_encodeReq _ _)) fun req => .bind (fit_transact _) fun bytes => fit_of ?_
  unfold handleCertificate
  refine .bind (mute_expect _ _) fun r => .bind (mute_readMsg _ _ _) fun ⟨m, rsp⟩ => ?_
  dsimp only
  refine .ite (fun _ => .fail _) fun _ => .ite (fun _ => .fail _) fun _ => ?_
  intro c
  rw [M.wp_bind, M.wp_get, M.wp_bind, M.wp_ofOption]
  cases c.peer.temp with
  | none => exact ⟨fun _ h => by (cases h), fun _ => M.Pre.refl c⟩
  | some temp =>
    refine ⟨fun a _ => ?_, fun h => by cases h⟩
    rw [M.wp_bind, M.wp_set]
    have h1 : Silent c { c with peer := { c.peer with temp := some (storePortion offset m a) } } := ⟨rfl, rfl⟩
    have h2 : M.Rel Silent (do appendBBoth e sid req rsp; pure (m.portion, m.remainder) : M Status Ctx (UInt16 × UInt16)) := by fits
    exact (h2 _).mono (fun _ _ h => M.Pre.trans h1 h) (fun _ _ h => M.Pre.trans h1 h)

theorem fit_certificateLoop (slot : UInt8) (fuel : Nat) (total offset length : UInt16) : M.Rel (Fitting e) (certificateLoop e sid slot fuel total offset length) := by
  induction fuel generalizing total offset length with
  | zero => exact .panic
  | succ fuel ih =>
    unfold certificateLoop
    exact .ite (fun _ => .pure _) fun _ => .bind (fit_getCertificatePartial _ _ _ _) fun ⟨a, b⟩ => ih _ _ _

theorem fit_getCertificate (fuel : Nat) (slot : UInt8) : M.Rel (Fitting e) (getCertificate e fuel sid slot) := by
  unfold getCertificate
  refine .bind (.ofOption _ _) fun i => .bind (fit_of (mute_resetBuffers _)) fun _ => .bind (.modify fun _ => fit_silent ⟨rfl, rfl⟩) fun _ =>
    .bind (fit_certificateLoop _ _ _ _ _) fun total => fit_of ?_
  unfold storeChain
  intro c
  rw [M.wp_bind, M.wp_get, M.wp_ite]
  refine ⟨fun _ => ?_, fun _ => ?_⟩
  · rw [M.wp_bind, M.wp_set]; exact ⟨rfl, rfl⟩
  · cases verifyChain e c with
    | panic => trivial
    | ok u => exact ⟨rfl, rfl⟩
    | err st => dsimp only; rw [M.wp_bind, M.wp_set]; exact ⟨rfl, rfl⟩

theorem fit_challenge (slot : UInt8) (t : SummaryHashType) : M.Rel (Fitting e) (challenge e slot t) := by
  unfold challenge
  refine .ite (fun _ => .fail _) fun _ => .bind (fit_of (mute_resetBuffers _)) fun _ => .bind (.ofOption _ _) fun _ =>
    .bind (fit_of (mute_encodeReq _ _)) fun req => .bind (fit_transact _) fun rsp => fit_of ?_
  unfold handleChallengeAuth
  refine .bind (.modify fun c => ⟨rfl, rfl⟩) fun _ => .bind (mute_expect _ _) fun r => .bind (mute_readMsg _ _ _) fun ⟨m, b⟩ => ?_
  refine .bind .get fun c => .bind (.unwrap _) fun _ => .bind (.lift _) fun _ => .bind (mute_appendC _) fun _ => .bind (mute_appendC _) fun _ => ?_
  unfold challengeCheck
  intro c
  rw [M.wp_bind, M.wp_get]
  cases challengeVerify e slot m.signature c with
  | panic => trivial
  | ok u => exact ⟨rfl, rfl⟩
  | err st => dsimp only; rw [M.wp_bind, M.wp_modify]; exact ⟨rfl, rfl⟩

theorem mute_resetM (c : Ctx) : Silent c (Ctx.resetM sid c) := by cases sid <;> exact ⟨rfl, rfl⟩

theorem fit_getMeasurements (slot attr : UInt8) (op : MeasOperation) : M.Rel (Fitting e) (getMeasurements e sid slot attr op) := by
  unfold getMeasurements
  refine .ite (fun _ => .fail _) fun _ => .bind (fit_of (mute_resetBuffers _)) fun _ => .bind (.ofOption _ _) fun _ =>
    .bind (fit_of (mute_encodeReq _ _)) fun req => .bind (fit_transact _) fun rsp => fit_of ?_
  unfold handleMeasurements
  refine .bind (.modify fun c => ⟨rfl, rfl⟩) fun _ => .bind (mute_expect _ _) fun r => .bind (mute_readMsg _ _ _) fun ⟨m, b⟩ => ?_
  refine .bind (.modify fun c => ?_) fun _ => .bind .get fun c => .bind (.unwrap _) fun _ => .bind (.lift _) fun _ => .bind (mute_appendM _) fun _ =>
    .bind (mute_appendM _) fun _ => .bind ?_ fun _ => .pure _
  · unfold noteChanged
    split <;> exact ⟨rfl, rfl⟩
  unfold measurementCheckIf
  refine .ite (fun _ => ?_) fun _ => .pure _
  unfold measurementCheck
  intro c
  rw [M.wp_bind, M.wp_get]
  cases measurementVerify e sid slot m.signature c with
  | panic => trivial
  | ok u => exact mute_resetM c
  | err st => dsimp only; rw [M.wp_bind, M.wp_modify]; exact mute_resetM c

/-! ### sessions -/

theorem mute_closeAnd {α : Type} (i : UInt32) (st : Status) : M.Rel Silent (closeAnd i st : M Status Ctx α) :=
  .bind (Rsp.still_onSession _ _ .panic) fun _ => .fail _

theorem mute_responseCheck (i : UInt32) (mac : Bytes) : M.Rel Silent (responseCheck e i mac) := by
  unfold responseCheck
  refine .bind (mute_thOf _) fun _ => .bind .get fun _ => .bind (.unwrap _) fun _ => .ite (fun _ => mute_closeAnd _ _) fun _ => .bind (.try' (mute_appendK _ _)) fun r => ?_
  cases r with
  | ok _ => exact .pure _
  | error _ => exact mute_closeAnd _ _

theorem mute_establish (i : UInt32) : M.Rel Silent (establish e i) := by
  unfold establish
  exact .bind (mute_thOf _) fun _ => .bind .get fun _ => .bind (Rsp.still_onSession _ _ .panic) fun _ => Rsp.still_onSession _ _ .panic

theorem mute_keyExchangeBody (i : UInt32) (slot version : UInt8) (m : KeyExRsp) (req rsp : Bytes) : M.Rel Silent (keyExchangeBody e slot m req rsp i version) := by
  unfold keyExchangeBody
  refine .bind .get fun c => .bind (.unwrap _) fun _ => .bind (.unwrap _) fun _ => .bind (.lift _) fun _ => .bind (mute_appendK _ _) fun _ => .bind (mute_appendK _ _) fun _ =>
    .bind ?_ fun _ => .bind (mute_appendK _ _) fun _ => .bind (mute_thOf _) fun _ => .bind (Rsp.still_onSession _ _ .panic) fun _ => .bind ?_ fun _ => .bind (Rsp.still_onSession _ _ .panic) fun _ => .bind ?_ fun _ => .pure _
  · unfold keyExchangeCheck
    intro c
    rw [M.wp_bind, M.wp_get]
    cases keyExchangeVerify e i slot m.signature c with
    | panic => trivial
    | ok u => exact M.Pre.refl (R := Silent) c
    | err st => exact M.Pre.refl (R := Silent) c
  · unfold keyExchangeHmac
    exact .ite (fun _ => .pure _) fun _ => mute_responseCheck _ _
  · unfold Rsp.rememberSession
    exact .ite (fun _ => .modify fun c => ⟨rfl, rfl⟩) fun _ => .pure _

theorem mute_pskExchangeBody (i : UInt32) (version : UInt8) (m : PskExRsp) (req rsp : Bytes) : M.Rel Silent (pskExchangeBody e m req rsp i version) := by
  unfold pskExchangeBody
  refine .bind .get fun c => .bind (.unwrap _) fun _ => .bind (.lift _) fun _ => .bind (mute_appendK _ _) fun _ => .bind (mute_appendK _ _) fun _ =>
    .bind (mute_thOf _) fun _ => .bind (Rsp.still_onSession _ _ .panic) fun _ => .bind (mute_responseCheck _ _) fun _ => .bind (Rsp.still_onSession _ _ .panic) fun _ => .bind ?_ fun _ => .bind (Rsp.still_onSession _ _ .panic) fun _ => .pure _
  unfold pskEstablish
  exact .ite (fun _ => mute_establish _) fun _ => .pure _

theorem fit_keyExchange (slot : UInt8) (t : SummaryHashType) : M.Rel (Fitting e) (keyExchange e slot t) := by
  unfold keyExchange
  refine .ite (fun _ => .fail _) fun _ => .bind .get fun c => .bind (.lift _) fun _ => .bind (fit_of (mute_resetBuffers _)) fun _ => .bind (.ofOption _ _) fun _ =>
    .bind (.ofOption _ _) fun ⟨exchange, final⟩ => .bind (.ofOption _ _) fun _ => .bind (fit_of (mute_encodeReq _ _)) fun _ => .bind (fit_transact _) fun _ => fit_of ?_
  unfold handleKeyExchange
  refine .bind (.modify fun c => ⟨rfl, rfl⟩) fun _ => .bind (mute_expect _ _) fun r => .bind (mute_readMsg _ _ _) fun ⟨m, b⟩ => ?_
  exact .bind .get fun _ => .bind (.ofOption _ _) fun _ => .bind (.lift _) fun _ => .bind (.unwrap _) fun _ => .bind (.ofOption _ _) fun _ =>
    .bind (Rsp.still_onSession _ _ (.fail _)) fun _ => mute_keyExchangeBody _ _ _ _ _ _

theorem fit_pskExchange (t : SummaryHashType) (hint : Bytes) : M.Rel (Fitting e) (pskExchange e t hint) := by
  unfold pskExchange
  refine .bind (fit_of (mute_resetBuffers _)) fun _ => .bind .get fun c => .bind (.lift _) fun _ => .bind (.ofOption _ _) fun _ => .bind (.ofOption _ _) fun _ =>
    .bind (.unwrap _) fun _ => .bind (fit_of (mute_encodeReq _ _)) fun _ => .bind (fit_transact _) fun _ => fit_of ?_
  unfold handlePskExchange
  refine .bind (.modify fun c => ⟨rfl, rfl⟩) fun _ => .bind (mute_expect _ _) fun r => .bind (mute_readMsg _ _ _) fun ⟨m, b⟩ => ?_
  exact .bind .get fun _ => .bind (.lift _) fun _ => .bind (Rsp.still_onSession _ _ (.fail _)) fun _ => mute_pskExchangeBody _ _ _ _ _

theorem fit_orClose {α : Type} {i : UInt32} {x : M Status Ctx α} (h : M.Rel (Fitting e) x) : M.Rel (Fitting e) (orClose i x) := by
  unfold orClose
  refine .bind (.try' h) fun r => ?_
  cases r with
  | ok a => exact .pure _
  | error st => exact fit_of (mute_closeAnd _ _)

theorem fit_orCloseIf {α : Type} {i : UInt32} {x : M Status Ctx α} (h : M.Rel (Fitting e) x) : M.Rel (Fitting e) (orCloseIf i x) := by
  unfold orCloseIf
  refine .bind (.try' h) fun r => ?_
  cases r with
  | ok a => exact .pure _
  | error st => exact .bind (fit_of (Rsp.still_onSession _ _ (.pure _))) fun _ => .fail _

theorem mute_requestHmac (i : UInt32) (b : Bytes) : M.Rel Silent (requestHmac e i b) := by
  unfold requestHmac
  exact .bind (mute_thOf _) fun _ => .bind .get fun _ => .bind (.unwrap _) fun _ => .bind (.unwrap _) fun _ => .bind (.lift _) fun _ => .bind (mute_appendF _ _ _) fun _ => .lift _

theorem mute_encodeFinish (i : UInt32) (slot : UInt8) : M.Rel Silent (encodeFinish e i slot) := by
  unfold encodeFinish
  refine .bind .get fun _ => .bind (.ofOption _ _) fun _ => .bind (.lift _) fun _ => .bind (.unwrap _) fun _ => .bind (mute_encodeReq _ _) fun _ => .bind (mute_appendF _ _ _) fun _ =>
    .bind ?_ fun _ => mute_requestHmac _ _
  unfold finishSignature
  exact .bind .get fun _ => .bind (.ofOption _ _) fun _ => .ite (fun _ => .bind (.lift _) fun _ => .bind (.lift _) fun _ => .bind (mute_appendF _ _ _) fun _ => .pure _) fun _ => .pure _

theorem mute_finishTranscript (inClear : Bool) (hs : Nat) (i : UInt32) (mac rsp : Bytes) : M.Rel Silent (finishTranscript e inClear hs i mac rsp) := by
  unfold finishTranscript
  exact .ite (fun _ => .bind (.lift _) fun _ => .bind (mute_appendF _ _ _) fun _ => .bind (mute_thOf _) fun _ => .bind .get fun _ => .bind (.unwrap _) fun _ =>
    .ite (fun _ => .fail _) fun _ => mute_appendF _ _ _) fun _ => mute_appendF _ _ _

theorem mute_handleFinish (i : UInt32) (bytes : Bytes) : M.Rel Silent (handleFinish e i bytes) := by
  unfold handleFinish
  refine .bind .get fun _ => .bind (.ofOption _ _) fun _ => .bind (mute_expectAny _ _) fun _ => .bind (mute_readMsg _ _ _) fun ⟨mac, rsp⟩ => ?_
  exact .bind (.unwrap _) fun _ => .bind (mute_finishTranscript _ _ _ _ _) fun _ => .bind (mute_establish _) fun _ => .modify fun c => ⟨rfl, rfl⟩

theorem fit_finish (slot : Option UInt8) (i : UInt32) : M.Rel (Fitting e) (finish e slot i) := by
  unfold finish
  refine .bind .get fun c => .bind (.ofOption _ _) fun _ => .bind (.ofOption _ _) fun _ => .bind (fit_of (mute_resetBuffers _)) fun _ => .bind (fit_orClose (fit_of (mute_encodeFinish _ _))) fun _ =>
    .bind (fit_orClose ?_) fun _ => .bind (fit_orClose (fit_of ?_)) fun _ => fit_orCloseIf (fit_of (mute_handleFinish _ _))
  · unfold finishSend
    exact .ite (fun _ => fit_sendMessage _) fun _ => fit_sendSecured _ _ _
  · unfold finishReceive
    exact .ite (fun _ => mute_receiveMessage) fun _ => mute_receiveSecured _

theorem fit_pskFinish (i : UInt32) : M.Rel (Fitting e) (pskFinish e i) := by
  unfold pskFinish
  refine .bind .get fun c => .bind (.ofOption _ _) fun _ => .bind (fit_of (mute_resetBuffers _)) fun _ => .bind (fit_orClose (fit_of ?_)) fun _ =>
    .bind (fit_orClose (fit_sendSecured _ _ _)) fun _ => .bind (fit_orClose (fit_of (mute_receiveSecured _))) fun _ => fit_orCloseIf (fit_of ?_)
  · unfold encodePskFinish
    exact .bind .get fun _ => .bind (.unwrap _) fun _ => .bind (mute_encodeReq _ _) fun _ => .bind (.lift _) fun _ => .bind (mute_appendF _ _ _) fun _ => mute_requestHmac _ _
  · unfold handlePskFinish
    exact .bind (mute_expect _ _) fun _ => .bind (mute_readMsg _ _ _) fun ⟨_, rsp⟩ => .bind (mute_appendF _ _ _) fun _ => mute_establish _

theorem fit_heartbeat (i : UInt32) : M.Rel (Fitting e) (heartbeat e i) := by
  unfold heartbeat handleHeartbeat
  fits

theorem fit_keyUpdateOp (i : UInt32) (op : KeyUpdateOp) (tag : UInt8) : M.Rel (Fitting e) (keyUpdateOp e i op tag) := by
  unfold keyUpdateOp
  refine .bind (fit_of (mute_resetBuffers _)) fun _ => .bind (fit_of (mute_encodeReq _ _)) fun _ => .bind (fit_sendSecured _ _ _) fun _ => .bind .get fun _ =>
    .bind (fit_of (Rsp.still_onSession _ _ (.fail _))) fun _ => .bind (fit_of (mute_receiveSecured _)) fun _ => fit_of ?_
  unfold handleKeyUpdate keyUpdateAck
  refine .bind (mute_expect _ _) fun r => ?_
  cases KeyUpd.read r with
  | panic => exact .panic
  | err _ _ => exact .bind (Rsp.still_onSession _ _ (.fail _)) fun _ => .ite (fun _ => .pure _) fun _ => .fail _
  | ok _ _ => exact .bind (Rsp.still_onSession _ _ (.fail _)) fun _ => .ite (fun _ => .pure _) fun _ => .fail _

theorem fit_keyUpdate (i : UInt32) (op : KeyUpdateOp) : M.Rel (Fitting e) (keyUpdate e i op) := by
  unfold keyUpdate
  exact .ite (fun _ => .fail _) fun _ => .bind (fit_keyUpdateOp _ _ _) fun _ => fit_keyUpdateOp _ _ _

theorem fit_endSession (i : UInt32) : M.Rel (Fitting e) (endSession e i) := by
  unfold endSession
  refine .bind (fit_of (mute_resetBuffers _)) fun _ => .bind (fit_of (mute_encodeReq _ _)) fun _ => .bind (fit_transact _) fun _ => fit_of ?_
  unfold handleEndSession
  exact .bind (mute_expect _ _) fun _ => .bind (mute_readMsg _ _ _) fun _ => Rsp.still_onSession _ _ (.fail _)

/-! ### operations that change the limit -/

/-- packets were only added, each within the limit in force before or after. -/
def Bounded (e : REnv) (c c' : Ctx) : Prop :=
  ∃ l, c'.sent = c.sent ++ l ∧ ∀ p ∈ l, Within e.toEnv c.neg.rspDts p ∨ Within e.toEnv c'.neg.rspDts p

theorem Fitting.bounded {c c' : Ctx} (h : Fitting e c c') : Bounded e c c' := by
  obtain ⟨_, l, h2, h3⟩ := h
  exact ⟨l, h2, fun p hp => .inl (h3 p hp)⟩

theorem fit_getVersion : M.Rel (Fitting e) (getVersion e) := by
  unfold getVersion
  refine .bind (fit_of (mute_resetBuffers _)) fun _ => .bind (fit_of (mute_encodeAs _ _ _)) fun _ => .bind (fit_transact _) fun _ => ?_
  unfold handleVersion
  refine .bind (fit_of (mute_expectAny _ _)) fun _ => .bind (fit_of (mute_readMsg _ _ _)) fun ⟨m, rsp⟩ => ?_
  refine .bind (.modify fun c => ⟨rfl, [], by simp, by simp⟩) fun _ => .bind .get fun _ => .ite (fun _ => .fail _) fun _ => ?_
  exact .bind (.modify fun c => fit_silent ⟨rfl, rfl⟩) fun _ => .bind (fit_of (mute_appendA _)) fun _ => fit_of (mute_appendA _)

theorem fit_negotiateAlgorithms : M.Rel (Fitting e) (negotiateAlgorithms e) := by
  unfold negotiateAlgorithms
  refine .bind (fit_of (mute_resetBuffers _)) fun _ => .bind .get fun c => .bind (fit_of (mute_encodeReq _ _)) fun req => .bind (fit_transact _) fun rsp => ?_
  unfold handleAlgorithms
  refine .bind (fit_of (mute_expect _ _)) fun r => .bind (fit_of (mute_readMsg _ _ _)) fun ⟨m, b⟩ => ?_
  intro c
  rw [M.wp_bind, M.wp_get, M.wp_bind, M.wp_set]
  have hd : (takeAlgs m c.neg).1.rspDts = c.neg.rspDts := by
    have hf : ∀ (l : List AlgStruct) (n : Neg), (l.foldl offerAlg n).rspDts = n.rspDts := by
      intro l
      induction l with
      | nil => exact fun _ => rfl
      | cons a l ih =>
        intro n
        rw [List.foldl_cons, ih]
        unfold offerAlg
        split <;> rfl
    unfold takeAlgs
    dsimp only
    split
    · rfl
    · split
      · rfl
      · exact hf _ _
  have h1 : Fitting e c { c with neg := (takeAlgs m c.neg).1 } := ⟨hd, [], by simp, by simp⟩
  have h2 : M.Rel (Fitting e) (if (takeAlgs m c.neg).2 = false then M.fail .negotiationFail else do Ctx.appendA req; Ctx.appendA b : M Status Ctx Unit) :=
    .ite (fun _ => .fail _) fun _ => .bind (fit_of (mute_appendA _)) fun _ => fit_of (mute_appendA _)
  exact (h2 _).mono (fun _ _ h => M.Pre.trans h1 h) (fun _ _ h => M.Pre.trans h1 h)

/-- all packets were sent under the limit in force before. -/
def First (e : REnv) (c c' : Ctx) : Prop := ∃ l, c'.sent = c.sent ++ l ∧ ∀ p ∈ l, Within e.toEnv c.neg.rspDts p

theorem Fitting.first {c c' : Ctx} (h : Fitting e c c') : First e c c' := h.2

theorem first_getCapabilities (c : Ctx) : (getCapabilities e).wp c (fun _ => First e c) (fun _ => First e c) := by
  have hsend : M.Rel (Fitting e) (do
      M.modify (Ctx.resetBuffers .reqGetCapabilities none)
      let c ← M.get
      let req ← encodeReq .reqGetCapabilities (.getCaps (capsRequest c.config))
      let rsp ← transact e none req
      pure (req, rsp) : M Status Ctx (Bytes × Bytes)) :=
    .bind (fit_of (mute_resetBuffers _)) fun _ => .bind .get fun _ => .bind (fit_of (mute_encodeReq _ _)) fun _ => .bind (fit_transact _) fun _ => .pure _
  have hun : ∀ req rsp, M.Rel Unsent (handleCapabilities 0 req rsp) := fun req rsp => by
    unfold handleCapabilities
    refine .bind ((mute_expect _ _).mono fun _ _ h => h.2) fun _ => .bind ((mute_readMsg _ _ _).mono fun _ _ h => h.2) fun ⟨m, b⟩ => ?_
    exact .bind (ns_modify fun _ => rfl) fun _ => .bind (ns_appendA _) fun _ => ns_appendA _
  have heq : getCapabilities e = (do
      M.modify (Ctx.resetBuffers .reqGetCapabilities none)
      let c ← M.get
      let req ← encodeReq .reqGetCapabilities (.getCaps (capsRequest c.config))
      let rsp ← transact e none req
      pure (req, rsp)) >>= fun p => handleCapabilities 0 p.1 p.2 := by
    unfold getCapabilities
    simp only [bind_assoc, pure_bind]
  rw [heq, M.wp_bind]
  refine (hsend c).mono (fun p c1 h1 => ?_) (fun _ c1 h1 => h1.first)
  obtain ⟨_, l, h2, h3⟩ := h1
  exact (hun _ _ c1).mono (fun _ c2 h => ⟨l, by rw [show c2.sent = c1.sent from h, h2], h3⟩) (fun _ c2 h => ⟨l, by rw [show c2.sent = c1.sent from h, h2], h3⟩)

theorem bounded_connect (c : Ctx) : (initConnection e).wp c (fun _ => Bounded e c) (fun _ => Bounded e c) := by
  unfold initConnection
  rw [M.wp_bind]
  refine (fit_getVersion c).mono (fun _ c1 h1 => ?_) (fun _ _ h => h.bounded)
  obtain ⟨d1, l1, s1, w1⟩ := h1
  rw [M.wp_bind]
  refine (first_getCapabilities c1).mono (fun _ c2 h2 => ?_) (fun _ c2 h2 => ?_)
  · obtain ⟨l2, s2, w2⟩ := h2
    refine (fit_negotiateAlgorithms c2).mono (fun _ c3 h3 => ?_) (fun _ c3 h3 => ?_) <;>
    · obtain ⟨d3, l3, s3, w3⟩ := h3
      refine ⟨l1 ++ l2 ++ l3, by rw [s3, s2, s1]; simp, fun p hp => ?_⟩
      rcases List.mem_append.1 hp with hp | hp
      · rcases List.mem_append.1 hp with hp | hp
        · exact .inl (w1 p hp)
        · rw [d1] at w2; exact .inl (w2 p hp)
      · rw [← d3] at w3; exact .inr (w3 p hp)
  · obtain ⟨l2, s2, w2⟩ := h2
    refine ⟨l1 ++ l2, by rw [s2, s1]; simp, fun p hp => ?_⟩
    rcases List.mem_append.1 hp with hp | hp
    · exact .inl (w1 p hp)
    · rw [d1] at w2; exact .inl (w2 p hp)

/-- VENDOR_DEFINED_REQUEST forgets the limit first: only what the encoder can hold bounds it. -/
theorem bounded_vendor (m : Vendor) (c : Ctx) : (vendorRequest e sid m).wp c (fun _ => Bounded e c) (fun _ => Bounded e c) := by
  unfold vendorRequest
  rw [M.wp_bind, M.wp_modify, M.wp_bind, M.wp_modify]
  have hx : M.Rel (Fitting e) (do
      let req ← encodeReq .reqVendorDefinedRequest (.vendorReq m)
      let rsp ← transact e sid req
      handleVendor sid rsp) := by
    refine .bind (fit_of (mute_encodeReq _ _)) fun _ => .bind (fit_transact _) fun _ => fit_of ?_
    unfold handleVendor
    exact .bind (mute_expect _ _) fun _ => .bind (mute_readMsg _ _ _) fun ⟨m, _⟩ => .pure _
  refine (hx _).mono (fun _ c' h => ?_) (fun _ c' h => ?_) <;>
  · obtain ⟨d, l, s, w⟩ := h
    refine ⟨l, ?_, fun p hp => .inr (by rw [d]; exact w p hp)⟩
    rw [s]
    show (Ctx.resetBuffers .reqVendorDefinedRequest sid c).sent ++ l = _
    rw [sent_resetBuffers]

/-- the operations other than connecting and vendor requests keep the limit. -/
def Op.Keeps : Op → Prop
  | .connect => False
  | .vendor _ _ => False
  | _ => True

theorem fit_op (op : Op) (hk : op.Keeps) : M.Rel (Fitting e) (op.run e) := by
  cases op with
  | connect => exact hk.elim
  | vendor => exact hk.elim
  | digests sid => exact fit_getDigests
  | certificate fuel sid slot => exact fit_getCertificate _ _
  | challenge slot t => exact fit_challenge _ _
  | measurements sid slot attr op => exact rt_quiet (fit_getMeasurements _ _ _)
  | keyExchange slot t => exact rt_quiet (fit_keyExchange _ _)
  | pskExchange t hint => exact rt_quiet (fit_pskExchange _ _)
  | finish slot sid => exact fit_finish _ _
  | pskFinish sid => exact fit_pskFinish _
  | heartbeat sid => exact fit_heartbeat _
  | keyUpdate sid op => exact fit_keyUpdate _ _
  | endSession sid => exact fit_endSession _
  | sendApp sid data => exact fit_sendSecured _ _ _
  | receiveApp sid => exact rt_quiet (fit_of (mute_receiveSecured _))

theorem bounded_quiet {α : Type} {x : M Status Ctx α} {c : Ctx} (h : x.wp c (fun _ => Bounded e c) (fun _ => Bounded e c)) :
    (quiet x).wp c (fun _ => Bounded e c) (fun _ => Bounded e c) := by
  unfold quiet
  rw [M.wp_bind]
  exact h.mono (fun _ _ h => h) (fun _ _ h => h)

theorem bounded_op (op : Op) (c : Ctx) : (op.run e).wp c (fun _ => Bounded e c) (fun _ => Bounded e c) := by
  by_cases hk : op.Keeps
  · exact (fit_op op hk c).mono (fun _ _ h => h.bounded) (fun _ _ h => h.bounded)
  · cases op with
    | connect => exact bounded_connect c
    | vendor sid m => exact bounded_quiet (bounded_vendor m c)
    | _ => exact absurd trivial hk

end Req
end Verif
