/-
Responses that are no answer (C37).
-/
import Verif.Props.ReqFinish
import Verif.Requester.Errors

namespace Verif.Props
open Req
open Verif.Spec (errorStatus errorEffect)

variable {e : REnv}

/-- the code of a response is not that of ERROR. -/
theorem awaited_ne (a : Awaiting) {k : ReqRespCode} (h : k.get = a.code) : k ≠ .rspError := by
  rintro rfl
  have : (0x7F : UInt8) ≠ a.code := by cases a <;> (simp only [Awaiting.code]; decide)
  exact this h

/-- An ERROR response makes the request fail with the status of its error code.  Only the session the request was made in is touched. -/
theorem C37_error (a : Awaiting) (v p q : UInt8) (t : Bytes) (c : Ctx) (hv : SpdmVersion.ofCode v = c.neg.version)
    (hs : ∀ i, a.session = some i → (c.session? i).isSome) :
    a.handle e (v :: 0x7F :: p :: q :: t) c = .err (errorStatus p) (afterError a.session p (a.pre c)) := by
  have hpre : ∀ i, (a.pre c).session? i = c.session? i := by intro i; cases a <;> rfl
  have hneg : (a.pre c).neg = c.neg := by cases a <;> rfl
  obtain ⟨k, hk, rest, h⟩ := a.handle_eq (e := e) (v :: 0x7F :: p :: q :: t) c (fun sid ha => hs sid (by rw [ha]; rfl))
  rw [h, M.bind_apply, expectAs_error (awaited_ne a hk) (by rw [hneg]; exact hv) (fun i hi => by rw [hpre]; exact hs i hi)]

/-- A DECRYPT_ERROR in a session ends the session. -/
theorem C37_decrypt_error {n : Nat} {a : Awaiting} {v q : UInt8} {t : Bytes} {c : Ctx} {sid : UInt32} (hn : n < 0xFFFD) (hr : Req.Reachable n c)
    (hv : SpdmVersion.ofCode v = c.neg.version) (ha : a.session = some sid) (h0 : sid ≠ 0) (hs : (c.session? sid).isSome) :
    ∃ c', a.handle e (v :: 0x7F :: 0x06 :: q :: t) c = .err .sessionMsgError c' ∧ c'.session? sid = none := by
  obtain ⟨hl, ht⟩ := hr.table hn
  refine ⟨_, C37_error a v 0x06 q t c hv (fun i hi => ?_), ?_⟩
  · rw [ha] at hi; cases hi; exact hs
  · obtain ⟨s, hs⟩ := Option.isSome_iff_exists.1 hs
    have hpre : (a.pre c).session? sid = c.session? sid := by cases a <;> rfl
    have hsess : (a.pre c).sessions = c.sessions := by cases a <;> rfl
    refine closed_none h0 (c := a.pre c) (by rw [hsess]; exact ht) (by rw [hsess]; omega) (.inl ⟨s, hpre.trans hs, ?_⟩)
    unfold afterError
    rw [ha]
    dsimp only
    rw [hpre, hs]
    rfl

/-- A response that is too short, of the wrong version (unless it is VERSION or FINISH_RSP) or with another code makes the request fail and changes no session. -/
theorem C37_refused_partial (a : Awaiting) (c : Ctx) (hs : ∀ i, a.session = some i → (c.session? i).isSome) :
    (∀ b : Bytes, b.length < 2 → a.handle e b c = .err .invalidMsgField (a.pre c)) ∧
    (a.anyVersion = false → ∀ v k t, SpdmVersion.ofCode v ≠ c.neg.version → a.handle e (v :: k :: t) c = .err .invalidMsgField (a.pre c)) ∧
    (∀ v k t, (SpdmVersion.ofCode v = c.neg.version ∨ a.anyVersion = true) → k ≠ a.code → k ≠ 0x7F → a.handle e (v :: k :: t) c = .err .errorPeer (a.pre c)) := by
  have hneg : (a.pre c).neg = c.neg := by cases a <;> rfl
  refine ⟨fun b hb => ?_, fun ha v k t hv => ?_, fun v k t hv hk hk' => ?_⟩
  · obtain ⟨k, hk, rest, h⟩ := a.handle_eq (e := e) b c (fun sid ha => hs sid (by rw [ha]; rfl))
    rw [h, M.bind_apply, expectAs_short hb]
  · obtain ⟨k', hk', rest, h⟩ := a.handle_eq (e := e) (v :: k :: t) c (fun sid ha => hs sid (by rw [ha]; rfl))
    rw [h, M.bind_apply, ha, expect_version (by rw [hneg]; exact hv)]
  · obtain ⟨k', hk1, rest, h⟩ := a.handle_eq (e := e) (v :: k :: t) c (fun sid ha => hs sid (by rw [ha]; rfl))
    rw [h, M.bind_apply, expectAs_code (by rw [hneg]; exact hv) (by rw [hk1]; exact hk) hk']

/-- A response that is accepted is the response to the request, of the negotiated version unless it is VERSION or FINISH_RSP. -/
theorem C37_accepted_partial (a : Awaiting) {b : Bytes} {c c' : Ctx} (h : a.handle e b c = .ok () c') :
    ∃ v t, b = v :: a.code :: t ∧ (a.anyVersion = false → SpdmVersion.ofCode v = c.neg.version) := by
  have hneg : (a.pre c).neg = c.neg := by cases a <;> rfl
  have hf : ∀ sid, a = .finish sid → (c.session? sid).isSome := by
    rintro sid rfl
    cases hs : c.session? sid with
    | some s => rfl
    | none =>
      exfalso
      have : handleFinish e sid b c = .err .invalidStateLocal c := by
        unfold handleFinish
        rw [M.bind_apply, M.get_apply]
        dsimp only
        rw [M.bind_apply, hs, M.ofOption_none]
      rw [show Awaiting.handle e (.finish sid) b c = handleFinish e sid b c from rfl, this] at h
      cases h
  obtain ⟨k, hk, rest, g⟩ := a.handle_eq (e := e) b c hf
  rw [g] at h
  obtain ⟨r, c1, h1, -⟩ := M.bind_ok.1 h
  obtain ⟨v, t, h2, h3⟩ := expectAs_ok h1
  rw [hk] at h2
  rw [hneg] at h3
  exact ⟨v, t, h2, h3⟩

/-- `b` was received, as a message or as the content of a record. -/
def Hears (e : REnv) (b : Bytes) : Prop := ∃ sent p, e.recv sent = some p ∧ (PlainIn e p b ∨ ∃ s, RecordIn e s p b)

/-- the response an operation needs. -/
def Op.needs : Op → Option UInt8
  | .digests _ => some 0x01 | .certificate _ _ _ => some 0x02 | .challenge _ _ => some 0x03 | .measurements _ _ _ _ => some 0x60
  | .keyExchange _ _ => some 0x64 | .finish _ _ => some 0x65 | .pskExchange _ _ => some 0x66 | .pskFinish _ => some 0x67 | .heartbeat _ => some 0x68
  | .keyUpdate _ _ => some 0x69 | .endSession _ => some 0x6C | .vendor _ _ => some 0x7E
  | .connect | .sendApp _ _ | .receiveApp _ => none

theorem hears_said {sid : Option UInt32} {c c1 : Ctx} {req b : Bytes} (h : Said e sid c req b c1) : Hears e b := by
  obtain ⟨pkt, p, h1, h2⟩ := h
  refine ⟨_, p, h1, ?_⟩
  cases sid with
  | none => exact .inl h2.2.1
  | some i =>
    obtain ⟨s, -, -, -, h3, -⟩ := h2
    exact .inr ⟨_, h3⟩

theorem hears_answer {a : Awaiting} {sid : Option UInt32} {c c1 c' : Ctx} {req b : Bytes} (h : transact e sid req c = .ok b c1) (ha : a.handle e b c1 = .ok () c') :
    ∃ v t, Hears e (v :: a.code :: t) ∧ (a.anyVersion = false → SpdmVersion.ofCode v = c.neg.version) := by
  have hs := transact_ok h
  obtain ⟨v, t, rfl, h2⟩ := C37_accepted_partial a ha
  rw [hs.fields.1] at h2
  exact ⟨v, t, hears_said hs, h2⟩

theorem quiet_of {α : Type} {x : M Status Ctx α} {a : α} {c c' : Ctx} (h : x c = .ok a c') : quiet x c = .ok () c' := M.bind_ok.2 ⟨a, c', h, rfl⟩

theorem reset_neg (k : ReqRespCode) (sid : Option UInt32) (c : Ctx) : (Ctx.resetBuffers k sid c).neg = c.neg := Rsp.cc_neg (Rsp.resetBuffers_cc _ _ _)

theorem needs_keyUpdateOp {sid : UInt32} {op : KeyUpdateOp} {tag : UInt8} {c c' : Ctx} (h : keyUpdateOp e sid op tag c = .ok () c') :
    ∃ v t, Hears e (v :: 0x69 :: t) ∧ SpdmVersion.ofCode v = c.neg.version := by
  obtain ⟨_, c1, h1, z1⟩ := M.bind_ok.1 h
  rw [M.modify_apply] at h1; injection h1 with _ h1
  obtain ⟨req, c2, h2, z2⟩ := M.bind_ok.1 z1
  obtain rfl := encodeReq_ctx h2
  obtain ⟨_, c3, h3, z3⟩ := M.bind_ok.1 z2
  obtain ⟨c4, c5, h4, z4⟩ := M.bind_ok.1 z3
  cases h4
  obtain ⟨_, c6, h6, z6⟩ := M.bind_ok.1 z4
  obtain ⟨rsp, c7, h7, z7⟩ := M.bind_ok.1 z6
  obtain ⟨v, t, rfl, hv⟩ := C37_accepted_partial (e := e) (.keyUpdate sid op) z7
  have k3 := (rel_of_frame (rel_sendSecured _ _ _)).ok h3
  have k7 := (rel_of_frame (rel_receiveSecured _)).ok h7
  have k6 : c6.neg = c3.neg := by
    unfold Ctx.onSession at h6
    simp only [M.bind_apply, M.get_apply] at h6
    cases hs : c3.session? sid with
    | none => rw [hs] at h6; cases h6
    | some s =>
      rw [hs] at h6
      dsimp only at h6
      cases hx : Session.createUpdate e.crypto c3.neg.version (updatesReq op) (updatesRsp op) s with
      | panic => simp [hx] at h6
      | err st s' => simp [hx] at h6
      | ok u s' =>
        simp only [hx, M.set_apply, M.bind_apply, M.pure_apply] at h6
        cases h6
        rfl
  obtain ⟨p, g1, g2⟩ := receiveSecured_ok h7
  obtain ⟨s, -, -, g3, -⟩ := decodeSecured_ok g2
  refine ⟨v, t, ⟨_, p, g1, .inr ⟨s, g3⟩⟩, ?_⟩
  rw [hv rfl, k7.neg, k6, k3.neg, ← h1, reset_neg]

/-- An operation that succeeds has received the response it asked for: no ERROR, no other message passes for it.  The response carries the
negotiated version, except that FINISH_RSP is not checked and a vendor request forgets what was negotiated. -/
theorem C37_success_partial (op : Op) {c c' : Ctx} {k : UInt8} (hk : Op.needs op = some k) (h : op.run e c = .ok () c') :
    ∃ v t, Hears e (v :: k :: t) ∧ (k ≠ 0x65 → k ≠ 0x7E → SpdmVersion.ofCode v = c.neg.version) := by
  cases op with
  | connect => cases hk
  | sendApp sid data => cases hk
  | receiveApp sid => cases hk
  | digests sid =>
    cases hk
    obtain ⟨_, c1, h1, z1⟩ := M.bind_ok.1 h
    rw [M.modify_apply] at h1; injection h1 with _ h1
    obtain ⟨req, c2, h2, z2⟩ := M.bind_ok.1 z1
    obtain rfl := encodeReq_ctx h2
    obtain ⟨rsp, c3, h3, z3⟩ := M.bind_ok.1 z2
    obtain ⟨v, t, g1, g2⟩ := hears_answer (a := .digests sid req) h3 z3
    exact ⟨v, t, g1, fun _ _ => by rw [g2 rfl, ← h1, reset_neg]⟩
  | certificate fuel sid slot =>
    cases hk
    obtain ⟨i, c1, h1, z1⟩ := M.bind_ok.1 h
    obtain ⟨-, rfl⟩ := Rsp.ofOption_ok.1 h1
    obtain ⟨_, c2, h2, z2⟩ := M.bind_ok.1 z1
    rw [M.modify_apply] at h2; injection h2 with _ h2
    obtain ⟨_, c3, h3, z3⟩ := M.bind_ok.1 z2
    rw [M.modify_apply] at h3; injection h3 with _ h3
    obtain ⟨total, c4, h4, -⟩ := M.bind_ok.1 z3
    cases fuel with
    | zero => cases h4
    | succ fuel =>
      unfold certificateLoop at h4
      rw [if_neg (by decide)] at h4
      obtain ⟨⟨portion, remainder⟩, c5, h5, -⟩ := M.bind_ok.1 h4
      obtain ⟨req, c6, h6, z6⟩ := M.bind_ok.1 h5
      obtain rfl := encodeReq_ctx h6
      obtain ⟨rsp, c7, h7, z7⟩ := M.bind_ok.1 z6
      obtain ⟨v, t, g1, g2⟩ := hears_answer (a := .certificate sid slot 0 0 512 req) h7 (quiet_of z7)
      refine ⟨v, t, g1, fun _ _ => ?_⟩
      rw [g2 rfl, ← h3]
      show c2.neg.version = _
      rw [← h2, reset_neg]
  | challenge slot t =>
    cases hk
    replace h : Req.challenge e slot t c = .ok () c' := h
    unfold Req.challenge at h
    by_cases hsl : slot ≥ 8
    · rw [if_pos hsl] at h; cases h
    rw [if_neg hsl] at h
    obtain ⟨_, c1, h1, z1⟩ := M.bind_ok.1 h
    rw [M.modify_apply] at h1; injection h1 with _ h1
    obtain ⟨nonce, c2, h2, z2⟩ := M.bind_ok.1 z1
    obtain ⟨-, rfl⟩ := Rsp.ofOption_ok.1 h2
    obtain ⟨req, c3, h3, z3⟩ := M.bind_ok.1 z2
    obtain rfl := encodeReq_ctx h3
    obtain ⟨rsp, c4, h4, z4⟩ := M.bind_ok.1 z3
    obtain ⟨v, t, g1, g2⟩ := hears_answer (a := .challengeAuth slot t req) h4 z4
    exact ⟨v, t, g1, fun _ _ => by rw [g2 rfl, ← h1, reset_neg]⟩
  | measurements sid slot attr op =>
    cases hk
    obtain ⟨out, h⟩ := quiet_ok h
    unfold getMeasurements at h
    by_cases hsl : slot ≥ 8
    · rw [if_pos hsl] at h; cases h
    rw [if_neg hsl] at h
    obtain ⟨_, c1, h1, z1⟩ := M.bind_ok.1 h
    rw [M.modify_apply] at h1; injection h1 with _ h1
    obtain ⟨nonce, c2, h2, z2⟩ := M.bind_ok.1 z1
    obtain ⟨-, rfl⟩ := Rsp.ofOption_ok.1 h2
    obtain ⟨req, c3, h3, z3⟩ := M.bind_ok.1 z2
    obtain rfl := encodeReq_ctx h3
    obtain ⟨rsp, c4, h4, z4⟩ := M.bind_ok.1 z3
    obtain ⟨v, t, g1, g2⟩ := hears_answer (a := .measurements sid slot attr op req) h4 (quiet_of z4)
    exact ⟨v, t, g1, fun _ _ => by rw [g2 rfl, ← h1, reset_neg]⟩
  | keyExchange slot t =>
    cases hk
    obtain ⟨out, h⟩ := quiet_ok h
    unfold Req.keyExchange at h
    by_cases hsl : slot ≥ 8
    · rw [if_pos hsl] at h; cases h
    rw [if_neg hsl] at h
    obtain ⟨c00, c0, h0, z0⟩ := M.bind_ok.1 h
    cases h0
    obtain ⟨reqId, c1, h1, z1⟩ := M.bind_ok.1 z0
    obtain ⟨-, rfl⟩ := liftOk.1 h1
    obtain ⟨_, c2, h2, z2⟩ := M.bind_ok.1 z1
    rw [M.modify_apply] at h2; injection h2 with _ h2
    obtain ⟨random, c3, h3, z3⟩ := M.bind_ok.1 z2
    obtain ⟨-, rfl⟩ := Rsp.ofOption_ok.1 h3
    obtain ⟨⟨exchange, final⟩, c4, h4, z4⟩ := M.bind_ok.1 z3
    obtain ⟨-, rfl⟩ := Rsp.ofOption_ok.1 h4
    obtain ⟨opaq, c5, h5, z5⟩ := M.bind_ok.1 z4
    obtain ⟨-, rfl⟩ := Rsp.ofOption_ok.1 h5
    obtain ⟨req, c6, h6, z6⟩ := M.bind_ok.1 z5
    obtain rfl := encodeReq_ctx h6
    obtain ⟨rsp, c7, h7, z7⟩ := M.bind_ok.1 z6
    obtain ⟨v, t, g1, g2⟩ := hears_answer (a := .keyExchange reqId slot t req final) h7 (quiet_of z7)
    exact ⟨v, t, g1, fun _ _ => by rw [g2 rfl, ← h2, reset_neg]⟩
  | pskExchange t hint =>
    cases hk
    obtain ⟨out, h⟩ := quiet_ok h
    unfold Req.pskExchange at h
    obtain ⟨_, c2, h2, z2⟩ := M.bind_ok.1 h
    rw [M.modify_apply] at h2; injection h2 with _ h2
    obtain ⟨c00, c0, h0, z0⟩ := M.bind_ok.1 z2
    cases h0
    obtain ⟨reqId, c1, h1, z1⟩ := M.bind_ok.1 z0
    obtain ⟨-, rfl⟩ := liftOk.1 h1
    obtain ⟨random, c3, h3, z3⟩ := M.bind_ok.1 z1
    obtain ⟨-, rfl⟩ := Rsp.ofOption_ok.1 h3
    obtain ⟨opaq, c5, h5, z5⟩ := M.bind_ok.1 z3
    obtain ⟨-, rfl⟩ := Rsp.ofOption_ok.1 h5
    obtain ⟨hs, c4, h4, z4⟩ := M.bind_ok.1 z5
    obtain ⟨-, rfl⟩ := Rsp.unwrap_ok.1 h4
    obtain ⟨req, c6, h6, z6⟩ := M.bind_ok.1 z4
    obtain rfl := encodeReq_ctx h6
    obtain ⟨rsp, c7, h7, z7⟩ := M.bind_ok.1 z6
    obtain ⟨v, t, g1, g2⟩ := hears_answer (a := .pskExchange reqId t hint req) h7 (quiet_of z7)
    exact ⟨v, t, g1, fun _ _ => by rw [g2 rfl, ← h2, reset_neg]⟩
  | finish slot sid =>
    cases hk
    replace h : Req.finish e slot sid c = .ok () c' := h
    unfold Req.finish at h
    obtain ⟨c00, c0, h0, z0⟩ := M.bind_ok.1 h
    cases h0
    obtain ⟨sl, c1, h1, z1⟩ := M.bind_ok.1 z0
    obtain ⟨_, c2, h2, z2⟩ := M.bind_ok.1 z1
    obtain ⟨_, c3, h3, z3⟩ := M.bind_ok.1 z2
    obtain ⟨b, c4, h4, z4⟩ := M.bind_ok.1 z3
    obtain ⟨_, c5, h5, z5⟩ := M.bind_ok.1 z4
    obtain ⟨rsp, c6, h6, z6⟩ := M.bind_ok.1 z5
    have h5 := orClose_ok h5
    have h6 := orClose_ok h6
    have hb : ∃ o, transact e o b c4 = .ok rsp c6 := by
      unfold finishSend at h5
      unfold finishReceive at h6
      by_cases hc : c.cc.inClear = true
      · rw [if_pos hc] at h5 h6
        exact ⟨none, M.bind_ok.2 ⟨_, c5, h5, h6⟩⟩
      · rw [if_neg hc] at h5 h6
        exact ⟨some sid, M.bind_ok.2 ⟨_, c5, h5, h6⟩⟩
    obtain ⟨o, hb⟩ := hb
    obtain ⟨v, t, g1, -⟩ := hears_answer (a := .finish sid) hb (orCloseIf_ok z6)
    exact ⟨v, t, g1, fun h _ => absurd rfl h⟩
  | pskFinish sid =>
    cases hk
    replace h : Req.pskFinish e sid c = .ok () c' := h
    unfold Req.pskFinish at h
    obtain ⟨c00, c0, h0, z0⟩ := M.bind_ok.1 h
    cases h0
    obtain ⟨_, c2, h2, z2⟩ := M.bind_ok.1 z0
    obtain ⟨-, rfl⟩ := Rsp.ofOption_ok.1 h2
    obtain ⟨_, c3, h3, z3⟩ := M.bind_ok.1 z2
    rw [M.modify_apply] at h3; injection h3 with _ h3
    obtain ⟨b, c4, h4, z4⟩ := M.bind_ok.1 z3
    obtain ⟨_, c5, h5, z5⟩ := M.bind_ok.1 z4
    obtain ⟨rsp, c6, h6, z6⟩ := M.bind_ok.1 z5
    have k4 := (kept_encodePskFinish _).ok (orClose_ok h4)
    obtain ⟨v, t, g1, g2⟩ := hears_answer (a := .pskFinish sid) (sid := some sid) (M.bind_ok.2 ⟨_, c5, orClose_ok h5, orClose_ok h6⟩) (orCloseIf_ok z6)
    exact ⟨v, t, g1, fun _ _ => by rw [g2 rfl, k4.neg, ← h3, reset_neg]⟩
  | heartbeat sid =>
    cases hk
    obtain ⟨_, c1, h1, z1⟩ := M.bind_ok.1 h
    rw [M.modify_apply] at h1; injection h1 with _ h1
    obtain ⟨req, c2, h2, z2⟩ := M.bind_ok.1 z1
    obtain rfl := encodeReq_ctx h2
    obtain ⟨rsp, c3, h3, z3⟩ := M.bind_ok.1 z2
    obtain ⟨v, t, g1, g2⟩ := hears_answer (a := .heartbeat sid) h3 z3
    exact ⟨v, t, g1, fun _ _ => by rw [g2 rfl, ← h1, reset_neg]⟩
  | keyUpdate sid op =>
    cases hk
    replace h : Req.keyUpdate e sid op c = .ok () c' := h
    unfold Req.keyUpdate at h
    by_cases hop : op ≠ .updateAllKeys ∧ op ≠ .updateSingleKey
    · rw [if_pos hop] at h; cases h
    rw [if_neg hop] at h
    obtain ⟨_, c1, h1, -⟩ := M.bind_ok.1 h
    obtain ⟨v, t, g1, g2⟩ := needs_keyUpdateOp h1
    exact ⟨v, t, g1, fun _ _ => g2⟩
  | endSession sid =>
    cases hk
    obtain ⟨_, c1, h1, z1⟩ := M.bind_ok.1 h
    rw [M.modify_apply] at h1; injection h1 with _ h1
    obtain ⟨req, c2, h2, z2⟩ := M.bind_ok.1 z1
    obtain rfl := encodeReq_ctx h2
    obtain ⟨rsp, c3, h3, z3⟩ := M.bind_ok.1 z2
    obtain ⟨v, t, g1, g2⟩ := hears_answer (a := .endSession sid) h3 z3
    exact ⟨v, t, g1, fun _ _ => by rw [g2 rfl, ← h1, reset_neg]⟩
  | vendor sid m =>
    cases hk
    obtain ⟨out, h⟩ := quiet_ok h
    obtain ⟨_, c1, h1, z1⟩ := M.bind_ok.1 h
    obtain ⟨_, c2, h2, z2⟩ := M.bind_ok.1 z1
    obtain ⟨req, c3, h3, z3⟩ := M.bind_ok.1 z2
    obtain ⟨rsp, c4, h4, z4⟩ := M.bind_ok.1 z3
    obtain ⟨v, t, g1, -⟩ := hears_answer (a := .vendor sid) h4 (quiet_of z4)
    exact ⟨v, t, g1, fun _ h => absurd rfl h⟩

theorem takeAlgs_version (m : Algs) (n : Neg) : (takeAlgs m n).1.version = n.version := by
  unfold takeAlgs
  dsimp only
  split
  · rfl
  · split
    · rfl
    · dsimp only
      rw [offerAlg_fold]

/-- Connecting succeeds only after VERSION, and CAPABILITIES and ALGORITHMS of the version selected. -/
theorem C37_connect {c c' : Ctx} (h : initConnection e c = .ok () c') :
    (∃ v t, Hears e (v :: 0x04 :: t)) ∧ (∃ t, Hears e (c'.neg.version.get :: 0x61 :: t)) ∧ ∃ t, Hears e (c'.neg.version.get :: 0x63 :: t) := by
  obtain ⟨_, c1, h1, z1⟩ := M.bind_ok.1 h
  obtain ⟨_, c2, h2, h3⟩ := M.bind_ok.1 z1
  obtain ⟨p1, b1, t1, v1, m1, s1, d1, rfl, d3, d4, d5⟩ := getVersion_ok h1
  obtain ⟨q2, p2, b2, t2, m2, s2, g1, rfl, rfl, gv, g4, g5⟩ := getCapabilities_ok h2
  obtain ⟨q3, p3, b3, t3, m3, s3, k1, rfl, rfl, kv, k4, k5, k6, k7⟩ := negotiateAlgorithms_ok h3
  have e1 : c2.neg.version = c1.neg.version := by rw [g5]; simp only [setCaps]; split <;> rfl
  have e2 : c'.neg.version = c2.neg.version := by
    rw [k7]
    exact takeAlgs_version _ _
  rw [e2]
  exact ⟨⟨_, _, hears_said d1⟩, ⟨_, by rw [e1]; exact hears_said g1⟩, _, hears_said k1⟩

/- Concrete cases. -/

/-- a peer that is the toy responder but answers ERROR `q` instead of sending responses of code `k` in the clear. -/
def erring (k q : UInt8) : REnv :=
  { Toy.menv with recv := fun l => (Toy.answer Toy.menv Toy.rsp0 l).map fun p => if p.getD 2 0 = k then p.take 2 ++ [0x7F, q, 0] else p }

/-- how the operations end. -/
def ends (e : REnv) (l : List Op) : Option (List (Option Status)) := (Toy.runOps e Toy.req0 l).map (·.1)

/- BUSY for CHALLENGE, RESPONSE_NOT_READY for GET_DIGESTS, DECRYPT_ERROR for GET_CAPABILITIES, UNSPECIFIED for KEY_EXCHANGE -/
example : ends (erring 0x03 0x03) [.connect, .digests none, .certificate 20 none 0, .challenge 0 .none] = some [none, none, none, some .busyPeer] ∧
    ends (erring 0x01 0x42) [.connect, .digests none] = some [none, some .notReadyPeer] ∧ ends (erring 0x61 0x06) [.connect] = some [some .sessionMsgError] ∧
    ends (erring 0x64 0x05) [.connect, .certificate 20 none 0, .keyExchange 0 .none] = some [none, none, some .errorPeer] := by decide +kernel

/-- the toy requester in a handshake. -/
def toyOpen : List Op := [.connect, .certificate 20 none 0, .keyExchange 0 .none]

theorem toyOpen_reached : Req.Reachable 2 (toyReq toyOpen) := by
  have h : (Toy.runOps Toy.renv Toy.req0 toyOpen).map (·.1) = some (toyOpen.map fun _ => none) := by decide +kernel
  exact ⟨Toy.reqCfg, {}, _, toyReq_runs _ h⟩

/- the hypotheses of `C37_error`, `C37_decrypt_error` and `C37_refused_partial` are met by a requester in a session -/
example : Req.Reachable 2 (toyReq toyOpen) ∧ SpdmVersion.ofCode 0x12 = (toyReq toyOpen).neg.version ∧ (Awaiting.heartbeat 0xFFFDFFFD).session = some 0xFFFDFFFD ∧
    ((toyReq toyOpen).session? 0xFFFDFFFD).isSome ∧ (0xFFFDFFFD : UInt32) ≠ 0 := ⟨toyOpen_reached, by decide +kernel, rfl, by decide +kernel, by decide⟩
/- and outside sessions -/
example : ((toyReq [.connect]).session? 0).isSome ∧ SpdmVersion.ofCode 0x12 = (toyReq [.connect]).neg.version := by decide +kernel
/- and those of `C37_success_partial` and `C37_connect` -/
example : ∃ c c', Runs Toy.req0 (toyAuth.map (Toy.renv, ·)) c ∧ (Op.challenge 0 .none).run Toy.renv c = .ok () c' := toy_upto toyAuth (.challenge 0 .none) (by decide +kernel)
example : ∃ c, initConnection Toy.renv Toy.req0 = .ok () c := by
  obtain ⟨c, h, -⟩ := toyStep (e := Toy.renv) (c := Toy.req0) (op := .connect) (l := []) (o := []) (by decide +kernel)
  exact ⟨c, h⟩

/-- FINISH_RSP of any version is taken: here 1.0 and even a version that does not exist, in a session of SPDM 1.2. -/
theorem C37_finish_version_violated : ∃ n c, Req.Reachable n c ∧ c.neg.version = .v12 ∧
    ∀ v, v = 0x10 ∨ v = 0xFF → ∃ c', (Awaiting.finish 0xFFFDFFFD).handle Toy.renv [v, 0x65, 0, 0] c = .ok () c' ∧ (c'.session? 0xFFFDFFFD).map (·.state) = some .established := by
  refine ⟨2, toyReq toyOpen, toyOpen_reached, by decide +kernel, fun v hv => ?_⟩
  have h : ∀ v, v = 0x10 ∨ v = 0xFF → (match (Awaiting.finish 0xFFFDFFFD).handle Toy.renv [v, 0x65, 0, 0] (toyReq toyOpen) with
      | .ok _ c' => (c'.session? 0xFFFDFFFD).map (·.state) | _ => none) = some SessState.established := by
    rintro v (rfl | rfl) <;> decide +kernel
  have h := h v hv
  cases hx : (Awaiting.finish 0xFFFDFFFD).handle Toy.renv [v, 0x65, 0, 0] (toyReq toyOpen) with
  | panic => rw [hx] at h; cases h
  | err st c' => rw [hx] at h; cases h
  | ok u c' => rw [hx] at h; exact ⟨c', rfl, h⟩

end Verif.Props
