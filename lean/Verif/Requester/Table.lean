/-
The requester's session table, in every history.
-/
import Verif.Requester.PskEx

namespace Verif
namespace Req
open Rsp

variable {e : REnv} {sid : Option UInt32}

/-- the table keeps its length, and every slot in use the requester half of its position. -/
def TableKept (c c' : Ctx) : Prop :=
  c'.sessions.length = c.sessions.length ∧ (c.sessions.length < 0xFFFD → ReqTable 0 c.sessions → ReqTable 0 c'.sessions)

instance : M.Pre TableKept where
  refl _ := ⟨rfl, fun _ h => h⟩
  trans h h' := ⟨h'.1.trans h.1, fun hl ht => h'.2 (by rw [h.1]; exact hl) (h.2 hl ht)⟩

theorem table_kept {c c' : Ctx} (h : Kept sid c c') : TableKept c c' := ⟨h.sessions.length_eq, fun _ ht => ht.touch h.sessions⟩
theorem table_frame {k : Bool} {c c' : Ctx} (h : Frame k sid c c') : TableKept c c' := by
  have hs : All2 (Touch sid) c.sessions c'.sessions := All2.imp (fun s s' hl => by
    rcases hl with rfl | ⟨h1, h2⟩
    · exact .inl rfl
    · exact .inr ⟨by rw [h1]; rfl, .inl h2.1⟩) h.sessions
  exact ⟨hs.length_eq, fun _ ht => ht.touch hs⟩
theorem table_same {c c' : Ctx} (h : c'.sessions = c.sessions) : TableKept c c' := ⟨by rw [h], fun _ ht => by rw [h]; exact ht⟩

theorem rt_kept {α : Type} {x : M Status Ctx α} (h : M.Rel (Kept sid) x) : M.Rel TableKept x := h.mono fun _ _ => table_kept
theorem rt_frame {α : Type} {k : Bool} {x : M Status Ctx α} (h : M.Rel (Frame k sid) x) : M.Rel TableKept x := h.mono fun _ _ => table_frame
theorem rt_modify {f : Ctx → Ctx} (h : ∀ c, (f c).sessions = c.sessions) : M.Rel TableKept (M.modify f : M Status Ctx Unit) := .modify fun c => table_same (h c)

theorem encodeAs_rel (v : SpdmVersion) (k : ReqRespCode) (p : Payload) : M.Rel (Frame true sid) (encodeAs v k p) := by
  intro c
  unfold M.wp encodeAs
  cases Msg.encode c.cc ⟨⟨v, k⟩, p⟩ (Writer.init 4096) with
  | panic => trivial
  | err _ _ => exact M.Pre.refl _
  | ok n w =>
    dsimp only
    by_cases hn : n ≤ 4096
    · rw [if_pos hn]; exact M.Pre.refl (R := Frame true sid) c
    · rw [if_neg hn]; trivial

theorem rt_appendA (b : Bytes) : M.Rel TableKept (Ctx.appendA b) := rt_frame (sid := none) (Ctx.rel_appendA b)

theorem rt_getVersion : M.Rel TableKept (getVersion e) := by
  unfold getVersion
  refine .bind (rt_frame (k := true) (sid := none) (Ctx.rel_resetBuffers _)) fun _ => .bind (rt_frame (sid := none) (encodeAs_rel _ _ _)) fun req =>
    .bind (rt_frame (sid := none) (rel_transact _)) fun rsp => ?_
  unfold handleVersion
  refine .bind (rt_kept (rel_expectAny _ _)) fun r => .bind (rt_frame (sid := none) (rel_readMsg _ _ _)) fun p => ?_
  obtain ⟨m, b⟩ := p
  refine .bind (rt_modify fun _ => rfl) fun _ => .bind .get fun c => .ite (fun _ => .fail _) fun _ => .bind (rt_modify fun _ => rfl) fun _ => .bind (rt_appendA _) fun _ => rt_appendA _

theorem rt_getCapabilities : M.Rel TableKept (getCapabilities e) := by
  unfold getCapabilities
  refine .bind (rt_frame (k := true) (sid := none) (Ctx.rel_resetBuffers _)) fun _ => .bind .get fun c => .bind (rt_frame (sid := none) (rel_encodeReq _ _)) fun req =>
    .bind (rt_frame (sid := none) (rel_transact _)) fun rsp => ?_
  unfold handleCapabilities
  refine .bind (rt_kept (rel_expect _ _)) fun r => .bind (rt_frame (sid := none) (rel_readMsg _ _ _)) fun p => ?_
  obtain ⟨m, b⟩ := p
  refine .bind (rt_modify fun _ => rfl) fun _ => .bind (rt_appendA _) fun _ => rt_appendA _

theorem rt_negotiateAlgorithms : M.Rel TableKept (negotiateAlgorithms e) := by
  unfold negotiateAlgorithms
  refine .bind (rt_frame (k := true) (sid := none) (Ctx.rel_resetBuffers _)) fun _ => .bind .get fun c => .bind (rt_frame (sid := none) (rel_encodeReq _ _)) fun req =>
    .bind (rt_frame (sid := none) (rel_transact _)) fun rsp => ?_
  unfold handleAlgorithms
  refine .bind (rt_kept (rel_expect _ _)) fun r => .bind (rt_frame (sid := none) (rel_readMsg _ _ _)) fun p => ?_
  obtain ⟨m, b⟩ := p
  intro c
  rw [M.wp_bind, M.wp_get, M.wp_bind, M.wp_set]
  have h1 : TableKept c { c with neg := (takeAlgs m c.neg).1 } := table_same rfl
  have h2 : M.Rel TableKept (if (takeAlgs m c.neg).2 = false then M.fail .negotiationFail else do Ctx.appendA req; Ctx.appendA b : M Status Ctx Unit) :=
    .ite (fun _ => .fail _) fun _ => .bind (rt_appendA _) fun _ => rt_appendA _
  exact (h2 _).mono (fun _ _ h => M.Pre.trans h1 h) (fun _ _ h => M.Pre.trans h1 h)

theorem rt_initConnection : M.Rel TableKept (initConnection e) :=
  .bind rt_getVersion fun _ => .bind rt_getCapabilities fun _ => rt_negotiateAlgorithms

theorem rt_getCertificate (fuel : Nat) (slot : UInt8) : M.Rel TableKept (getCertificate e fuel sid slot) := by
  unfold getCertificate
  refine .bind (.ofOption _ _) fun i => .bind (rt_frame (k := true) (Ctx.rel_resetBuffers _)) fun _ => .bind (rt_modify fun _ => rfl) fun _ =>
    .bind (rt_kept (kept_certificateLoop _ _ _ _ _)) fun total => ?_
  unfold storeChain
  intro c
  rw [M.wp_bind, M.wp_get, M.wp_ite]
  refine ⟨fun _ => ?_, fun _ => ?_⟩
  · rw [M.wp_bind, M.wp_set]; exact table_same rfl
  · cases verifyChain e c with
    | panic => trivial
    | ok u => exact table_same rfl
    | err st => dsimp only; rw [M.wp_bind, M.wp_set]; exact table_same rfl

theorem kept_challenge (slot : UInt8) (t : SummaryHashType) : M.Rel (Kept (some 0)) (challenge e slot t) := by
  unfold challenge
  refine .ite (fun _ => .fail _) fun _ => .bind (rel_none (Ctx.rel_resetBuffers _)) fun _ => .bind (.ofOption _ _) fun _ =>
    .bind (rel_of_frame (rel_encodeReq _ _)) fun req => .bind (rel_none (rel_transact _)) fun rsp => ?_
  unfold handleChallengeAuth
  refine .bind (.modify fun c => kept_rt c _ rfl rfl) fun _ => .bind (rel_expect _ _) fun r => .bind (rel_of_frame (rel_readMsg _ _ _)) fun p => ?_
  obtain ⟨m, b⟩ := p
  refine .bind .get fun c => .bind (.unwrap _) fun _ => .bind (.lift _) fun _ => .bind (rel_of_frame (Ctx.rel_appendC _)) fun _ => .bind (rel_of_frame (Ctx.rel_appendC _)) fun _ => ?_
  unfold challengeCheck
  intro c
  rw [M.wp_bind, M.wp_get]
  cases challengeVerify e slot m.signature c with
  | panic => trivial
  | ok u => exact kept_rt c _ rfl rfl
  | err st => dsimp only; rw [M.wp_bind, M.wp_modify]; exact kept_rt c _ rfl rfl

theorem kept_resetM (c : Ctx) : Kept sid c (Ctx.resetM sid c) := by
  cases sid with
  | none => exact kept_rt c _ rfl rfl
  | some i => exact ⟨rfl, rfl, rfl, rfl, rfl, rfl, List.prefix_refl _, touch_updFirst rfl _ fun _ _ => .inl rfl⟩

theorem kept_getMeasurements (slot attr : UInt8) (op : MeasOperation) : M.Rel (Kept sid) (getMeasurements e sid slot attr op) := by
  unfold getMeasurements
  refine .ite (fun _ => .fail _) fun _ => .bind (rel_of_frame (Ctx.rel_resetBuffers _)) fun _ => .bind (.ofOption _ _) fun _ =>
    .bind (rel_of_frame (rel_encodeReq _ _)) fun req => .bind (rel_of_frame (rel_transact _)) fun rsp => ?_
  unfold handleMeasurements
  refine .bind (.modify fun c => kept_rt c _ rfl rfl) fun _ => .bind (rel_expect _ _) fun r => .bind (rel_of_frame (rel_readMsg _ _ _)) fun p => ?_
  obtain ⟨m, b⟩ := p
  refine .bind (.modify fun c => ?_) fun _ => .bind .get fun c => .bind (.unwrap _) fun _ => .bind (.lift _) fun _ => .bind (rel_of_frame (Ctx.rel_appendM _)) fun _ =>
    .bind (rel_of_frame (Ctx.rel_appendM _)) fun _ => .bind ?_ fun _ => .pure _
  · unfold noteChanged
    split
    · exact kept_rt c _ rfl rfl
    · exact M.Pre.refl c
  unfold measurementCheckIf
  refine .ite (fun _ => ?_) fun _ => .pure _
  unfold measurementCheck
  intro c
  rw [M.wp_bind, M.wp_get]
  cases measurementVerify e sid slot m.signature c with
  | panic => trivial
  | ok u => exact kept_resetM c
  | err st => dsimp only; rw [M.wp_bind, M.wp_modify]; exact kept_resetM c

/-! ### sessions -/

theorem kept_thOf (i : UInt32) : M.Rel (Kept sid) (thOf e i) := by
  unfold thOf
  exact .bind .get fun _ => .bind (.unwrap _) fun _ => .lift _

theorem kept_closeAnd {α : Type} (i : UInt32) (st : Status) : M.Rel (Kept (some i)) (closeAnd i st : M Status Ctx α) :=
  .bind (rel_onSession _ _ _ rfl .panic (idKept_teardown _)) fun _ => .fail _

theorem kept_responseCheck (i : UInt32) (mac : Bytes) : M.Rel (Kept (some i)) (responseCheck e i mac) := by
  unfold responseCheck
  refine .bind (kept_thOf _) fun _ => .bind .get fun _ => .bind (.unwrap _) fun _ => .ite (fun _ => kept_closeAnd _ _) fun _ => .bind (.try' (rel_of_frame (rel_appendK _))) fun r => ?_
  cases r with
  | ok _ => exact .pure _
  | error _ => exact kept_closeAnd _ _

theorem kept_gen (i : UInt32) (v : SpdmVersion) (th : Bytes) : M.Rel (Kept (some i)) (Ctx.onSession i M.panic (Session.genHandshake e.crypto v th)) :=
  rel_onSession _ _ _ rfl .panic (idKept_keep (Session.keep_genHandshake _ _ _))

theorem kept_mod (i : UInt32) {f : Session → Session} (hf : ∀ s, (f s).id = s.id) : M.Rel (Kept (some i)) (Ctx.onSession i M.panic (M.modify f)) :=
  rel_onSession _ _ _ rfl .panic (.modify fun s => .inl (hf s))

theorem kept_establish (i : UInt32) : M.Rel (Kept (some i)) (establish e i) := by
  unfold establish
  exact .bind (kept_thOf _) fun _ => .bind .get fun _ => .bind (rel_onSession _ _ _ rfl .panic (idKept_keep (Session.keep_genData _ _ _))) fun _ => kept_mod _ fun _ => rfl

theorem kept_keyExchangeBody (i : UInt32) (slot version : UInt8) (m : KeyExRsp) (req rsp : Bytes) : M.Rel (Kept (some i)) (keyExchangeBody e slot m req rsp i version) := by
  unfold keyExchangeBody
  refine .bind .get fun c => .bind (.unwrap _) fun _ => .bind (.unwrap _) fun _ => .bind (.lift _) fun _ => .bind (rel_of_frame (rel_appendK _)) fun _ => .bind (rel_of_frame (rel_appendK _)) fun _ =>
    .bind ?_ fun _ => .bind (rel_of_frame (rel_appendK _)) fun _ => .bind (kept_thOf _) fun _ => .bind (kept_gen _ _ _) fun _ => .bind ?_ fun _ => .bind (kept_mod _ fun _ => rfl) fun _ => .bind ?_ fun _ => .pure _
  · unfold keyExchangeCheck
    intro c
    rw [M.wp_bind, M.wp_get]
    cases keyExchangeVerify e i slot m.signature c with
    | panic => trivial
    | ok u => exact M.Pre.refl c
    | err st => exact M.Pre.refl c
  · unfold keyExchangeHmac
    exact .ite (fun _ => .pure _) fun _ => kept_responseCheck _ _
  · unfold Rsp.rememberSession
    exact .ite (fun _ => .modify fun c => kept_rt c _ rfl rfl) fun _ => .pure _

theorem kept_pskExchangeBody (i : UInt32) (version : UInt8) (m : PskExRsp) (req rsp : Bytes) : M.Rel (Kept (some i)) (pskExchangeBody e m req rsp i version) := by
  unfold pskExchangeBody
  refine .bind .get fun c => .bind (.unwrap _) fun _ => .bind (.lift _) fun _ => .bind (rel_of_frame (rel_appendK _)) fun _ => .bind (rel_of_frame (rel_appendK _)) fun _ =>
    .bind (kept_thOf _) fun _ => .bind (kept_gen _ _ _) fun _ => .bind (kept_responseCheck _ _) fun _ => .bind (kept_mod _ fun _ => rfl) fun _ => .bind ?_ fun _ => .bind (kept_mod _ fun _ => rfl) fun _ => .pure _
  unfold pskEstablish
  exact .ite (fun _ => kept_establish _) fun _ => .pure _

theorem setup_id (i : UInt32) (s : Session) : (Session.setup i).wp s (fun _ s' => s'.id = i) (fun _ s' => s'.id = i) := by
  unfold Session.setup
  simp only [M.wp_bind, M.wp_get]
  split
  · exact rfl
  · trivial

theorem openDhe_id (c : Ctx) (i : UInt32) (mutAuth : UInt8) (certHash final : Bytes) (s : Session) :
    (openDhe e c i mutAuth certHash final).wp s (fun _ s' => s'.id = i) (fun _ s' => s'.id = i) := by
  unfold openDhe
  rw [M.wp_bind]
  refine (setup_id i s).mono (fun _ s1 h1 => ?_) fun _ _ h => h
  rw [M.wp_bind, M.wp_modify, M.wp_bind]
  refine (Session.keep_setDheSecret e.crypto c.neg.version final _).mono (fun _ s2 h2 => ?_) fun _ s2 h2 => h2.1.trans h1
  rw [M.wp_modify]
  exact h2.1.trans h1

theorem openPsk_id (c : Ctx) (i : UInt32) (hint : Bytes) (s : Session) : (openPsk e c i hint).wp s (fun _ s' => s'.id = i) (fun _ s' => s'.id = i) := by
  unfold openPsk
  rw [M.wp_bind]
  refine (setup_id i s).mono (fun _ s1 h1 => ?_) fun _ _ h => h
  rw [M.wp_modify]
  exact h1

theorem open_table {x : M Status Session Unit} {c : Ctx} {r q : UInt16} (hn : Ctx.nextHalf true 0 c.sessions = some q)
    (hx : ∀ s, x.wp s (fun _ s' => s'.id = joinId r q) (fun _ s' => s'.id = joinId r q)) :
    (Ctx.onSession 0 (M.fail .sessionNumberExceed) x).wp c (fun _ c' => TableKept c c') (fun _ c' => TableKept c c') := by
  have key : ∀ s', s'.id = joinId r q → TableKept c (c.updSession 0 fun _ => s') := fun s' hs => by
    refine ⟨?_, fun hl ht => ReqTable.opened ht (by omega) hn (.inl hs)⟩
    show (Ctx.updFirst _ _ _).length = _
    generalize c.sessions = l
    induction l with
    | nil => rfl
    | cons a l ih => unfold Ctx.updFirst; split <;> simp [ih]
  unfold Ctx.onSession
  simp only [M.wp_bind, M.wp_get]
  split
  · exact M.Pre.refl (R := TableKept) c
  · rename_i s hs
    have := hx s
    split
    · rename_i a s' h; exact key s' (this.ok h)
    · rename_i st s' h; exact key s' (this.err h)
    · trivial

/-- the sessions are as they were. -/
def Same (c c' : Ctx) : Prop := c'.sessions = c.sessions
instance : M.Pre Same where
  refl _ := rfl
  trans h h' := h'.trans h

theorem same_frame {k : Bool} {c c' : Ctx} (h : Frame k none c c') : Same c c' := by
  have := h.sessions
  unfold Same
  generalize c.sessions = l at this
  generalize c'.sessions = l' at this
  induction this with
  | nil => rfl
  | cons a _ ih =>
    rcases a with rfl | ⟨h1, _⟩
    · rw [ih]
    · cases h1
theorem rs_frame {α : Type} {k : Bool} {x : M Status Ctx α} (h : M.Rel (Frame k none) x) : M.Rel Same x := h.mono fun _ _ => same_frame

theorem rs_expect (k : ReqRespCode) (bytes : Bytes) : M.Rel Same (expect none k bytes) := by
  unfold expect sort handleError errorPayload simpleError
  rel

theorem table_bind {α β : Type} {x : M Status Ctx α} {f : α → M Status Ctx β} {c c0 : Ctx} (h : Same c0 c) (hx : M.Rel Same x)
    (hf : ∀ a c', Same c0 c' → (f a).wp c' (fun _ c' => TableKept c0 c') (fun _ c' => TableKept c0 c')) :
    (x >>= f).wp c (fun _ c' => TableKept c0 c') (fun _ c' => TableKept c0 c') := by
  rw [M.wp_bind]
  exact (hx c).mono (fun a c' h' => hf a c' (M.Pre.trans h h')) fun _ c' h' => table_same (M.Pre.trans (R := Same) h h')

theorem open_bind {β : Type} {x : M Status Session Unit} {y : M Status Ctx β} {c c0 : Ctx} {r q : UInt16} (h : Same c0 c) (hn : Ctx.nextHalf true 0 c0.sessions = some q)
    (hx : ∀ s, x.wp s (fun _ s' => s'.id = joinId r q) (fun _ s' => s'.id = joinId r q)) (hy : M.Rel (Kept sid) y) :
    (Ctx.onSession 0 (M.fail .sessionNumberExceed) x >>= fun _ => y).wp c (fun _ c' => TableKept c0 c') (fun _ c' => TableKept c0 c') := by
  have h0 : TableKept c0 c := table_same h
  rw [M.wp_bind]
  refine (open_table (c := c) (by rw [h]; exact hn) hx).mono (fun _ c1 h1 => ?_) fun _ _ h1 => M.Pre.trans h0 h1
  exact (hy c1).mono (fun _ _ h2 => M.Pre.trans (M.Pre.trans h0 h1) (table_kept h2)) fun _ _ h2 => M.Pre.trans (M.Pre.trans h0 h1) (table_kept h2)

theorem rt_keyExchange (slot : UInt8) (t : SummaryHashType) : M.Rel TableKept (keyExchange e slot t) := by
  unfold keyExchange
  refine .ite (fun _ => .fail _) fun _ => ?_
  intro c0
  rw [M.wp_bind, M.wp_get]
  cases hn : Ctx.nextHalf true 0 c0.sessions with
  | none =>
    rw [M.wp_bind]
    have : c0.nextHalfId true = .err .sessionNumberExceed := by unfold Ctx.nextHalfId; rw [hn]; rfl
    rw [this]
    exact M.Pre.refl (R := TableKept) c0
  | some q =>
    have : c0.nextHalfId true = .ok q := by unfold Ctx.nextHalfId; rw [hn]; rfl
    rw [this, M.wp_bind]
    show M.wp _ c0 _ _
    refine table_bind (c0 := c0) rfl (rs_frame (k := true) (Ctx.rel_resetBuffers _)) fun _ c1 h1 => table_bind h1 (.ofOption _ _) fun random c2 h2 => table_bind h2 (.ofOption _ _) fun p c3 h3 => ?_
    obtain ⟨exchange, final⟩ := p
    refine table_bind h3 (.ofOption _ _) fun opaq c4 h4 => table_bind h4 (rs_frame (rel_encodeReq _ _)) fun req c5 h5 => table_bind h5 (rs_frame (rel_transact _)) fun rsp c6 h6 => ?_
    unfold handleKeyExchange
    refine table_bind h6 (.modify fun _ => rfl) fun _ c7 h7 => table_bind h7 (rs_expect _ _) fun r c8 h8 => table_bind h8 (rs_frame (rel_readMsg _ _ _)) fun p c9 h9 => ?_
    obtain ⟨m, b⟩ := p
    refine table_bind h9 .get fun c9' c10 h10 => table_bind h10 (.ofOption _ _) fun fin c11 h11 => table_bind h11 (.lift _) fun v c12 h12 => table_bind h12 (.unwrap _) fun i c13 h13 =>
      table_bind h13 (.ofOption _ _) fun ch c14 h14 => ?_
    exact open_bind h14 hn (openDhe_id _ _ _ _ _) (kept_keyExchangeBody _ _ _ _ _ _)

theorem rt_pskExchange (t : SummaryHashType) (hint : Bytes) : M.Rel TableKept (pskExchange e t hint) := by
  unfold pskExchange
  intro c0
  refine table_bind (c0 := c0) rfl (rs_frame (k := true) (Ctx.rel_resetBuffers _)) fun _ c1 h1 => ?_
  rw [M.wp_bind, M.wp_get]
  cases hn : Ctx.nextHalf true 0 c1.sessions with
  | none =>
    rw [M.wp_bind]
    have : c1.nextHalfId true = .err .sessionNumberExceed := by unfold Ctx.nextHalfId; rw [hn]; rfl
    rw [this]
    exact table_same h1
  | some q =>
    have : c1.nextHalfId true = .ok q := by unfold Ctx.nextHalfId; rw [hn]; rfl
    rw [this, M.wp_bind]
    show M.wp _ c1 _ _
    rw [h1] at hn
    refine table_bind h1 (.ofOption _ _) fun random c2 h2 => table_bind h2 (.ofOption _ _) fun opaq c3 h3 => table_bind h3 (.unwrap _) fun hs c4 h4 =>
      table_bind h4 (rs_frame (rel_encodeReq _ _)) fun req c5 h5 => table_bind h5 (rs_frame (rel_transact _)) fun rsp c6 h6 => ?_
    unfold handlePskExchange
    refine table_bind h6 (.modify fun _ => rfl) fun _ c7 h7 => table_bind h7 (rs_expect _ _) fun r c8 h8 => table_bind h8 (rs_frame (rel_readMsg _ _ _)) fun p c9 h9 => ?_
    obtain ⟨m, b⟩ := p
    refine table_bind h9 .get fun c9' c10 h10 => table_bind h10 (.lift _) fun v c12 h12 => ?_
    exact open_bind h12 hn (openPsk_id _ _ _) (kept_pskExchangeBody _ _ _ _ _)

/-! ### in sessions -/

theorem kept_orClose {α : Type} {i : UInt32} {x : M Status Ctx α} (h : M.Rel (Kept (some i)) x) : M.Rel (Kept (some i)) (orClose i x) := by
  unfold orClose
  refine .bind (.try' h) fun r => ?_
  cases r with
  | ok a => exact .pure _
  | error st => exact kept_closeAnd _ _

theorem kept_orCloseIf {α : Type} {i : UInt32} {x : M Status Ctx α} (h : M.Rel (Kept (some i)) x) : M.Rel (Kept (some i)) (orCloseIf i x) := by
  unfold orCloseIf
  refine .bind (.try' h) fun r => ?_
  cases r with
  | ok a => exact .pure _
  | error st => exact .bind (rel_onSession _ _ _ rfl (.pure _) (idKept_teardown _)) fun _ => .fail _

theorem kept_requestHmac (i : UInt32) (b : Bytes) : M.Rel (Kept (some i)) (requestHmac e i b) := by
  unfold requestHmac
  exact .bind (kept_thOf _) fun _ => .bind .get fun _ => .bind (.unwrap _) fun _ => .bind (.unwrap _) fun _ => .bind (.lift _) fun _ => .bind (rel_of_frame (rel_appendF _ _)) fun _ => .lift _

theorem kept_encodeFinish (i : UInt32) (slot : UInt8) : M.Rel (Kept (some i)) (encodeFinish e i slot) := by
  unfold encodeFinish
  refine .bind .get fun _ => .bind (.ofOption _ _) fun _ => .bind (.lift _) fun _ => .bind (.unwrap _) fun _ => .bind (rel_of_frame (rel_encodeReq _ _)) fun _ => .bind (rel_of_frame (rel_appendF _ _)) fun _ =>
    .bind ?_ fun _ => kept_requestHmac _ _
  unfold finishSignature
  exact .bind .get fun _ => .bind (.ofOption _ _) fun _ => .ite (fun _ => .bind (.lift _) fun _ => .bind (.lift _) fun _ => .bind (rel_of_frame (rel_appendF _ _)) fun _ => .pure _) fun _ => .pure _

theorem kept_finishTranscript (inClear : Bool) (hs : Nat) (i : UInt32) (mac rsp : Bytes) : M.Rel (Kept (some i)) (finishTranscript e inClear hs i mac rsp) := by
  unfold finishTranscript
  exact .ite (fun _ => .bind (.lift _) fun _ => .bind (rel_of_frame (rel_appendF _ _)) fun _ => .bind (kept_thOf _) fun _ => .bind .get fun _ => .bind (.unwrap _) fun _ =>
    .ite (fun _ => .fail _) fun _ => rel_of_frame (rel_appendF _ _)) fun _ => rel_of_frame (rel_appendF _ _)

theorem kept_handleFinish (i : UInt32) (bytes : Bytes) : M.Rel (Kept (some i)) (handleFinish e i bytes) := by
  unfold handleFinish
  refine .bind .get fun _ => .bind (.ofOption _ _) fun _ => .bind (rel_expectAny _ _) fun _ => .bind (rel_of_frame (rel_readMsg _ _ _)) fun p => ?_
  obtain ⟨mac, rsp⟩ := p
  exact .bind (.unwrap _) fun _ => .bind (kept_finishTranscript _ _ _ _ _) fun _ => .bind (kept_establish _) fun _ => .modify fun c => kept_rt c _ rfl rfl

theorem kept_finish (slot : Option UInt8) (i : UInt32) : M.Rel (Kept (some i)) (finish e slot i) := by
  unfold finish
  refine .bind .get fun c => .bind (.ofOption _ _) fun _ => .bind (.ofOption _ _) fun _ => .bind (rel_of_frame (Ctx.rel_resetBuffers _)) fun _ => .bind (kept_orClose (kept_encodeFinish _ _)) fun _ =>
    .bind (kept_orClose ?_) fun _ => .bind (kept_orClose ?_) fun _ => kept_orCloseIf (kept_handleFinish _ _)
  · unfold finishSend
    exact .ite (fun _ => rel_of_frame (rel_sendMessage _)) fun _ => rel_of_frame (rel_sendSecured _ _ _)
  · unfold finishReceive
    exact .ite (fun _ => rel_of_frame rel_receiveMessage) fun _ => rel_of_frame (rel_receiveSecured _)

theorem kept_encodePskFinish (i : UInt32) : M.Rel (Kept (some i)) (encodePskFinish e i) := by
  unfold encodePskFinish
  exact .bind .get fun _ => .bind (.unwrap _) fun _ => .bind (rel_of_frame (rel_encodeReq _ _)) fun _ => .bind (.lift _) fun _ => .bind (rel_of_frame (rel_appendF _ _)) fun _ => kept_requestHmac _ _

theorem kept_handlePskFinish (i : UInt32) (bytes : Bytes) : M.Rel (Kept (some i)) (handlePskFinish e i bytes) := by
  unfold handlePskFinish
  refine .bind (rel_expect _ _) fun _ => .bind (rel_of_frame (rel_readMsg _ _ _)) fun p => ?_
  obtain ⟨_, rsp⟩ := p
  exact .bind (rel_of_frame (rel_appendF _ _)) fun _ => kept_establish _

theorem kept_pskFinish (i : UInt32) : M.Rel (Kept (some i)) (pskFinish e i) := by
  unfold pskFinish
  exact .bind .get fun c => .bind (.ofOption _ _) fun _ => .bind (rel_of_frame (Ctx.rel_resetBuffers _)) fun _ => .bind (kept_orClose (kept_encodePskFinish _)) fun _ =>
    .bind (kept_orClose (rel_of_frame (rel_sendSecured _ _ _))) fun _ => .bind (kept_orClose (rel_of_frame (rel_receiveSecured _))) fun _ => kept_orCloseIf (kept_handlePskFinish _ _)

theorem rt_startSession (usePsk : Bool) (slot : UInt8) (t : SummaryHashType) : M.Rel TableKept (startSession e usePsk slot t) := by
  unfold startSession
  exact .ite (fun _ => .bind (rt_keyExchange _ _) fun _ => .bind (rt_kept (kept_finish _ _)) fun _ => .pure _) fun _ =>
    .bind (rt_pskExchange _ _) fun _ => .bind (rt_kept (kept_pskFinish _)) fun _ => .pure _

theorem kept_heartbeat (i : UInt32) : M.Rel (Kept (some i)) (heartbeat e i) := by
  unfold heartbeat handleHeartbeat
  kept

theorem kept_keyUpdateAck (i : UInt32) (req rsp ok : Bool) : M.Rel (Kept (some i)) (keyUpdateAck i req rsp ok) := by
  unfold keyUpdateAck
  refine .bind (rel_onSession _ _ _ rfl (.fail _) (.modify fun s => .inl ?_)) fun _ => .ite (fun _ => .pure _) fun _ => .fail _
  unfold Session.activateUpdate
  repeat' (first | split | rfl)

theorem kept_keyUpdateOp (i : UInt32) (op : KeyUpdateOp) (tag : UInt8) : M.Rel (Kept (some i)) (keyUpdateOp e i op tag) := by
  unfold keyUpdateOp
  refine .bind (rel_of_frame (Ctx.rel_resetBuffers _)) fun _ => .bind (rel_of_frame (rel_encodeReq _ _)) fun _ => .bind (rel_of_frame (rel_sendSecured _ _ _)) fun _ => .bind .get fun _ =>
    .bind (rel_onSession _ _ _ rfl (.fail _) (idKept_keep (Session.keep_createUpdate _ _ _ _))) fun _ => .bind (rel_of_frame (rel_receiveSecured _)) fun _ => ?_
  unfold handleKeyUpdate
  refine .bind (rel_expect _ _) fun r => ?_
  cases KeyUpd.read r with
  | panic => exact .panic
  | err _ _ => exact kept_keyUpdateAck _ _ _ _
  | ok _ _ => exact kept_keyUpdateAck _ _ _ _

theorem kept_keyUpdate (i : UInt32) (op : KeyUpdateOp) : M.Rel (Kept (some i)) (keyUpdate e i op) := by
  unfold keyUpdate
  exact .ite (fun _ => .fail _) fun _ => .bind (kept_keyUpdateOp _ _ _) fun _ => kept_keyUpdateOp _ _ _

theorem kept_endSession (i : UInt32) : M.Rel (Kept (some i)) (endSession e i) := by
  unfold endSession handleEndSession
  have := rel_onSession (sid := some i) i (M.fail .invalidParameter) (Session.teardown i) rfl (.fail _) (idKept_teardown _)
  kept

theorem reset_table (i : Nat) (l : List Session) : ReqTable i (l.map Session.setDefault) := by
  induction l generalizing i with
  | nil => trivial
  | cons a l ih => exact ⟨.inl rfl, ih _⟩

theorem rt_vendorRequest (m : Vendor) : M.Rel TableKept (vendorRequest e sid m) := by
  unfold vendorRequest
  refine .bind (rt_frame (k := true) (Ctx.rel_resetBuffers _)) fun _ => .bind (.modify fun c => ?_) fun _ => .bind (rt_frame (rel_encodeReq (sid := sid) _ _)) fun _ => .bind (rt_frame (rel_transact _)) fun _ => ?_
  · exact ⟨by simp [Ctx.reset], fun _ _ => reset_table _ _⟩
  · unfold handleVendor
    refine .bind (rt_kept (rel_expect _ _)) fun _ => .bind (rt_frame (rel_readMsg (sid := sid) _ _ _)) fun p => ?_
    obtain ⟨m, _⟩ := p
    exact .pure _

end Req
end Verif
