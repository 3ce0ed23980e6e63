/-
Histories of a requester: its public operations, and what they do to the transcripts outside sessions.
-/
import Verif.Requester.Table

namespace Verif
namespace Req
open Rsp

variable {e : REnv} {sid : Option UInt32}

/-- the public operations (requester/context.rs, requester/*_req.rs).  `start_session` is `keyExchange` and `finish`, or
`pskExchange` and `pskFinish`. -/
inductive Op
  | connect
  | digests (sid : Option UInt32)
  | certificate (fuel : Nat) (sid : Option UInt32) (slot : UInt8)
  | challenge (slot : UInt8) (t : SummaryHashType)
  | measurements (sid : Option UInt32) (slot attr : UInt8) (op : MeasOperation)
  | keyExchange (slot : UInt8) (t : SummaryHashType)
  | pskExchange (t : SummaryHashType) (hint : Bytes)
  | finish (slot : Option UInt8) (sid : UInt32)
  | pskFinish (sid : UInt32)
  | heartbeat (sid : UInt32)
  | keyUpdate (sid : UInt32) (op : KeyUpdateOp)
  | endSession (sid : UInt32)
  | vendor (sid : Option UInt32) (m : Vendor)
  | sendApp (sid : UInt32) (data : Bytes)
  | receiveApp (sid : UInt32)

/-- forget the result. -/
def quiet {α : Type} (x : M Status Ctx α) : M Status Ctx Unit := do
  let _ ← x
  pure ()

/-- run an operation. -/
def Op.run (e : REnv) : Op → M Status Ctx Unit
  | .connect => initConnection e
  | .digests sid => getDigests e sid
  | .certificate fuel sid slot => getCertificate e fuel sid slot
  | .challenge slot t => Req.challenge e slot t
  | .measurements sid slot attr op => quiet (getMeasurements e sid slot attr op)
  | .keyExchange slot t => quiet (Req.keyExchange e slot t)
  | .pskExchange t hint => quiet (Req.pskExchange e t hint)
  | .finish slot sid => Req.finish e slot sid
  | .pskFinish sid => Req.pskFinish e sid
  | .heartbeat sid => Req.heartbeat e sid
  | .keyUpdate sid op => Req.keyUpdate e sid op
  | .endSession sid => Req.endSession e sid
  | .vendor sid m => quiet (vendorRequest e sid m)
  | .sendApp sid data => sendSecured e sid data true
  | .receiveApp sid => quiet (receiveSecured e sid)

/-- the context after an operation that returned, with success or an error. -/
def Left (x : M Status Ctx Unit) (c c' : Ctx) : Prop := x c = .ok () c' ∨ ∃ st, x c = .err st c'

/-- a history: operations that succeeded or failed, each in its own environment. -/
inductive Runs : Ctx → List (REnv × Op) → Ctx → Prop
  | nil {c : Ctx} : Runs c [] c
  | cons {c c1 c' : Ctx} {e : REnv} {op : Op} {h : List (REnv × Op)} : Left (op.run e) c c1 → Runs c1 h c' → Runs c ((e, op) :: h) c'

/-- a state of a requester with `n` session slots after some history. -/
def Reachable (n : Nat) (c : Ctx) : Prop := ∃ cfg prov h, Runs (Ctx.new cfg prov n) h c

/-- any operation keeps the table in order. -/
theorem rt_quiet {R : Ctx → Ctx → Prop} [M.Pre R] {α : Type} {x : M Status Ctx α} (h : M.Rel R x) : M.Rel R (quiet x) := .bind h fun _ => .pure _

theorem rt_op (op : Op) : M.Rel TableKept (op.run e) := by
  cases op with
  | connect => exact rt_initConnection
  | digests sid => exact rt_kept kept_getDigests
  | certificate fuel sid slot => exact rt_getCertificate _ _
  | challenge slot t => exact rt_kept (kept_challenge _ _)
  | measurements sid slot attr op => exact rt_quiet (rt_kept (kept_getMeasurements _ _ _))
  | keyExchange slot t => exact rt_quiet (rt_keyExchange _ _)
  | pskExchange t hint => exact rt_quiet (rt_pskExchange _ _)
  | finish slot sid => exact rt_kept (kept_finish _ _)
  | pskFinish sid => exact rt_kept (kept_pskFinish _)
  | heartbeat sid => exact rt_kept (kept_heartbeat _)
  | keyUpdate sid op => exact rt_kept (kept_keyUpdate _ _)
  | endSession sid => exact rt_kept (kept_endSession _)
  | vendor sid m => exact rt_quiet (rt_vendorRequest _)
  | sendApp sid data => exact rt_frame (rel_sendSecured _ _ _)
  | receiveApp sid => exact rt_quiet (rt_frame (rel_receiveSecured _))

theorem Left.rel {R : Ctx → Ctx → Prop} [M.Pre R] {x : M Status Ctx Unit} {c c' : Ctx} (hx : M.Rel R x) (h : Left x c c') : R c c' := by
  rcases h with h | ⟨st, h⟩
  · exact hx.ok h
  · exact hx.err h

theorem Runs.table {c c' : Ctx} {h : List (REnv × Op)} (hr : Runs c h c') : TableKept c c' := by
  induction hr with
  | nil => exact M.Pre.refl _
  | cons hl _ ih => exact M.Pre.trans (hl.rel (rt_op _)) ih

theorem Runs.append {c c1 c2 : Ctx} {h h' : List (REnv × Op)} (hr : Runs c h c1) (hr' : Runs c1 h' c2) : Runs c (h ++ h') c2 := by
  induction hr with
  | nil => exact hr'
  | cons hl _ ih => exact .cons hl (ih hr')

/-- In every history the session table keeps its length, and slots in use have the requester half of their position. -/
theorem Reachable.table {n : Nat} {c : Ctx} (hn : n < 0xFFFD) (h : Reachable n c) : c.sessions.length = n ∧ ReqTable 0 c.sessions := by
  obtain ⟨cfg, prov, h, hr⟩ := h
  obtain ⟨h1, h2⟩ := hr.table
  have hl : (Ctx.new cfg prov n).sessions.length = n := by simp [Ctx.new]
  refine ⟨h1.trans hl, h2 (by rw [hl]; exact hn) ?_⟩
  show ReqTable 0 (List.replicate n Session.new)
  generalize 0 = i
  clear hn h1 h2 hl hr
  induction n generalizing i with
  | zero => trivial
  | succ n ih => exact ⟨.inl rfl, ih _⟩

/-! ### transcripts outside sessions -/

/-- the transcripts outside sessions, and what they depend on, are as they were. -/
structure Still (c c' : Ctx) : Prop where
  neg : c'.neg = c.neg
  messageA : c'.rt.messageA = c.rt.messageA
  m1m2 : c'.rt.m1m2 = c.rt.m1m2
  l1l2 : c'.rt.l1l2 = c.rt.l1l2
  state : c'.rt.state = c.rt.state

instance : M.Pre Still where
  refl _ := ⟨rfl, rfl, rfl, rfl, rfl⟩
  trans h h' := ⟨h'.neg.trans h.neg, h'.messageA.trans h.messageA, h'.m1m2.trans h.m1m2, h'.l1l2.trans h.l1l2, h'.state.trans h.state⟩

theorem still_onSession {α : Type} (i : UInt32) (missing : M Status Ctx α) (x : M Status Session α) (hm : M.Rel Still missing) : M.Rel Still (Ctx.onSession i missing x) := by
  intro c
  unfold Ctx.onSession
  simp only [M.wp_bind, M.wp_get]
  split
  · exact hm c
  · split
    · exact ⟨rfl, rfl, rfl, rfl, rfl⟩
    · exact ⟨rfl, rfl, rfl, rfl, rfl⟩
    · trivial

theorem still_devSend (pkt : Bytes) : M.Rel Still (Ctx.devSend e.toEnv pkt) := by
  intro c
  unfold Ctx.devSend
  simp only [M.wp_bind, M.wp_get, M.wp_set]
  split <;> exact ⟨rfl, rfl, rfl, rfl, rfl⟩

theorem still_encodeSecured (i : UInt32) (msg : Bytes) (isReq isApp : Bool) : M.Rel Still (Ctx.encodeSecured e.toEnv i msg isReq isApp) := by
  unfold Ctx.encodeSecured
  rel
  exact still_onSession _ _ _ (.fail _)
theorem still_decodeSecured (i : UInt32) (p : Bytes) (n : Nat) : M.Rel Still (Ctx.decodeSecured e.toEnv i p n) := by
  unfold Ctx.decodeSecured
  rel
  exact still_onSession _ _ _ (.fail _)
theorem still_receive : M.Rel Still (receive e) := by unfold receive; rel
theorem still_sendMessage (msg : Bytes) : M.Rel Still (sendMessage e msg) := by
  unfold sendMessage
  rel
  exact still_devSend _
theorem still_sendSecured (i : UInt32) (msg : Bytes) (isApp : Bool) : M.Rel Still (sendSecured e i msg isApp) := by
  unfold sendSecured
  rel
  · exact still_encodeSecured _ _ _ _
  · exact still_devSend _
theorem still_receiveMessage : M.Rel Still (receiveMessage e) := by
  unfold receiveMessage
  have := still_receive (e := e)
  rel
theorem still_receiveSecured (i : UInt32) : M.Rel Still (receiveSecured e i) := by
  unfold receiveSecured
  have := still_receive (e := e)
  rel
  exact still_decodeSecured _ _ _
theorem still_transact (msg : Bytes) : M.Rel Still (transact e sid msg) := by
  unfold transact
  cases sid with
  | none => exact M.Rel.bind (still_sendMessage _) fun _ => still_receiveMessage
  | some i => exact M.Rel.bind (still_sendSecured _ _ _) fun _ => still_receiveSecured _
theorem still_encodeReq (k : ReqRespCode) (p : Payload) : M.Rel Still (encodeReq k p) := by
  unfold encodeReq
  refine M.Rel.bind M.Rel.get fun c0 c => ?_
  unfold M.wp encodeAs
  cases Msg.encode c.cc ⟨⟨c0.neg.version, k⟩, p⟩ (Writer.init 4096) with
  | panic => trivial
  | err _ _ => exact M.Pre.refl _
  | ok n w =>
    dsimp only
    by_cases hn : n ≤ 4096
    · rw [if_pos hn]; exact M.Pre.refl (R := Still) c
    · rw [if_neg hn]; trivial
theorem still_errorPayload {α : Type} (p : UInt8) : M.Rel Still (errorPayload sid p : M Status Ctx α) := by
  unfold errorPayload simpleError
  apply M.Rel.ite <;> intro _
  · cases sid with
    | none => exact M.Rel.fail _
    | some i => exact M.Rel.bind (still_onSession _ _ _ (M.Rel.fail _)) fun _ => M.Rel.fail _
  · rel
    cases sid with
    | none => exact M.Rel.fail _
    | some i => exact M.Rel.bind (still_onSession _ _ _ (M.Rel.fail _)) fun _ => M.Rel.fail _
theorem still_sort (k : ReqRespCode) (bytes : Bytes) (h : Header) (r : Reader) : M.Rel Still (sort sid k bytes h r) := by
  unfold sort handleError
  rel
  exact still_errorPayload _
theorem still_expect (k : ReqRespCode) (bytes : Bytes) : M.Rel Still (expect sid k bytes) := by
  unfold expect
  rel
  exact still_sort _ _ _ _
theorem still_expectAny (k : ReqRespCode) (bytes : Bytes) : M.Rel Still (expectAnyVersion sid k bytes) := by
  unfold expectAnyVersion
  rel
  exact still_sort _ _ _ _
theorem still_readMsg {α : Type} (x : Cc → Rd α) (bytes : Bytes) (r : Reader) : M.Rel Still (Rsp.readMsg x bytes r) := by
  unfold Rsp.readMsg; rel

theorem still_appendK (i : UInt32) (msg : Bytes) : M.Rel Still (Ctx.appendK e.toEnv i msg) := by
  intro c
  unfold Ctx.appendK
  simp only [M.wp_bind, M.wp_get]
  split
  · trivial
  · split
    · exact ⟨rfl, rfl, rfl, rfl, rfl⟩
    · split
      · exact M.Pre.refl (R := Still) c
      · exact ⟨rfl, rfl, rfl, rfl, rfl⟩
theorem still_appendF (isReq : Bool) (i : UInt32) (msg : Bytes) : M.Rel Still (Ctx.appendF e.toEnv isReq i msg) := by
  intro c
  unfold Ctx.appendF
  simp only [M.wp_bind, M.wp_get]
  split
  · trivial
  · split
    · exact M.Pre.refl (R := Still) c
    · split
      · exact ⟨rfl, rfl, rfl, rfl, rfl⟩
      · rw [M.wp_bind]
        refine (M.Rel.lift (R := Still) _ c).mono (fun _ c1 h1 => ?_) fun _ _ h => h
        exact ⟨rfl, rfl, rfl, rfl, rfl⟩
theorem still_appendM_in (i : UInt32) (msg : Bytes) : M.Rel Still (Ctx.appendM e.toEnv (some i) msg) := by
  intro c
  unfold Ctx.appendM
  simp only [M.wp_bind, M.wp_get]
  split
  · exact M.Pre.refl (R := Still) c
  · split
    · exact ⟨rfl, rfl, rfl, rfl, rfl⟩
    · split
      · exact M.Pre.refl (R := Still) c
      · exact ⟨rfl, rfl, rfl, rfl, rfl⟩

end Req
end Verif
