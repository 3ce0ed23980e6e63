/-
What never reaches the device: the response writers only write, sending is the caller's business.
-/
import Verif.Responder.Secured
import Verif.Responder.Exchange

namespace Verif
namespace Rsp

variable {e : Env} {sid : Option UInt32}

/-- no packet is handed to the device. -/
def Unsent (c c' : Ctx) : Prop := c'.sent = c.sent

instance : M.Pre Unsent where
  refl _ := rfl
  trans h h' := Eq.trans h' h

theorem ns_modify {ε : Type} {f : Ctx → Ctx} (h : ∀ c, (f c).sent = c.sent) : M.Rel Unsent (M.modify f : M ε Ctx Unit) := M.Rel.modify h

theorem ns_header (bytes : Bytes) : M.Rel Unsent (header bytes) := by
  intro c; unfold header M.wp
  cases Header.read (Reader.init bytes) <;> first | exact M.Pre.refl c | trivial
theorem ns_checkVersion (bytes : Bytes) : M.Rel Unsent (checkVersion bytes) := by
  unfold checkVersion
  have := ns_header bytes
  rel
theorem ns_readReq {α : Type} (x : Cc → Rd α) (bytes : Bytes) (r : Reader) : M.Rel Unsent (readReq x bytes r) := by
  intro c; unfold readReq
  rw [M.wp_bind, M.wp_get]
  cases x c.cc r <;> first | exact M.Pre.refl c | trivial
theorem ns_readMsg {α : Type} (x : Cc → Rd α) (bytes : Bytes) (r : Reader) : M.Rel Unsent (readMsg x bytes r) := by
  unfold readMsg; rel
theorem ns_liftH {α : Type} (r : Reply) (x : Res α) : M.Rel Unsent (liftH r x) := M.Rel.mapErr _ (M.Rel.lift x)
theorem ns_orUnspecified {α : Type} {x : M Status Ctx α} (h : M.Rel Unsent x) : M.Rel Unsent (orUnspecified x) := M.Rel.mapErr _ h
theorem ns_orAppended {α : Type} {b : Bytes} {x : M Status Ctx α} (h : M.Rel Unsent x) : M.Rel Unsent (orAppended b x) := M.Rel.mapErr _ h
theorem ns_encodeRsp (r : ReqRespCode) (p : Payload) : M.Rel Unsent (encodeRsp r p) := fun c =>
  (encodeRsp_wp r p c).mono (fun _ _ h => by rw [h.1]; exact M.Pre.refl c) (fun _ _ h => by rw [h.1]; exact M.Pre.refl c)
theorem ns_encodeMsgRsp (r : ReqRespCode) (p : Payload) : M.Rel Unsent (encodeMsgRsp r p) := M.Rel.mapErr _ (ns_encodeRsp r p)
theorem ns_summaryHash {ε : Type} (t : SummaryHashType) : M.Rel Unsent (summaryHash e t : M ε Ctx (Option Bytes)) := by
  unfold summaryHash
  apply M.Rel.ite <;> intro _
  · refine M.Rel.bind (ns_modify fun _ => rfl) fun _ => M.Rel.bind M.Rel.get fun c => ?_
    split
    · exact M.Rel.pure _
    · rel
  · exact M.Rel.bind (ns_modify fun _ => rfl) fun _ => M.Rel.pure _
theorem ns_afterNegotiation : M.Rel Unsent afterNegotiation := by
  unfold afterNegotiation; rel
theorem sent_resetM (i : Option UInt32) (c : Ctx) : (Ctx.resetM i c).sent = c.sent := by cases i <;> rfl
theorem sent_resetBuffers (r : ReqRespCode) (i : Option UInt32) (c : Ctx) : (Ctx.resetBuffers r i c).sent = c.sent := by
  unfold Ctx.resetBuffers
  refine Eq.trans (b := (if r ≠ .reqGetMeasurements then Ctx.resetM i c else c).sent) ?_ ?_
  · generalize (if r ≠ .reqGetMeasurements then Ctx.resetM i c else c) = d
    simp only
    split <;> first | rfl | skip
    all_goals (split <;> rfl)
  · split
    · exact sent_resetM i c
    · rfl
theorem ns_resetBuffers {ε : Type} (r : ReqRespCode) (i : Option UInt32) : M.Rel Unsent (M.modify (Ctx.resetBuffers r i) : M ε Ctx Unit) :=
  ns_modify fun c => sent_resetBuffers r i c
theorem ns_appendM1M2 (st : Status) (msg : Bytes) : M.Rel Unsent (Ctx.appendM1M2 e st msg) := by
  intro c
  unfold Ctx.appendM1M2
  simp only [M.wp_bind, M.wp_get]
  split
  · exact (rfl : Unsent c _)
  · split
    · exact (rfl : Unsent c c)
    · exact (rfl : Unsent c _)
theorem ns_appendB (msg : Bytes) : M.Rel Unsent (Ctx.appendB e msg) := ns_appendM1M2 _ _
theorem ns_appendC (msg : Bytes) : M.Rel Unsent (Ctx.appendC e msg) := ns_appendM1M2 _ _
theorem ns_appendBPlain (msg : Bytes) : M.Rel Unsent (appendBPlain e sid msg) := by
  unfold appendBPlain
  cases sid
  · exact ns_appendB _
  · exact M.Rel.pure _
theorem ns_appendM (msg : Bytes) : M.Rel Unsent (Ctx.appendM e sid msg) := by
  intro c
  unfold Ctx.appendM
  simp only [M.wp_bind, M.wp_get]
  cases sid with
  | none =>
    simp only
    split
    · exact (rfl : Unsent c _)
    · split
      · exact (rfl : Unsent c c)
      · exact (rfl : Unsent c _)
  | some i =>
    simp only
    split
    · exact (rfl : Unsent c c)
    · split
      · exact (rfl : Unsent c _)
      · split
        · exact (rfl : Unsent c c)
        · exact (rfl : Unsent c _)
theorem ns_appendA (msg : Bytes) : M.Rel Unsent (Ctx.appendA msg) := by
  intro c
  unfold Ctx.appendA
  simp only [M.wp_bind, M.wp_get]
  split
  · exact (rfl : Unsent c _)
  · exact (rfl : Unsent c c)
theorem ns_constructSlot (i : Fin 8) : M.Rel Unsent (Ctx.constructSlot e i) := by
  intro c
  unfold Ctx.constructSlot
  simp only [M.wp_bind, M.wp_get]
  split
  · split
    · trivial
    · split
      · split
        · exact (rfl : Unsent c _)
        · exact (rfl : Unsent c c)
      · trivial
  · exact (rfl : Unsent c c)
theorem ns_constructChains : M.Rel Unsent (Ctx.constructChains e) := by
  unfold Ctx.constructChains
  rel <;> exact ns_constructSlot _
theorem ns_onSession {α : Type} (i : UInt32) (missing : M Status Ctx α) (x : M Status Session α)
    (hm : M.Rel Unsent missing) : M.Rel Unsent (Ctx.onSession i missing x) := by
  intro c
  unfold Ctx.onSession
  simp only [M.wp_bind, M.wp_get]
  split
  · exact hm c
  · split
    · exact (rfl : Unsent c _)
    · exact (rfl : Unsent c _)
    · trivial
theorem ns_appendK {i : UInt32} (msg : Bytes) : M.Rel Unsent (Ctx.appendK e i msg) := by
  intro c
  unfold Ctx.appendK
  simp only [M.wp_bind, M.wp_get]
  split
  · trivial
  · split
    · exact (rfl : Unsent c _)
    · split
      · exact (rfl : Unsent c c)
      · exact (rfl : Unsent c _)
theorem ns_appendF {i : UInt32} (isReq : Bool) (msg : Bytes) : M.Rel Unsent (Ctx.appendF e isReq i msg) := by
  intro c
  unfold Ctx.appendF
  simp only [M.wp_bind, M.wp_get]
  split
  · trivial
  · split
    · exact (rfl : Unsent c c)
    · split
      · exact (rfl : Unsent c _)
      · rw [M.wp_bind]
        unfold M.wp
        cases Ctx.mutDigest e isReq c _
        · exact (rfl : Unsent c _)
        · exact (rfl : Unsent c c)
        · trivial
theorem ns_addK {i : UInt32} (msg : Bytes) : M.Rel Unsent (addK e i msg) := M.Rel.mapErr _ (ns_appendK msg)
theorem ns_addF {i : UInt32} (msg : Bytes) : M.Rel Unsent (addF e i msg) := M.Rel.mapErr _ (ns_appendF false msg)
theorem ns_thOf (i : UInt32) : M.Rel Unsent (thOf e i) := by
  unfold thOf; rel
theorem ns_finishStart (bytes : Bytes) : M.Rel Unsent (finishStart bytes) := by
  unfold finishStart; rel

/-- prove that a writer sends nothing. -/
macro "unsent" : tactic => `(tactic|
  repeat' (first
    | with_reducible assumption
    | with_reducible first
      | exact M.Rel.pure _ | exact M.Rel.panic | exact M.Rel.fail _ | exact M.Rel.unwrap _ | exact M.Rel.ofOption _ _
      | exact M.Rel.get | exact M.Rel.lift _ | exact ns_header _ | exact ns_checkVersion _ | exact ns_readReq _ _ _
      | exact ns_liftH _ _ | exact ns_encodeRsp _ _ | exact ns_encodeMsgRsp _ _ | exact ns_summaryHash _ | exact ns_afterNegotiation
      | exact ns_appendBPlain _ | exact ns_resetBuffers _ _ | exact ns_appendB _ | exact ns_appendC _
      | exact ns_appendM _ | exact ns_appendA _ | exact ns_constructChains | exact ns_addK _ | exact ns_addF _ | exact ns_thOf _ | exact ns_finishStart _
      | exact ns_readMsg _ _ _
      | apply ns_onSession
      | apply ns_orUnspecified | apply ns_orAppended
      | apply M.Rel.mapErr | apply M.Rel.try' | apply M.Rel.ite | apply M.Rel.bind
      | intro _))

/-! ### The writers -/

theorem ns_errorResponse (code : ErrorCode) (bytes : Bytes) : M.Rel Unsent (errorResponse code bytes) := by
  unfold errorResponse
  refine M.Rel.bind M.Rel.get fun c => ?_
  split <;> unsent
theorem ns_digestRsp (bytes : Bytes) : M.Rel Unsent (digestRsp e sid bytes) := by
  unfold digestRsp; unsent
theorem ns_certificateRsp (bytes : Bytes) : M.Rel Unsent (certificateRsp e sid bytes) := by
  unfold certificateRsp; unsent
theorem ns_heartbeatRsp (i : UInt32) (bytes : Bytes) : M.Rel Unsent (heartbeatRsp i bytes) := by
  unfold heartbeatRsp; unsent
theorem ns_keyUpdateRsp (i : UInt32) (bytes : Bytes) : M.Rel Unsent (keyUpdateRsp e i bytes) := by
  unfold keyUpdateRsp; unsent
theorem ns_endSessionRsp (i : UInt32) (bytes : Bytes) : M.Rel Unsent (endSessionRsp i bytes) := by
  unfold endSessionRsp; unsent
theorem ns_vendorRsp (bytes : Bytes) : M.Rel Unsent (vendorRsp e sid bytes) := by
  unfold vendorRsp; unsent
theorem ns_capabilityRsp (bytes : Bytes) : M.Rel Unsent (capabilityRsp bytes) := by
  unfold capabilityRsp
  unsent
  all_goals exact ns_modify fun _ => rfl
theorem ns_algorithmRsp (bytes : Bytes) : M.Rel Unsent (algorithmRsp e bytes) := by
  unfold algorithmRsp
  unsent
  all_goals exact ns_modify fun _ => rfl

theorem ns_finishMutAuth {i : UInt32} (m : Finish) : M.Rel Unsent (finishMutAuth e i m) := by
  unfold finishMutAuth; unsent
theorem ns_checkHmac {i : UInt32} (mac : Bytes) : M.Rel Unsent (checkHmac e i mac) := by
  unfold checkHmac; unsent
theorem ns_finishAnswer {i : UInt32} : M.Rel Unsent (finishAnswer e i) := by
  unfold finishAnswer; unsent
theorem ns_deriveData {i : UInt32} : M.Rel Unsent (deriveData e i) := by
  unfold deriveData; unsent
theorem ns_finishRsp {i : UInt32} (bytes : Bytes) : M.Rel Unsent (finishRsp e i bytes) := by
  unfold finishRsp
  have h1 := ns_finishAnswer (e := e) (i := i)
  have h2 := ns_deriveData (e := e) (i := i)
  unsent
  all_goals first | exact ns_finishMutAuth _ | exact ns_checkHmac _
theorem ns_pskFinishRsp {i : UInt32} (bytes : Bytes) : M.Rel Unsent (pskFinishRsp e i bytes) := by
  unfold pskFinishRsp
  have h2 := ns_deriveData (e := e) (i := i)
  unsent
  all_goals exact ns_checkHmac _

end Rsp
end Verif
