/-
Frame lemmas for sending and for the response writers.
-/
import Verif.Responder.Frame

namespace Verif
namespace Rsp

variable {k : Bool} {sid : Option UInt32} {e : Env}

/-! ### Shapes of messages -/

/-- a message whose second byte (the request/response code) is `code`. -/
def Starts (code : UInt8) (b : Bytes) : Prop := ∃ v t, b = v :: code :: t

theorem Starts.get {code : UInt8} {b : Bytes} (h : Starts code b) : b[1]? = some code := by
  obtain ⟨v, t, rfl⟩ := h; rfl
theorem Starts.of_prefix {code : UInt8} {b b' : Bytes} (h : Starts code b) (hp : b <+: b') : Starts code b' := by
  obtain ⟨v, t, rfl⟩ := h
  obtain ⟨u, rfl⟩ := hp
  exact ⟨v, t ++ u, rfl⟩
theorem Starts.take {code : UInt8} {b : Bytes} (h : Starts code b) {n : Nat} (hn : 2 ≤ n) : Starts code (b.take n) := by
  obtain ⟨v, t, rfl⟩ := h
  obtain ⟨m, rfl⟩ : ∃ m, n = m + 2 := ⟨n - 2, by omega⟩
  exact ⟨v, t.take m, rfl⟩

theorem header_encode (h : Header) (w : Writer) (hw : w.out.length + 2 ≤ w.cap) :
    h.encode w = .ok 2 { w with out := w.out ++ [h.version.get, h.code.get] } := by
  have h1 : ¬ w.cap - w.out.length < 1 := by omega
  have h2 : ¬ w.cap - (w.out.length + 1) < 1 := by omega
  simp [Header.encode, Enc.seq, SpdmVersion.encode, ReqRespCode.encode, encU8, Enc.push, Writer.left, h1, h2]

/-- an encoded message is its two header bytes and whatever the payload encoder appended. -/
theorem msg_encode_starts (c : Cc) (m : Msg) (w : Writer) (hw : w.out.length + 2 ≤ w.cap) :
    (m.encode c).wp w (fun _ w' => w.out ++ [m.header.version.get, m.header.code.get] <+: w'.out)
      (fun _ w' => w.out ++ [m.header.version.get, m.header.code.get] <+: w'.out) := by
  unfold Msg.encode Enc.seq
  rw [M.wp_bind, M.wp, header_encode _ _ hw]
  simp only [M.wp_bind]
  have := (Appends.seq_cons (Appends.payload c m.payload) Appends.seq_nil) { w with out := w.out ++ [m.header.version.get, m.header.code.get] }
  exact this.mono (fun _ _ h => h.2) (fun _ _ h => h.2)

theorem encodeRsp_wp (r : ReqRespCode) (p : Payload) (c : Ctx) :
    (encodeRsp r p).wp c (fun b c' => c' = c ∧ [c.neg.version.get, r.get] <+: b)
      (fun rep c' => c' = c ∧ rep.code = .unspecified ∧ rep.data = 0 ∧ [c.neg.version.get, r.get] <+: rep.pre) := by
  have h := msg_encode_starts c.cc ⟨⟨c.neg.version, r⟩, p⟩ (Writer.init msgSize) (by simp [Writer.init, msgSize])
  unfold M.wp at h
  cases hm : Msg.encode c.cc ⟨⟨c.neg.version, r⟩, p⟩ (Writer.init msgSize) with
  | ok a w => rw [hm] at h; simp only [M.wp, encodeRsp, hm]; exact ⟨trivial, h⟩
  | err a w => rw [hm] at h; simp only [M.wp, encodeRsp, hm]; exact ⟨trivial, trivial, trivial, h⟩
  | panic => simp only [M.wp, encodeRsp, hm]

theorem rel_encodeRsp (r : ReqRespCode) (p : Payload) : M.Rel (Frame k sid) (encodeRsp r p) := fun c =>
  (encodeRsp_wp r p c).mono (fun _ _ h => by rw [h.1]; exact M.Pre.refl c) (fun _ _ h => by rw [h.1]; exact M.Pre.refl c)

/-! ### ERROR messages -/

/-- the ERROR message: version, 0x7F, error code, error data. -/
def errorBytes (v : SpdmVersion) (code : ErrorCode) (data : UInt8) : Bytes := [v.get, 0x7F, code.get, data]

theorem error_writes (c : Ctx) (code : ErrorCode) (data : UInt8) :
    Writes ((errorMsg c code data).encode c.cc) (errorBytes c.neg.version code data) := by
  have h1 : Writes (errorMsg c code data).header.encode [c.neg.version.get, 0x7F] := by
    unfold Header.encode
    exact Writes.seq_cons (Writes.u8 _) (Writes.seq_cons (Writes.u8 _) Writes.seq_nil)
  have h2 : Writes ((errorMsg c code data).payload.encode c.cc) [code.get, data] := by
    have := ErrorRsp.encode_writes ⟨code, data, .none⟩
    exact this.cast (by simp [ErrorRsp.wire, ErrExt.wire])
  exact (Writes.seq_cons h1 (Writes.seq_cons h2 Writes.seq_nil)).cast (by simp [errorBytes])

theorem writeError_nil (c : Ctx) (r : Reply) (h : r.pre = []) : writeError c r = some (errorBytes c.neg.version r.code r.data) := by
  have hw := error_writes c r.code r.data ⟨msgSize, []⟩ (by simp [Writer.WF])
  unfold writeError
  rw [h]
  have := hw.1 (by simp [errorBytes, msgSize])
  rw [this]
  simp

/-- an error written after `pre` leaves `pre` in place. -/
theorem writeError_prefix (c : Ctx) (r : Reply) (h : r.pre.length + 4 ≤ msgSize) :
    writeError c r = some (r.pre ++ errorBytes c.neg.version r.code r.data) := by
  have hw := error_writes c r.code r.data ⟨msgSize, r.pre⟩ (by simp [Writer.WF]; omega)
  unfold writeError
  have := hw.1 (by simpa [errorBytes] using h)
  rw [this]

theorem writeError_pre {c : Ctx} {r : Reply} {b : Bytes} (h : writeError c r = some b) : r.pre <+: b := by
  have hw : Appends ((errorMsg c r.code r.data).encode c.cc) :=
    Appends.seq_cons (Appends.header _) (Appends.seq_cons (Appends.payload _ _) Appends.seq_nil)
  have hw := hw ⟨msgSize, r.pre⟩
  unfold writeError at h
  unfold M.wp at hw
  split at h
  · rename_i w he; rw [he] at hw; cases h; exact hw.2
  · rename_i w he; rw [he] at hw; cases h; exact hw.2
  · simp at h

/-! ### Sending in the clear -/

/-- connection state after a message with code `op` was sent outside a session. -/
def afterState (op : UInt8) (st : ConnState) : ConnState :=
  if op = 0x04 then .afterVersion
  else if op = 0x61 then .afterCapabilities
  else if op = 0x63 then .negotiated
  else if op = 0x01 then (if st.code < 4 then .afterDigest else st)
  else if op = 0x02 then (if st.code < 5 then .afterCertificate else st)
  else if op = 0x03 then .authenticated
  else st

/-- the context after packet `pkt` was handed to the device. -/
def withSent (pkt : Bytes) (c : Ctx) : Ctx := { c with sent := c.sent ++ [pkt] }
/-- the context in another connection state. -/
def withState (st : ConnState) (c : Ctx) : Ctx := { c with rt := { c.rt with state := st } }

theorem afterSend_eq (op : UInt8) (h : op ≠ 0x65) (c : Ctx) :
    afterSend op c = .ok () (withState (afterState op c.rt.state) c) := by
  unfold afterSend afterState
  simp only [ReqRespCode.get, setState]
  by_cases h1 : op = 0x04
  · simp [h1, withState]
  by_cases h2 : op = 0x61
  · simp [h2, withState]
  by_cases h3 : op = 0x63
  · simp [h3, withState]
  by_cases h4 : op = 0x01
  · subst h4
    have e4 : ConnState.afterDigest.code = 4 := rfl
    by_cases hs : c.rt.state.code < 4
    · simp [hs, withState, e4]
    · simp [hs, withState, e4]
  by_cases h5 : op = 0x02
  · subst h5
    have e5 : ConnState.afterCertificate.code = 5 := rfl
    by_cases hs : c.rt.state.code < 5
    · simp [hs, withState, e5]
    · simp [hs, withState, e5]
  by_cases h6 : op = 0x03
  · simp [h6, withState]
  · simp [h1, h2, h3, h4, h5, h6, h, withState]

theorem sendPlain_wp {b : Bytes} {code : UInt8} (hb : Starts code b) (hc : code ≠ 0x65) (c : Ctx) :
    (sendPlain e b).wp c
      (fun _ c' => ∃ pkt, Ctx.encap e b = .ok pkt ∧ e.send c.sent.length pkt = none ∧
        c' = withState (afterState code c.rt.state) (withSent pkt c))
      (fun _ c' => c' = c ∨ ∃ pkt, Ctx.encap e b = .ok pkt ∧ c' = withSent pkt c) := by
  unfold sendPlain
  rw [M.wp_bind]
  cases hp : Ctx.encap e b with
  | ok pkt =>
    rw [M.wp]
    simp only [Res.lift]
    rw [M.wp_bind]
    unfold Ctx.devSend
    simp only [M.wp_bind, M.wp_get, M.wp_set]
    cases hs : e.send c.sent.length pkt with
    | some st => exact .inr ⟨pkt, rfl, rfl⟩
    | none =>
      simp only [M.wp_pure, hb.get]
      show M.wp (afterSend code) _ _ _
      rw [M.wp, afterSend_eq _ hc]
      exact ⟨pkt, rfl, hs, rfl⟩
  | err st => exact .inl rfl
  | panic => trivial

/-- the message that actually leaves: the given one, or ResponseTooLarge. -/
def outgoing (c : Ctx) (b : Bytes) : Bytes :=
  if tooLarge c b then errorBytes c.neg.version .responseTooLarge 0 else b

theorem starts_error (v : SpdmVersion) (code : ErrorCode) (d : UInt8) : Starts 0x7F (errorBytes v code d) := ⟨_, _, rfl⟩

theorem sendMessage_wp {b : Bytes} {code : UInt8} (hb : Starts code b) (hc : code ≠ 0x65) (c : Ctx) :
    (sendMessage e b).wp c
      (fun _ c' => ∃ pkt, Ctx.encap e (outgoing c b) = .ok pkt ∧ e.send c.sent.length pkt = none ∧
        c' = withState (afterState (if tooLarge c b then 0x7F else code) c.rt.state) (withSent pkt c))
      (fun _ c' => c' = c ∨ ∃ pkt, Ctx.encap e (outgoing c b) = .ok pkt ∧ c' = withSent pkt c) := by
  unfold sendMessage outgoing
  rw [M.wp_bind, M.wp_get]
  cases ht : tooLarge c b
  · simp only [Bool.false_eq_true, if_false]
    exact sendPlain_wp hb hc c
  · simp only [if_true, writeError_nil c { code := .responseTooLarge } rfl]
    rw [M.wp_bind, M.wp_unwrap]
    intro a ha
    cases ha
    rw [M.wp_ite]
    refine ⟨fun _ => trivial, fun _ => ?_⟩
    exact sendPlain_wp (starts_error _ _ _) (by decide) c

/-- sending an ERROR message changes nothing but the packets sent. -/
theorem sendMessage_error_wp {b : Bytes} (hb : Starts 0x7F b) (c : Ctx) :
    (sendMessage e b).wp c
      (fun _ c' => ∃ pkt, Ctx.encap e (outgoing c b) = .ok pkt ∧ e.send c.sent.length pkt = none ∧ c' = withSent pkt c)
      (fun _ c' => c' = c ∨ ∃ pkt, Ctx.encap e (outgoing c b) = .ok pkt ∧ c' = withSent pkt c) := by
  refine (sendMessage_wp hb (by decide) c).mono ?_ (fun _ _ h => h)
  rintro _ c' ⟨pkt, h1, h2, rfl⟩
  refine ⟨pkt, h1, h2, ?_⟩
  simp [afterState, withState, withSent]

theorem frame_withSent (pkt : Bytes) (c : Ctx) : Frame k sid c (withSent pkt c) :=
  ⟨rfl, rfl, rfl, All2.refl (Loc.refl _) _, List.prefix_append _ _, fun _ => rfl, fun _ => rfl, fun _ => rfl, rfl⟩

theorem rel_sendMessage_error {b : Bytes} (hb : Starts 0x7F b) : M.Rel (Frame k sid) (sendMessage e b) := by
  intro c
  refine (sendMessage_error_wp hb c).mono ?_ ?_
  · rintro _ _ ⟨pkt, _, _, rfl⟩
    exact frame_withSent pkt c
  · rintro _ _ (rfl | ⟨pkt, _, rfl⟩)
    · exact M.Pre.refl _
    · exact frame_withSent pkt c

theorem rel_quiet {ε α : Type} {R : Ctx → Ctx → Prop} {x : M Status Ctx α} (h : M.Rel R x) : M.Rel R (quiet x : M ε Ctx Unit) := by
  intro c
  have := h c
  unfold M.wp at this ⊢
  unfold quiet
  cases hx : x c <;> rw [hx] at this <;> first | exact this | trivial

theorem rel_sendError {ε : Type} (code : ErrorCode) : M.Rel (Frame k sid) (sendError e code : M ε Ctx Unit) := by
  intro c
  unfold sendError
  rw [M.wp_bind, M.wp_get, M.wp_bind, writeError_nil _ _ rfl, M.wp_unwrap]
  intro a ha
  cases ha
  exact rel_quiet (rel_sendMessage_error (starts_error _ _ _)) c

/-! ### Building blocks of the writers -/

theorem rel_header (bytes : Bytes) : M.Rel (Frame k sid) (header bytes) := by
  intro c; unfold header M.wp
  cases Header.read (Reader.init bytes) <;> first | exact M.Pre.refl c | trivial
theorem rel_checkVersion (bytes : Bytes) : M.Rel (Frame k sid) (checkVersion bytes) := by
  unfold checkVersion
  have := rel_header (k := k) (sid := sid) bytes
  rel
theorem rel_readReq {α : Type} (x : Cc → Rd α) (bytes : Bytes) (r : Reader) : M.Rel (Frame k sid) (readReq x bytes r) := by
  intro c; unfold readReq
  rw [M.wp_bind, M.wp_get]
  cases x c.cc r <;> first | exact M.Pre.refl c | trivial
theorem rel_liftH {α : Type} (r : Reply) (x : Res α) : M.Rel (Frame k sid) (liftH r x) := M.Rel.mapErr _ (M.Rel.lift x)
theorem rel_orUnspecified {α : Type} {x : M Status Ctx α} (h : M.Rel (Frame k sid) x) : M.Rel (Frame k sid) (orUnspecified x) := M.Rel.mapErr _ h
theorem rel_orAppended {α : Type} {b : Bytes} {x : M Status Ctx α} (h : M.Rel (Frame k sid) x) : M.Rel (Frame k sid) (orAppended b x) := M.Rel.mapErr _ h
theorem rel_rt {ε : Type} (f : Runtime → Runtime) (h : ∀ r, (f r).state = r.state ∧ (f r).lastSession = r.lastSession ∧ (f r).messageA = r.messageA) :
    M.Rel (Frame k sid) (M.modify fun c => { c with rt := f c.rt } : M ε Ctx Unit) :=
  M.Rel.modify fun c => Ctx.frame_rt c _ (h c.rt).1 (h c.rt).2.1 (h c.rt).2.2
theorem rel_summaryHash {ε : Type} (t : SummaryHashType) : M.Rel (Frame k sid) (summaryHash e t : M ε Ctx (Option Bytes)) := by
  unfold summaryHash
  apply M.Rel.ite <;> intro _
  · refine M.Rel.bind (rel_rt (fun r => { r with needSummary := true }) fun _ => ⟨rfl, rfl, rfl⟩) fun _ => M.Rel.bind M.Rel.get fun c => ?_
    split
    · exact M.Rel.pure _
    · rel
  · exact M.Rel.bind (rel_rt (fun r => { r with needSummary := false }) fun _ => ⟨rfl, rfl, rfl⟩) fun _ => M.Rel.pure _
theorem rel_afterNegotiation : M.Rel (Frame k sid) afterNegotiation := by
  unfold afterNegotiation; rel
theorem rel_appendBPlain (msg : Bytes) : M.Rel (Frame k sid) (appendBPlain e sid msg) := by
  unfold appendBPlain
  cases sid
  · exact Ctx.rel_appendB _
  · exact M.Rel.pure _

/-- prove that a writer respects the frame. -/
macro "frame" : tactic => `(tactic|
  repeat' (first
    | with_reducible assumption
    | with_reducible first
      | exact M.Rel.pure _ | exact M.Rel.panic | exact M.Rel.fail _ | exact M.Rel.unwrap _ | exact M.Rel.ofOption _ _
      | exact M.Rel.get | exact M.Rel.lift _ | exact rel_header _ | exact rel_checkVersion _ | exact rel_readReq _ _ _
      | exact rel_liftH _ _ | exact rel_encodeRsp _ _ | exact rel_summaryHash _ | exact rel_afterNegotiation
      | exact rel_appendBPlain _ | exact Ctx.rel_resetBuffers _ | exact Ctx.rel_appendB _ | exact Ctx.rel_appendC _
      | exact Ctx.rel_appendM _ | exact rel_sendError _
      | apply rel_orUnspecified | apply rel_orAppended
      | apply M.Rel.mapErr | apply M.Rel.try' | apply M.Rel.ite | apply M.Rel.bind
      | intro _))

/-! ### The writers -/

theorem rel_errorResponse (code : ErrorCode) (bytes : Bytes) : M.Rel (Frame k sid) (errorResponse code bytes) := by
  unfold errorResponse
  refine M.Rel.bind M.Rel.get fun c => ?_
  split <;> frame

theorem rel_digestRsp (bytes : Bytes) : M.Rel (Frame k sid) (digestRsp e sid bytes) := by
  unfold digestRsp; frame
theorem rel_certificateRsp (bytes : Bytes) : M.Rel (Frame k sid) (certificateRsp e sid bytes) := by
  unfold certificateRsp; frame
theorem rel_finishChallenge (asym : Nat) (rsp : Bytes) : M.Rel (Frame k none) (finishChallenge e asym rsp) := by
  unfold finishChallenge
  refine M.Rel.bind M.Rel.get fun c => ?_
  split
  · frame
  · frame
  · frame
    exact M.Rel.modify fun c => Ctx.frame_resetM1M2 c
theorem rel_challengeRsp (bytes : Bytes) : M.Rel (Frame k none) (challengeRsp e bytes) := by
  unfold challengeRsp
  have := fun a b => rel_finishChallenge (k := k) (e := e) a b
  frame
  exact this _ _
theorem rel_measureBlocks (c : Ctx) (op : MeasOperation) : M.Rel (Frame k sid) (measureBlocks e c op) := by
  unfold measureBlocks
  refine M.Rel.bind (M.Rel.unwrap _) fun t => ?_
  split <;> frame
theorem rel_measurementSlot (m : GetMeas) : M.Rel (Frame k sid) (measurementSlot m) := by
  unfold measurementSlot
  refine M.Rel.bind (rel_rt (fun r => { r with needSig := m.signed }) fun _ => ⟨rfl, rfl, rfl⟩) fun _ => ?_
  frame
theorem rel_finishMeasurement (signed : Bool) (asym : Nat) (rsp : Bytes) : M.Rel (Frame k sid) (finishMeasurement e sid signed asym rsp) := by
  unfold finishMeasurement
  apply M.Rel.ite <;> intro _
  · frame
    split
    · frame
    · frame
    · frame
      exact M.Rel.modify fun c => Ctx.frame_resetM c
  · frame
theorem rel_measurementRsp (bytes : Bytes) : M.Rel (Frame k sid) (measurementRsp e sid bytes) := by
  unfold measurementRsp
  frame
  · exact rel_measurementSlot _
  · exact rel_measureBlocks _ _
  · exact rel_finishMeasurement _ _ _

theorem keep_keyUpdateOps (v : SpdmVersion) (op : KeyUpdateOp) : M.Rel Session.Keep (keyUpdateOps e v op) := by
  unfold keyUpdateOps
  split <;> rel
  · exact Session.keep_createUpdate _ _ _ _
  · exact Session.keep_createUpdate _ _ _ _
  · exact Session.keep_modify fun s => Session.keep_activateUpdate _ _ _ s
  · exact Session.keep_modify fun s => Session.keep_activateUpdate _ _ _ s

theorem rel_heartbeatRsp (i : UInt32) (bytes : Bytes) : M.Rel (Frame k (some i)) (heartbeatRsp i bytes) := by
  unfold heartbeatRsp; frame
theorem rel_keyUpdateRsp (i : UInt32) (bytes : Bytes) : M.Rel (Frame k (some i)) (keyUpdateRsp e i bytes) := by
  unfold keyUpdateRsp
  frame
  exact Ctx.rel_onSession _ _ _ M.Rel.panic (keep_keyUpdateOps _ _)
theorem rel_endSessionRsp (i : UInt32) (bytes : Bytes) : M.Rel (Frame k (some i)) (endSessionRsp i bytes) := by
  unfold endSessionRsp; frame
theorem rel_vendorRsp (bytes : Bytes) : M.Rel (Frame k sid) (vendorRsp e sid bytes) := by
  unfold vendorRsp; frame

theorem frame_neg (c : Ctx) (n : Neg) : Frame false sid c { c with neg := n } :=
  ⟨rfl, rfl, rfl, All2.refl (Loc.refl _) _, List.prefix_refl _, by simp, by simp, by simp, rfl⟩

theorem rel_capabilityRsp (bytes : Bytes) : M.Rel (Frame false none) (capabilityRsp bytes) := by
  unfold capabilityRsp
  frame
  · exact M.Rel.modify fun c => frame_neg c _
  · exact M.Rel.modify fun c => frame_neg c _
  · exact Ctx.rel_appendA _
  · exact Ctx.rel_appendA _
theorem rel_algorithmRsp (bytes : Bytes) : M.Rel (Frame false none) (algorithmRsp e bytes) := by
  unfold algorithmRsp
  frame
  · exact M.Rel.modify fun c => frame_neg c _
  · exact Ctx.rel_appendA _
  · exact M.Rel.modify fun c => frame_neg c _
  · exact Ctx.rel_constructChains
  · exact M.Rel.modify fun c => frame_neg c _
  · exact Ctx.rel_appendA _

theorem rel_reply {R : Ctx → Ctx → Prop} {x : H Bytes} (h : M.Rel R x) : M.Rel R (reply x) := by
  intro c
  have := h c
  unfold M.wp at this ⊢
  unfold reply
  cases hx : x c with
  | ok b c' => rw [hx] at this; exact this
  | err r c' =>
    rw [hx] at this
    simp only
    cases writeError c' r
    · trivial
    · exact this
  | panic => trivial

end Rsp
end Verif
