/-
C39: error responses.
-/
import Verif.Props.Phase

namespace Verif.Props
open Verif.Rsp

variable {e : Env}

/-- the handlers of requests that arrive outside a session (except the session-opening ones), with the code of their positive
response. -/
inductive PlainHandler (e : Env) (bytes : Bytes) : UInt8 → H Bytes → Prop
  | capabilities : PlainHandler e bytes 0x61 (capabilityRsp bytes)
  | algorithms : PlainHandler e bytes 0x63 (algorithmRsp e bytes)
  | digests : PlainHandler e bytes 0x01 (digestRsp e none bytes)
  | certificate : PlainHandler e bytes 0x02 (certificateRsp e none bytes)
  | challenge : PlainHandler e bytes 0x03 (challengeRsp e bytes)
  | measurements : PlainHandler e bytes 0x60 (measurementRsp e none bytes)
  | vendor : PlainHandler e bytes 0x7E (vendorRsp e none bytes)

/-- the same for requests inside session `sid`. -/
inductive SessionHandler (e : Env) (sid : UInt32) (bytes : Bytes) : UInt8 → H Bytes → Prop
  | digests : SessionHandler e sid bytes 0x01 (digestRsp e (some sid) bytes)
  | certificate : SessionHandler e sid bytes 0x02 (certificateRsp e (some sid) bytes)
  | measurements : SessionHandler e sid bytes 0x60 (measurementRsp e (some sid) bytes)
  | heartbeat : SessionHandler e sid bytes 0x68 (heartbeatRsp sid bytes)
  | keyUpdate : SessionHandler e sid bytes 0x69 (keyUpdateRsp e sid bytes)
  | endSession : SessionHandler e sid bytes 0x6C (endSessionRsp sid bytes)
  | vendor : SessionHandler e sid bytes 0x7E (vendorRsp e (some sid) bytes)

theorem PlainHandler.codes {bytes : Bytes} {r : UInt8} {x : H Bytes} (hl : HashLaw e) (h : PlainHandler e bytes r x) : Codes r (Starts r) x := by
  cases h
  · exact codes_capabilityRsp _
  · exact codes_algorithmRsp _
  · exact codes_digestRsp hl _ _
  · exact codes_certificateRsp _ _
  · exact codes_challengeRsp _
  · exact codes_measurementRsp _ _
  · exact codes_vendorRsp _ _

theorem PlainHandler.rel {bytes : Bytes} {r : UInt8} {x : H Bytes} (h : PlainHandler e bytes r x) : M.Rel (Frame false none) x := by
  cases h
  · exact rel_capabilityRsp _
  · exact rel_algorithmRsp _
  · exact rel_digestRsp _
  · exact rel_certificateRsp _
  · exact rel_challengeRsp _
  · exact rel_measurementRsp _
  · exact rel_vendorRsp _

theorem SessionHandler.codes {sid : UInt32} {bytes : Bytes} {r : UInt8} {x : H Bytes} (hl : HashLaw e) (h : SessionHandler e sid bytes r x) :
    Codes r (Starts r) x := by
  cases h
  · exact codes_digestRsp hl _ _
  · exact codes_certificateRsp _ _
  · exact codes_measurementRsp _ _
  · exact codes_heartbeatRsp _ _
  · exact codes_keyUpdateRsp _ _
  · exact codes_endSessionRsp _ _
  · exact codes_vendorRsp _ _

/-- Whatever a handler puts into the send buffer is its own response (it starts with that code) or exactly the four-byte ERROR
message with the negotiated version. -/
theorem C39_well_formed (hl : HashLaw e) (bytes : Bytes) (r : UInt8) (x : H Bytes)
    (hx : PlainHandler e bytes r x ∨ ∃ sid, SessionHandler e sid bytes r x) (c : Ctx) :
    (∃ b c', reply x c = .ok b c' ∧ ((∃ v t, b = v :: r :: t) ∨ ∃ code data, b = errorOf c' code data)) ∨ reply x c = .panic := by
  have hc : Codes r (Starts r) x := by
    rcases hx with hx | ⟨sid, hx⟩
    · exact hx.codes hl
    · exact hx.codes hl
  have hw := reply_wp hc c
  unfold M.wp at hw
  cases hr : reply x c with
  | ok b c' =>
    rw [hr] at hw
    refine .inl ⟨b, c', rfl, ?_⟩
    rcases hw with h | ⟨code, data, h⟩
    · exact .inl h
    · exact .inr ⟨code.get, data, h⟩
  | err st c' => rw [hr] at hw; exact hw.elim
  | panic => exact .inr rfl

/-- A handler that gives up before writing a response leaves exactly the ERROR message. -/
theorem C39_exact (x : H Bytes) (c c' : Ctx) (code : ErrorCode) (data : UInt8) (h : x c = .err { code := code, data := data } c') :
    reply x c = .ok (errorOf c' code.get data) c' := by
  unfold reply
  rw [h]
  simp only [writeError_nil c' { code := code, data := data } rfl]
  rfl

/-- Sending an ERROR outside a session changes nothing but the list of packets sent. -/
theorem C39_plain_neutral (c c' : Ctx) (code data : UInt8)
    (h : sendMessage e (errorOf c code data) c = .ok () c' ∨ ∃ st, sendMessage e (errorOf c code data) c = .err st c') :
    c' = c ∨ ∃ pkt, c' = { c with sent := c.sent ++ [pkt] } := by
  have hw := sendMessage_error_any (e := e) (b := errorOf c code data) ⟨_, _, rfl⟩ c
  rcases h with h | ⟨st, h⟩
  · exact hw.ok h
  · exact hw.err h

/-- Sending an ERROR inside a session changes nothing but the list of packets sent and that session's outgoing sequence
number. -/
theorem C39_secured_neutral (c c' : Ctx) (sid : UInt32) (code data : UInt8)
    (h : sendSecured e sid (errorOf c code data) false c = .ok () c' ∨ ∃ st, sendSecured e sid (errorOf c code data) false c = .err st c') :
    ∃ l sent, (l = c.sessions ∨ l = Ctx.updFirst (·.id = sid) (·.bump false) c.sessions) ∧ c.sent <+: sent ∧
      c' = { c with sessions := l, sent := sent } := by
  have hw := sendSecured_sentIn (e := e) sid (b := errorOf c code data) ⟨_, _, rfl⟩ (by decide) false c
  rcases h with h | ⟨st, h⟩
  · exact hw.ok h
  · exact hw.err h

/-- A request outside a session that ends with an ERROR leaves the connection state, the sessions and the peer's certificates
as they were. -/
theorem C39_request_neutral (bytes : Bytes) (r : UInt8) (x : H Bytes) (hx : PlainHandler e bytes r x) (c c1 c' : Ctx) (code data : UInt8)
    (h1 : reply x c = .ok (errorOf c1 code data) c1)
    (h2 : sendMessage e (errorOf c1 code data) c1 = .ok () c' ∨ ∃ st, sendMessage e (errorOf c1 code data) c1 = .err st c') :
    c'.rt.state = c.rt.state ∧ c'.sessions = c.sessions ∧ c'.peer = c.peer ∧ c'.config = c.config ∧ c'.rt.lastSession = c.rt.lastSession := by
  have hf := (rel_reply hx.rel c).ok h1
  have hs := loc_none_eq hf.sessions
  have hlast := hf.last
  rcases C39_plain_neutral c1 c' code data h2 with rfl | ⟨pkt, rfl⟩
  · exact ⟨hf.state, hs, hf.peer, hf.config, hf.last⟩
  · exact ⟨hf.state, hs, hf.peer, hf.config, hf.last⟩

/-- a GET_DIGESTS with the wrong version in a negotiated connection: VersionMismatch, nothing changes. -/
example : (match processMessage Toy.env [5, 0x11, 0x81, 0, 0] Toy.negotiated with
    | .ok b c => some (b, c.rt.state, c.sent.getLast?)
    | _ => none) = some (true, .negotiated, some [5, 0x12, 0x7F, 0x41, 0]) := by decide +kernel

/-- The full property fails (finding F8b): a failure noticed after the response was written appends the ERROR message to it.
Here the device fails to send three CAPABILITIES responses and the requester retries; at the fourth attempt the transcript buffer
is full, the responder sends CAPABILITIES immediately followed by ERROR in one message, and the connection advances. -/
theorem C39_appended_error_violated :
    (Toy.runAll { Toy.env with send := fun n _ => if n = 1 ∨ n = 2 ∨ n = 3 then some .sendFail else none } Toy.ctx0
      [Toy.version, Toy.capabilities, Toy.capabilities, Toy.capabilities, Toy.capabilities]).map
      (fun c => (c.rt.state, c.sent.getLast?)) =
    some (.afterCapabilities, some ([5, 0x12, 0x61, 0, 0, 0, 20, 0, 0, 0xF6, 1, 0, 0, 0, 0x10, 0, 0, 0, 0x10, 0, 0] ++ [0x12, 0x7F, 5, 0])) := by
  decide +kernel

/-- The full property fails (finding F8): when the signature cannot be computed an ERROR is sent, and then a CHALLENGE_AUTH with
a placeholder signature, and the connection counts as authenticated. -/
theorem C39_unsigned_challenge_violated :
    ∃ (rx : Bytes), (match processMessage { Toy.env with sign := fun _ _ _ => none } rx Toy.negotiated with
      | .ok true c => some (c.rt.state, (c.sent.drop 3).map (fun p => (p.take 3, (p.drop (p.length - 4)))))
      | _ => none) = some (.authenticated, [([5, 0x12, 0x7F], [0x12, 0x7F, 5, 0]), ([5, 0x12, 0x03], [0xbb, 0xbb, 0xbb, 0xbb])]) :=
  ⟨[5, 0x12, 0x83, 0, 0] ++ List.replicate 32 9, by decide +kernel⟩

end Verif.Props
