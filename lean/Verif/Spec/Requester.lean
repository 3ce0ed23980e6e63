/-
The transcripts of a connection at the requester, from what it says, hears and gives up.
-/
import Verif.Spec.Transcript
import Verif.Session.Session

namespace Verif.Spec

/-- the transcripts at a requester after `req` was answered by `rsp`: M1/M2 always starts anew where DSP0274 says so. -/
def Transcripts.heard (t : Transcripts) (req rsp : Bytes) : Transcripts := { t.after req rsp with cert := false }

/-- the transcripts at a requester after a dialogue. -/
def Transcripts.heardAll (t : Transcripts) (l : List (Bytes × Bytes)) : Transcripts := l.foldl (fun t x => t.heard x.1 x.2) t

theorem Transcripts.heardAll_append (t : Transcripts) (l l' : List (Bytes × Bytes)) : t.heardAll (l ++ l') = (t.heardAll l).heardAll l' := by
  simp [heardAll]

/-- what happens to a requester's connection. -/
inductive Event
  /-- outside sessions, `req` was sent and the answer `rsp` accepted -/
  | said (req rsp : Bytes)
  /-- outside sessions, a request with code `k` failed; `forged`: because the signature of the answer did not verify -/
  | failed (k : UInt8) (forged : Bool)
  /-- a request with code `k` was made in a session, with or without success -/
  | inSession (k : UInt8)
  deriving DecidableEq

/-- requests that end an authentication under way: GET_DIGESTS, GET_MEASUREMENTS and everything about sessions. -/
def restarts (k : UInt8) : Bool := k ∈ [0x81, 0xE0, 0xE4, 0xE5, 0xE6, 0xE7, 0xE8, 0xE9, 0xEC]

/-- the transcripts outside sessions after an event. A failed request leaves what was accepted before, except that a request which ends an
authentication or the measurements does so even if it fails, and a signature that does not verify ends what it was to sign. -/
def Transcripts.next (t : Transcripts) : Event → Transcripts
  | .said req rsp => t.heard req rsp
  | .failed k forged =>
    { t with b := if restarts k || (k = 0x83 && forged) then none else t.b, m := if k = 0xE0 && !forged then t.m else none }
  | .inSession k => { t with b := if restarts k then none else t.b }

/-- the transcripts after a story. -/
def Transcripts.tell (t : Transcripts) (l : List Event) : Transcripts := l.foldl Transcripts.next t

theorem Transcripts.tell_append (t : Transcripts) (l l' : List Event) : t.tell (l ++ l') = (t.tell l).tell l' := by simp [tell]
theorem Transcripts.tell_said (t : Transcripts) (l : List (Bytes × Bytes)) : t.tell (l.map fun x => .said x.1 x.2) = t.heardAll l := by
  simp [tell, heardAll, List.foldl_map, next]

/-- what the code of an ERROR response means to the caller: DECRYPT_ERROR, RESPONSE_NOT_READY, BUSY, REQUEST_RESYNCH, anything else. -/
def errorStatus (p : UInt8) : Status :=
  if p = 0x06 then .sessionMsgError else if p = 0x42 then .notReadyPeer else if p = 0x03 then .busyPeer else if p = 0x43 then .invalidParameter else .errorPeer

/-- what it does to the session it is about: DECRYPT_ERROR ends it, REQUEST_RESYNCH stops it. -/
def errorEffect (p : UInt8) (s : Session) : Session :=
  if p = 0x06 then s.setDefault else if p = 0x43 then { s with state := .notStarted } else s

end Verif.Spec
