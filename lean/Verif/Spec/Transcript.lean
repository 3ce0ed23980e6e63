/-
The transcripts of a connection as functions of the messages exchanged (DSP0274 1.2, "Transcript and transcript hash calculation
rules"), for a requester that works outside sessions and whose requests are all answered with something other than ERROR.
-/
import Verif.Codec.Basic

namespace Verif.Spec

/-- what has been said so far on a connection, as far as later signatures and keys depend on it. -/
structure Transcripts where
  /-- message A: GET_VERSION … ALGORITHMS -/
  a : Bytes := []
  /-- M1/M2: message A and GET_DIGESTS … of the authentication under way, if one is -/
  b : Option Bytes := none
  /-- L1/L2: the measurement requests and responses since the last signature, after message A from 1.2 on -/
  m : Option Bytes := none
  /-- a certificate was read, or the responder authenticated, since GET_VERSION -/
  cert : Bool := false
  deriving DecidableEq

/-- M1/M2 when the next message of the authentication comes. -/
def Transcripts.m1m2 (t : Transcripts) : Bytes := t.b.getD t.a
/-- L1/L2 when the next measurement request comes, on version `v`. -/
def Transcripts.l1l2 (v : UInt8) (t : Transcripts) : Bytes := t.m.getD (if 0x12 ≤ v then t.a else [])

/-- the transcripts after `req` (version, code, parameters …) was answered by `rsp`.  Where DSP0274 has M1/M2 always start anew
(GET_MEASUREMENTS, KEY_EXCHANGE, PSK_EXCHANGE), here that depends on `cert`: this is what the code does, see `C23_reset_violated`. -/
def Transcripts.after (t : Transcripts) (req rsp : Bytes) : Transcripts :=
  let v := req.getD 0 0
  let k := req.getD 1 0
  let signed := req.getD 2 0 &&& 1 ≠ 0
  if k = 0x84 then { a := req ++ rsp }
  else if k = 0xE1 ∨ k = 0xE3 then { t with a := t.a ++ req ++ rsp, m := none }
  else if k = 0x81 then { t with b := some (t.a ++ req ++ rsp), m := none }
  else if k = 0x82 then { t with b := some (t.m1m2 ++ req ++ rsp), m := none, cert := true }
  else if k = 0x83 then { t with b := none, m := none, cert := true }
  else if k = 0xE0 then { t with b := if t.cert then t.b else none, m := if signed then none else some (t.l1l2 v ++ req ++ rsp) }
  else { t with b := if t.cert then t.b else none, m := none }

/-- the transcripts after a dialogue. -/
def Transcripts.of (said : List (Bytes × Bytes)) : Transcripts := said.foldl (fun t x => t.after x.1 x.2) {}

end Verif.Spec
