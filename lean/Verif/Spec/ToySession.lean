/-
A concrete session, from KEY_EXCHANGE to END_SESSION, of the toy responder.  The requester's packets are computed from the keys
the responder holds, as a requester that derived the same keys would.
-/
import Verif.Spec.ToyRun
import Verif.Ctx.Opaque

namespace Verif.Toy
open Rsp

/-- KEY_EXCHANGE for the requester's session id 7, or any other. -/
def keyExchangeFor (lo : UInt8) : Bytes :=
  [5, 0x12, 0xE4, 0, 0, lo, 0, 0, 0] ++ List.replicate 32 1 ++ List.replicate 64 2 ++ [16, 0] ++ Opaque.reqListFmt1

def keyExchange : Bytes := keyExchangeFor 7

/-- the responder after KEY_EXCHANGE. -/
def exchanged : Ctx := (runAll env negotiated [keyExchange]).getD negotiated

/-- the session in slot `i` -/
def slot (i : Nat) (c : Ctx) : Session := c.sessions[i]?.getD {}

/-- a message of the requester, protected by the keys of the session in slot `i`. -/
def sealIn (i : Nat) (c : Ctx) (inner : Bytes) : Bytes :=
  match Session.encodeSecured crypto inner 4160 true (slot i c) with
  | .ok b _ => 6 :: b
  | _ => []

/-- the HMAC of a FINISH with the given first bytes. -/
def finishMac (i : Nat) (c : Ctx) (start : Bytes) : Bytes :=
  match (slot i c).th with
  | some x => ((crypto.hash x.algo (x.data ++ start)).bind (crypto.hmac (slot i c).hash (slot i c).hs.reqFinished)).getD []
  | none => []

/-- FINISH without mutual authentication -/
def finishPacket (i : Nat) (c : Ctx) : Bytes := sealIn i c ([8, 0x12, 0xE5, 0, 0] ++ finishMac i c [0x12, 0xE5, 0, 0])

/-- the responder after FINISH. -/
def established : Ctx := (runAll env exchanged [finishPacket 0 exchanged]).getD exchanged

/-- END_SESSION -/
def endPacket : Bytes := sealIn 0 established [8, 0x12, 0xEC, 0, 0]

/-- the responder after END_SESSION. -/
def ended : Ctx := (runAll env established [endPacket]).getD established

/-- the session goes through its phases and the slot is free again at the end. -/
example : exchanged.sessions.map (fun s => (s.id, s.state)) = [(0xFFFD0007, .handshaking), (0, .notStarted)] := by decide +kernel
example : established.sessions.map (fun s => (s.id, s.state)) = [(0xFFFD0007, .established), (0, .notStarted)] := by decide +kernel
example : ended.sessions = [Session.new, Session.new] ∧ ended.sent.length = 6 := by decide +kernel

end Verif.Toy
