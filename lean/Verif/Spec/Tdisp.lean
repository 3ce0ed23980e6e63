/-
What the TDISP property (C43) talks about: messages by their codes, the state they announce, and when confidential data may be in the device.
-/
import Verif.Tdisp.Model

namespace Verif.Spec.Tdi
open Tdisp

/-- the message type of a request or response: the second byte. -/
def code (b : Bytes) : UInt8 := b.getD 1 0

/-- the state of the interface according to the responses it has sent: LOCK_INTERFACE_RESPONSE, START_INTERFACE_RESPONSE,
STOP_INTERFACE_RESPONSE, TDISP_ERROR (PCIe TDISP, "TDI state machine"). -/
def next (s : State) (response : Option UInt8) : State :=
  if response = some 0x03 then .configLocked else if response = some 0x06 then .run else if response = some 0x07 then .configUnlocked
  else if response = some 0x7F then .error else s

/-- after a list of responses. -/
def stateAfter (l : List (Option UInt8)) : State := l.foldl next .configUnlocked

/-- a response that moves the interface. -/
def moves (r : Option UInt8) : Prop := r = some 0x03 ∨ r = some 0x06 ∨ r = some 0x07 ∨ r = some 0x7F

/-- confidential data may be in the device: it was locked, and not erased since. -/
def exposed (log : List (Call × Bool)) : Bool :=
  log.foldl (fun b c => if c = (.lock, true) then true else if c = (.erase, true) then false else b) false

/-- A history: requests (length field and payload) and what came of each (the message type of the response, or nothing). -/
inductive Steps (d : Device) : Tdi → List (UInt16 × Bytes) → List (Option UInt8) → Tdi → Prop
  | nil (t : Tdi) : Steps d t [] [] t
  | ok {t t' t'' : Tdi} {n : UInt16} {p : Bytes} {a : Answer} {l o} (h : handle d n p t = .ok a t') (g : Steps d t' l o t'') : Steps d t ((n, p) :: l) (some (code a.bytes) :: o) t''
  | err {t t' t'' : Tdi} {n : UInt16} {p : Bytes} {st : Status} {l o} (h : handle d n p t = .err st t') (g : Steps d t' l o t'') : Steps d t ((n, p) :: l) (none :: o) t''

end Verif.Spec.Tdi
