/-
The TDISP responder (tdisp/src).  The crate is excluded from the workspace (Cargo.toml:61-66) and does not compile against the pinned codec
crate (its `Codec` impls return `()`); what is modelled is what its text says, with encoders that cannot run out of space: every response is
shorter than the payload array it is written to.
-/
import Verif.Codec.Lemmas
import Verif.Proto.Status

namespace Verif.Tdisp

/-- `TDIState` (tdisp/src/state_machine.rs:7-39); the constructor for unknown codes is never assigned. -/
inductive State where
  | configUnlocked | configLocked | run | error
  deriving Repr, DecidableEq

/-- its encoding (tdisp/src/state_machine.rs:7-39). -/
def State.get : State → UInt8
  | .configUnlocked => 0 | .configLocked => 1 | .run => 2 | .error => 3

/-- the calls to the device (`TdispConfiguration`, tdisp/src/device.rs:8-18). -/
inductive Call where
  | init | lock | unlock | erase | track
  deriving Repr, DecidableEq

/-- a device: whether a call succeeds, given all calls before it and their outcomes. -/
abbrev Device := List (Call × Bool) → Call → Bool

/-- `FunctionId` (tdisp/src/message.rs:90-95), `InterfaceId` (message.rs:188-191); the segment is present if its valid bit is set. -/
structure Iface where
  requesterId : UInt16
  segment : Option UInt8
  deriving Repr, DecidableEq

/-- `TdispContext` (tdisp/src/context.rs:14-33), without the buffers and codes only the requester uses.  `log` is a ghost field: the calls made
to the device so far. -/
structure Tdi where
  state : State := .configUnlocked
  version : UInt8 := 0x10
  iface : Iface
  log : List (Call × Bool) := []
  deriving Repr, DecidableEq

/-- `TdispMessageHeader` (tdisp/src/message.rs:223-228); `code` is the byte of the message type. -/
structure Hdr where
  version : UInt8
  code : UInt8
  iface : Iface
  deriving Repr, DecidableEq

/-- `FunctionId::read`, `FunctionId::tdisp_read` (message.rs:133-152, 166-185). -/
def rdFunction : Rd Iface := do
  let id ← rdU16
  let seg ← rdU8
  let valid ← rdU8
  if valid = 1 then pure ⟨id, some seg⟩ else if valid = 0 then pure ⟨id, none⟩ else M.fail ()

/-- `InterfaceId::read`, `InterfaceId::tdisp_read` (message.rs:199-204, 213-218). -/
def rdIface : Rd Iface := do
  let f ← rdFunction
  let _ ← rdU32
  pure f

/-- `TdispMessageHeader::read`, `tdisp_read` (message.rs:238-249, 260-271). -/
def rdHdr : Rd Hdr := do
  let v ← rdU8
  let k ← rdU8
  let _ ← rdU16
  let i ← rdIface
  pure ⟨v, k, i⟩

/-- `InterfaceId::tdisp_encode` (message.rs:122-131, 194-197). -/
def Iface.bytes (i : Iface) : Bytes :=
  putU16 i.requesterId ++ (match i.segment with | some s => [s, 1] | none => [0, 0]) ++ [0, 0, 0, 0]

/-- `TdispMessageHeader::tdisp_encode` (message.rs:231-236). -/
def Hdr.bytes (h : Hdr) : Bytes := [h.version, h.code, 0, 0] ++ h.iface.bytes

/-- `LockInterfaceFlag::tdisp_read`, `MMIORangeAttribute::tdisp_read`: a word with no bits above the five defined (message.rs:433-454, 591-612). -/
def rdFlags : Rd UInt16 := do
  let w ← rdU16
  if w &&& 0xFFE0 = 0 then pure w else M.fail ()

/-- the payload of a request: the values read are not used by any handler. -/
def rdPayload (k : UInt8) : Rd Unit :=
  match k with
  | 0x82 => do let _ ← rdU32; pure ()   -- GET_TDISP_CAPABILITIES (message.rs:385-389)
  | 0x83 => do                          -- LOCK_INTERFACE (message.rs:473-485)
    let _ ← rdFlags
    let _ ← rdU8
    let _ ← rdU8
    let _ ← rdU64
    let _ ← rdU64
    pure ()
  | 0x84 => do                          -- GET_DEVICE_INTERFACE_REPORT (message.rs:518-522)
    let _ ← rdU16
    let _ ← rdU16
    pure ()
  | 0x86 => do let _ ← rdBytes 32; pure ()   -- START_INTERFACE (message.rs:767-775)
  | 0x88 | 0x89 => do let _ ← rdU8; pure ()  -- BIND_P2P_STREAM, UNBIND_P2P_STREAM (message.rs:821-824, 850-853)
  | 0x8A => do                          -- SET_MMIO_ATTRIBUTE (message.rs:630-642, 877-880)
    let _ ← rdU64
    let _ ← rdU32
    let _ ← rdFlags
    let _ ← rdU16
    pure ()
  | 0x8B => do                          -- VDM (message.rs:985-998)
    let _ ← rdU8
    let n ← rdU8
    let _ ← rdBytes (min n.toNat 32)
    pure ()
  | _ => pure ()                        -- GET_TDISP_VERSION, GET_DEVICE_INTERFACE_STATE, STOP_INTERFACE (message.rs:335-337, 732-734, 796-798)

/-- a response: its length field and the bytes written at the start of the payload array (the rest of the array is zero). -/
structure Answer where
  length : UInt16
  bytes : Bytes
  deriving Repr, DecidableEq

/-- a call to the device. -/
def call (d : Device) (k : Call) : M Status Tdi Bool := fun t => .ok (d t.log k) { t with log := t.log ++ [(k, d t.log k)] }

/-- the answer of type `k`: header with the selected version and the interface of the responder, length field zero (each of the handlers,
for example lock_interface_request_rsp.rs:65-84). -/
def answer (k : UInt8) (payload : Bytes) (t : Tdi) : Answer := ⟨0, (Hdr.mk t.version k t.iface).bytes ++ payload⟩

/-- `handle_tdisp_error` (tdisp_responder/tdisp_error_rsp.rs:12-52). -/
def tdispError (d : Device) (code : UInt16) : M Status Tdi Answer := do
  let t ← M.get
  let ok ← call d .erase
  if ok then do
    M.modify fun t => { t with state := .error }
    pure (answer 0x7F (putU16 code ++ [0, 0, 0, 0, 0, 0]) t)
  else M.panic

/-- InvalidRequest, InvalidInterfaceState, InvalidDeviceConfiguration (message.rs:54-69). -/
def invalidRequest : UInt16 := 0x0001
/-- InvalidInterfaceState (message.rs:59). -/
def invalidState : UInt16 := 0x0004
/-- InvalidDeviceConfiguration (message.rs:67). -/
def invalidDevice : UInt16 := 0x0104

/-- `handle_lock_interface_request` after its checks (lock_interface_request_rsp.rs:86-104). -/
def lock (d : Device) : M Status Tdi Answer := do
  let t ← M.get
  let ok ← call d .init
  if ok then do
    let ok ← call d .lock
    if ok then do
      M.modify fun t => { t with state := .configLocked }
      pure (answer 0x03 (List.replicate 16 0) t)
    else tdispError d invalidDevice
  else tdispError d invalidDevice

/-- `handle_start_interface_request` after its checks (start_interface_request_rsp.rs:61-76). -/
def start (d : Device) : M Status Tdi Answer := do
  let t ← M.get
  let ok ← call d .track
  if ok then do
    M.modify fun t => { t with state := .run }
    pure (answer 0x06 [] t)
  else tdispError d invalidDevice

/-- `handle_stop_interface_request` after its checks (stop_interface_request_rsp.rs:61-83). -/
def stop (d : Device) : M Status Tdi Answer := do
  let t ← M.get
  let ok ← call d .erase
  if ok then do
    let ok ← call d .unlock
    if ok then do
      M.modify fun t => { t with state := .configUnlocked }
      pure (answer 0x07 [] t)
    else tdispError d invalidDevice
  else tdispError d invalidDevice

/-- an answer that changes nothing. -/
def reply (k : UInt8) (payload : Tdi → Bytes) : M Status Tdi Answer := do
  let t ← M.get
  pure (answer k (payload t) t)

/-- only in one state. -/
def onlyIn (d : Device) (s : State) (x : M Status Tdi Answer) : M Status Tdi Answer := do
  let t ← M.get
  if t.state ≠ s then tdispError d invalidState else x

/-- the handlers after the message has been read. -/
def act (d : Device) (k : UInt8) : M Status Tdi Answer :=
  match k with
  | 0x81 => reply 0x01 fun t => [1, t.version]         -- tdisp_version_rsp.rs:31-57
  | 0x82 => reply 0x02 fun _ => List.replicate 28 0    -- tdisp_capabilities_rsp.rs:28-56
  | 0x83 => onlyIn d .configUnlocked (lock d)          -- lock_interface_request_rsp.rs:57-105
  | 0x84 => do                                         -- device_interface_report_rsp.rs:38-71, where `!= Run || != ConfigLocked` is always true
    let t ← M.get
    if t.state ≠ .run ∨ t.state ≠ .configLocked then tdispError d invalidState else reply 0x04 fun _ => [0, 0, 0, 0]
  | 0x85 => reply 0x05 fun t => [t.state.get]          -- device_interface_state_rsp.rs:36-62
  | 0x86 => onlyIn d .configLocked (start d)           -- start_interface_request_rsp.rs:35-77
  | 0x87 => stop d                                     -- stop_interface_request_rsp.rs:40-84
  | 0x88 => onlyIn d .run (reply 0x08 fun _ => [])     -- bind_p2p_stream_request_rsp.rs:40-67
  | 0x89 => onlyIn d .run (reply 0x09 fun _ => [])     -- unbind_p2p_stream_request_rsp.rs:37-64
  | 0x8A => onlyIn d .run (reply 0x0A fun _ => [])     -- set_mmio_attribute_request_rsp.rs:40-67
  | 0x8B => reply 0x0B fun _ => [0, 0]                 -- vdm_response.rs:26-52
  | _ => M.fail .invalidMsgField

/-- header and payload of a request. -/
def rdRequest (k : UInt8) : Rd Unit := do
  let _ ← rdHdr
  rdPayload k

/-- `handle_*` (tdisp_responder/*.rs): header and payload are read again from the start; a failure is a TDISP error. -/
def serve (d : Device) (k : UInt8) (payload : Bytes) : M Status Tdi Answer :=
  match rdRequest k (Reader.init payload) with
  | .ok _ _ => act d k
  | _ => tdispError d invalidRequest

/-- the size in memory of the header type, `mem::size_of::<TdispMessageHeader>()` (tdisp_responder/mod.rs:52). -/
def headerSize : Nat := 8

/-- `vendor_defined_request_handler` (tdisp_responder/mod.rs:44-131), with the responder initialised: `len` is the length field of the request,
`payload` its payload array. -/
def handle (d : Device) (len : UInt16) (payload : Bytes) : M Status Tdi Answer :=
  if len.toNat < headerSize then M.fail .invalidMsgField else
  match rdHdr (Reader.init payload) with
  | .ok h _ => if 0x81 ≤ h.code ∧ h.code ≤ 0x8B then serve d h.code payload else M.fail .invalidMsgField
  | _ => M.fail .invalidMsgField

/-- a new responder (tdisp_responder/mod.rs:134-148, context.rs:36-58); the device must initialise. -/
def new (d : Device) (i : Iface) : M Status Unit Tdi := if d [] .init then pure { iface := i, log := [(.init, true)] } else M.panic

/-- what a TDISP requester puts in front of the payload of a request of type `k`: a protocol identifier and a header (message.rs:18-19, 301-317,
tdisp_requester/*.rs, for example lock_interface_request_req.rs:26-33; the message type is left at its default there). -/
def requesterBytes (k : UInt8) (t : Tdi) (payload : Bytes) : Bytes := [1] ++ (Hdr.mk t.version k t.iface).bytes ++ payload

end Verif.Tdisp
