/-
Opaque data of KEY_EXCHANGE/PSK_EXCHANGE (spdmlib/src/common/opaque.rs) and the SPDM 1.2 signing contexts
(spdmlib/src/protocol/version.rs).
-/
import Verif.Ctx.Basic

namespace Verif

namespace Opaque

/-- `REQ_DMTF_OPAQUE_DATA_SUPPORT_VERSION_LIST_DSP0277` (opaque.rs:39-61). -/
def reqList277 : Bytes := [0x46, 0x54, 0x4d, 0x44, 1, 1, 0, 0, 0, 0, 7, 0, 1, 1, 2, 0, 0x10, 0, 0x11, 0]
/-- `RSP_DMTF_OPAQUE_DATA_VERSION_SELECTION_DSP0277` (opaque.rs:63-80). -/
def rspSel277 : Bytes := [0x46, 0x54, 0x4d, 0x44, 1, 1, 0, 0, 0, 0, 4, 0, 1, 0, 0, 0x11]
/-- `REQ_DMTF_OPAQUE_DATA_SUPPORT_VERSION_LIST_DSP0274_FMT1` (opaque.rs:82-99). -/
def reqListFmt1 : Bytes := [1, 0, 0, 0, 0, 0, 7, 0, 1, 1, 2, 0, 0x10, 0, 0x11, 0]
/-- `RSP_DMTF_OPAQUE_DATA_VERSION_SELECTION_DSP0274_FMT1` (opaque.rs:101-114). -/
def rspSelFmt1 : Bytes := [1, 0, 0, 0, 0, 0, 4, 0, 1, 0, 0, 0x11]
/-- `DMTF_SPEC_ID` (opaque.rs:20) as written in the source: one hexadecimal digit short of 0x444D5446. -/
def dmtfSpecId : UInt32 := 0x444D546

/-- `SecuredMessageVersion` (opaque.rs:116-122). -/
structure SmVersion where
  major : UInt8 := 0
  minor : UInt8 := 0
  update : UInt8 := 0
  alpha : UInt8 := 0
  deriving Repr, DecidableEq
/-- `SecuredMessageVersion::spdm_encode` (opaque.rs:125-138). -/
def SmVersion.encode (v : SmVersion) : Enc Nat := Enc.seq [encU8 ((v.update <<< 4) + v.alpha), encU8 ((v.major <<< 4) + v.minor)]
/-- `SecuredMessageVersion::spdm_read` (opaque.rs:139-153). -/
def SmVersion.read : Rd SmVersion := do
  let ua ← rdU8
  let mm ← rdU8
  pure ⟨mm >>> 4, mm &&& 0x0F, ua >>> 4, ua &&& 0x0F⟩
/-- `get_secure_spdm_version` (opaque.rs:157-159). -/
def SmVersion.get (v : SmVersion) : UInt8 := (v.major <<< 4) + v.minor
/-- `from_secure_spdm_version` (opaque.rs:161-171). -/
def SmVersion.ofByte (b : UInt8) : SmVersion := ⟨b >>> 4, b &&& 0x0F, 0, 0⟩

/-- `SecuredMessageVersionList` (opaque.rs:174-178): the array always has two entries. -/
structure SmVersionList where
  count : UInt8 := 0
  v0 : SmVersion := {}
  v1 : SmVersion := {}
  deriving Repr, DecidableEq
/-- the entries with index below `version_count` -/
def SmVersionList.entries (l : SmVersionList) : List SmVersion := [l.v0, l.v1].take l.count.toNat
/-- `SecuredMessageVersionList::spdm_encode` (opaque.rs:181-197); an index past the array panics. -/
def SmVersionList.encode (l : SmVersionList) : Enc Nat := do
  let a ← encU8 l.count
  if l.count.toNat > 2 then M.panic else do
  let b ← Enc.seq (l.entries.map SmVersion.encode)
  pure (a + b)
/-- `SecuredMessageVersionList::spdm_read` (opaque.rs:198-209): reads at most two entries, whatever the count. -/
def SmVersionList.read : Rd SmVersionList := do
  let count ← rdU8
  if count.toNat = 0 then pure ⟨count, {}, {}⟩ else do
  let v0 ← SmVersion.read
  if count.toNat = 1 then pure ⟨count, v0, {}⟩ else do
  let v1 ← SmVersion.read
  pure ⟨count, v0, v1⟩

/-- `SecuredMessageGeneralOpaqueDataHeader::spdm_encode` (opaque.rs:268-298). -/
def encHeader (c : Cc) (total : UInt8) : Enc Nat :=
  if c.ge12 = false then Enc.seq [encU32 dmtfSpecId, encU8 1, encU8 total, encU16 0]
  else if c.neg.opaqueSupport = 2 then Enc.seq [encU8 total, encU8 0, encU16 0]
  else M.fail .bufferFull
/-- `SecuredMessageGeneralOpaqueDataHeader::spdm_read` (opaque.rs:299-327). -/
def rdHeader (c : Cc) : Rd UInt8 :=
  if c.ge12 = false then do
    let id ← rdU32
    if id ≠ dmtfSpecId then Rd.none else do
    let v ← rdU8
    if v ≠ 1 then Rd.none else do
    let total ← rdU8
    let _ ← rdU16
    pure total
  else if c.neg.opaqueSupport = 2 then do
    let total ← rdU8
    let _ ← rdU8
    let _ ← rdU8
    let _ ← rdU8
    pure total
  else Rd.none

/-- `OpaqueElementDMTFVersionSelection::spdm_encode` (opaque.rs:336-353). -/
def encSelection (v : SmVersion) : Enc Nat := Enc.seq [encU8 0, encU8 0, encU16 4, encU8 1, encU8 0, v.encode]
/-- `OpaqueElementDMTFVersionSelection::spdm_read` (opaque.rs:354-367): ids and lengths are not checked. -/
def rdSelection : Rd SmVersion := do
  let _ ← rdU8
  let _ ← rdU8
  let _ ← rdU16
  let _ ← rdU8
  let _ ← rdU8
  SmVersion.read

/-- the padding loop of `OpaqueElementDMTFSupportedVersion` (opaque.rs:418-424): up to the next multiple of four of the
bytes read so far. -/
def rdPad : Rd Unit := fun r => (do let _ ← rdBytes ((r.used + 3) / 4 * 4 - r.used); pure () : Rd Unit) r
/-- `OpaqueElementDMTFSupportedVersion::spdm_read` (opaque.rs:406-427). -/
def rdSupported : Rd SmVersionList := do
  let _ ← rdU8
  let _ ← rdU8
  let _ ← rdU16
  let _ ← rdU8
  let _ ← rdU8
  let l ← SmVersionList.read
  rdPad
  pure l

/-- `rsp_get_dmtf_supported_secure_spdm_version_list` with `SecuredMessageDMTFSupportedVersion::spdm_read`
(opaque.rs:507-533, 585-598): at most three elements are accepted and the first is returned (the default if there is none). -/
def rdSupportedList (c : Cc) : Rd SmVersionList := do
  let total ← rdHeader c
  if total > 3 then Rd.none else do
  let l ← rdN total.toNat rdSupported
  pure (l.headD {})

/-- `req_get_dmtf_secure_spdm_version_selection` with `SecuredMessageDMTFVersionSelection::spdm_read`
(opaque.rs:455-478, 600-612): at most three elements are read. -/
def rdSelectionFirst (c : Cc) : Rd SmVersion := do
  let total ← rdHeader c
  let l ← rdN (min total.toNat 3) rdSelection
  pure (l.headD {})

/-- overwrite the last byte -/
def setLast (b : UInt8) (l : Bytes) : Bytes := l.dropLast ++ [b]

/-- the opaque data a responder returns for one common version (responder/key_exchange_rsp.rs:119-152,
responder/psk_exchange_rsp.rs:108-141); `none` is the error return. -/
def answer (n : Neg) (v : UInt8) : Option Bytes :=
  if (Cc.mk n false false).ge12 = false then some (setLast v rspSel277)
  else if n.opaqueSupport = 2 then some (setLast v rspSelFmt1)
  else none

/-- inner loop over the local versions (responder/key_exchange_rsp.rs:114-153). -/
def pickLocal (n : Neg) (v : UInt8) : List UInt8 → Bytes → Res Bytes
  | [], acc => .ok acc
  | l :: ls, acc =>
    if v = l then
      match answer n l with
      | some o => pickLocal n v ls o
      | none => .err .invalidMsgField
    else pickLocal n v ls acc

/-- outer loop over the listed versions (responder/key_exchange_rsp.rs:113-154). -/
def pick (n : Neg) (locals : List UInt8) : List UInt8 → Bytes → Res Bytes
  | [], acc => .ok acc
  | v :: vs, acc => do
    let acc ← pickLocal n v locals acc
    pick n locals vs acc

/-- the responder's treatment of the requester's opaque data (responder/key_exchange_rsp.rs:102-155,
responder/psk_exchange_rsp.rs:91-144): data that does not parse is ignored. -/
def respond (c : Cc) (locals : List UInt8) (opaq : Bytes) : Res Bytes :=
  match rdSupportedList c (Reader.init opaq) with
  | .panic => .panic
  | .err _ _ => .ok []
  | .ok l _ => if l.count > 2 then .err .invalidMsgField else pick c.neg locals (l.entries.map SmVersion.get) []

end Opaque

/-! ### Signing contexts -/
namespace Sign

/-- `SPDM_VERSION_1_2_SIGNING_PREFIX_CONTEXT` (protocol/version.rs:26-31). -/
def pfx : Bytes := [
  0x64, 0x6d, 0x74, 0x66, 0x2d, 0x73, 0x70, 0x64, 0x6d, 0x2d, 0x76, 0x31, 0x2e, 0x32, 0x2e, 0x2a,
  0x64, 0x6d, 0x74, 0x66, 0x2d, 0x73, 0x70, 0x64, 0x6d, 0x2d, 0x76, 0x31, 0x2e, 0x32, 0x2e, 0x2a,
  0x64, 0x6d, 0x74, 0x66, 0x2d, 0x73, 0x70, 0x64, 0x6d, 0x2d, 0x76, 0x31, 0x2e, 0x32, 0x2e, 0x2a,
  0x64, 0x6d, 0x74, 0x66, 0x2d, 0x73, 0x70, 0x64, 0x6d, 0x2d, 0x76, 0x31, 0x2e, 0x32, 0x2e, 0x2a]
/-- `SPDM_CHALLENGE_AUTH_SIGN_CONTEXT` (protocol/version.rs:33-36). -/
def challengeAuth : Bytes := [
  0x72, 0x65, 0x73, 0x70, 0x6f, 0x6e, 0x64, 0x65, 0x72, 0x2d, 0x63, 0x68, 0x61, 0x6c, 0x6c, 0x65,
  0x6e, 0x67, 0x65, 0x5f, 0x61, 0x75, 0x74, 0x68, 0x20, 0x73, 0x69, 0x67, 0x6e, 0x69, 0x6e, 0x67]
/-- `SPDM_MEASUREMENTS_SIGN_CONTEXT` (protocol/version.rs:43-46). -/
def measurements : Bytes := [
  0x72, 0x65, 0x73, 0x70, 0x6f, 0x6e, 0x64, 0x65, 0x72, 0x2d, 0x6d, 0x65, 0x61, 0x73, 0x75, 0x72,
  0x65, 0x6d, 0x65, 0x6e, 0x74, 0x73, 0x20, 0x73, 0x69, 0x67, 0x6e, 0x69, 0x6e, 0x67]
/-- `SPDM_KEY_EXCHANGE_RESPONSE_SIGN_CONTEXT` (protocol/version.rs:48-52). -/
def keyExchangeRsp : Bytes := [
  0x72, 0x65, 0x73, 0x70, 0x6f, 0x6e, 0x64, 0x65, 0x72, 0x2d, 0x6b, 0x65, 0x79, 0x5f, 0x65, 0x78,
  0x63, 0x68, 0x61, 0x6e, 0x67, 0x65, 0x5f, 0x72, 0x73, 0x70, 0x20, 0x73, 0x69, 0x67, 0x6e, 0x69,
  0x6e, 0x67]
/-- `SPDM_FINISH_SIGN_CONTEXT` (protocol/version.rs:64-67). -/
def finish : Bytes := [
  0x72, 0x65, 0x71, 0x75, 0x65, 0x73, 0x74, 0x65, 0x72, 0x2d, 0x66, 0x69, 0x6e, 0x69, 0x73, 0x68,
  0x20, 0x73, 0x69, 0x67, 0x6e, 0x69, 0x6e, 0x67]
/-- `SPDM_VERSION_1_2_SIGNING_CONTEXT_ZEROPAD_n` (protocol/version.rs:70-77). -/
def zeros (n : Nat) : Bytes := List.replicate n 0

/-- `ManagedBuffer12Sign` holds 64 + 36 + 64 bytes (common/mod.rs:1111-1113, 1368-1381). -/
def cap : Nat := 164

/-- what is signed or verified (e.g. responder/challenge_rsp.rs:200-221): prefix, padding, purpose, transcript hash.
Below SPDM 1.2 the default build refuses. -/
def message (c : Cc) (pad : Nat) (purpose hash : Bytes) : Res Bytes :=
  if c.ge12 = false then .err .invalidStateLocal
  else if (pfx ++ zeros pad ++ purpose ++ hash).length ≤ cap then .ok (pfx ++ zeros pad ++ purpose ++ hash)
  else .err .bufferFull

/-- message signed in CHALLENGE_AUTH (responder/challenge_rsp.rs:200-221, requester/challenge_req.rs). -/
def challengeAuthMsg (c : Cc) (h : Bytes) : Res Bytes := message c 4 challengeAuth h
/-- message signed in MEASUREMENTS (responder/measurement_rsp.rs:281-302). -/
def measurementsMsg (c : Cc) (h : Bytes) : Res Bytes := message c 6 measurements h
/-- message signed in KEY_EXCHANGE_RSP (responder/key_exchange_rsp.rs:451-472). -/
def keyExchangeRspMsg (c : Cc) (h : Bytes) : Res Bytes := message c 2 keyExchangeRsp h
/-- message signed in FINISH (responder/finish_rsp.rs:365-387). -/
def finishMsg (c : Cc) (h : Bytes) : Res Bytes := message c 12 finish h

end Sign
end Verif
