/-
Requester: GET_VERSION, GET_CAPABILITIES, NEGOTIATE_ALGORITHMS
(spdmlib/src/requester/{get_version,get_capabilities,negotiate_algorithms}_req.rs).
-/
import Verif.Requester.Send

namespace Verif
namespace Req

/-! ### GET_VERSION -/

/-- insert into a list sorted by descending version code. -/
def insertVersion (v : SpdmVersion) : List SpdmVersion → List SpdmVersion
  | [] => [v]
  | w :: t => if w.get ≤ v.get then v :: w :: t else w :: insertVersion v t

/-- `versions.sort_unstable_by(|a, b| b.version.get_u8().cmp(&a.version.get_u8()))` (requester/get_version_req.rs:61-62);
only the version of an entry is used afterwards, and versions of equal code are equal. -/
def sortVersions : List SpdmVersion → List SpdmVersion
  | [] => []
  | v :: t => insertVersion v (sortVersions t)

/-- the array `versions` of a decoded VERSION response (message/version.rs:107-114): three entries, the unused ones 1.0. -/
def versionArray (m : VersionRsp) : List SpdmVersion :=
  m.entries.map (·.version) ++ List.replicate (3 - m.entries.length) .v10

/-- `config_info.spdm_version.contains(…)` (requester/get_version_req.rs:69-74). -/
def supportsVersion (cfg : Config) (v : SpdmVersion) : Bool := v = cfg.version0 || v = cfg.version1 || v = cfg.version2

/-- the version selected from a VERSION response (requester/get_version_req.rs:56-81): the array is sorted, then the first
`version_number_entry_count` entries are searched. -/
def selectVersion (cfg : Config) (m : VersionRsp) : SpdmVersion :=
  (((sortVersions (versionArray m)).take m.entries.length).find? (supportsVersion cfg)).getD (.unknown 0)

/-- `SpdmVersion::Unknown(_)` (requester/get_version_req.rs:83-97). -/
def isUnknown : SpdmVersion → Bool
  | .unknown _ => true
  | _ => false

/-- `handle_spdm_version_response` (requester/get_version_req.rs:38-117). -/
def handleVersion (sid : UInt32) (req bytes : Bytes) : M Status Ctx Unit := do
  let r ← expectAnyVersion (some sid) .rspVersion bytes
  let (m, rsp) ← Rsp.readMsg (fun _ => VersionRsp.read) bytes r
  M.modify fun c => { c with neg := { c.neg with version := selectVersion c.config m } }
  let c ← M.get
  if isUnknown c.neg.version then M.fail .negotiationFail else do
  M.modify fun c => { c with rt := {} }
  Ctx.appendA req
  Ctx.appendA rsp

/-- `send_receive_spdm_version` (requester/get_version_req.rs:13-24) with `encode_spdm_version` (26-36). -/
def getVersion (e : REnv) : M Status Ctx Unit := do
  M.modify (Ctx.resetBuffers .reqGetVersion none)
  let req ← encodeAs .v10 .reqGetVersion .getVersion
  let rsp ← transact e none req
  handleVersion 0 req rsp

/-! ### GET_CAPABILITIES -/

/-- the assignments to `negotiate_info` (requester/get_capabilities_req.rs:67-88). -/
def setCaps (m : Caps) (c : Ctx) : Ctx :=
  let n := { c.neg with reqCt := c.config.reqCt, reqCaps := c.config.reqCaps, rspCt := m.ct, rspCaps := m.flags }
  { c with neg := if c.cc.ge12 then { n with reqDts := c.config.dts, reqMms := c.config.mms, rspDts := m.dts, rspMms := m.mms } else n }

/-- `handle_spdm_capability_response` (requester/get_capabilities_req.rs:45-108). -/
def handleCapabilities (sid : UInt32) (req bytes : Bytes) : M Status Ctx Unit := do
  let r ← expect (some sid) .rspCapabilities bytes
  let (m, rsp) ← Rsp.readMsg rdCaps bytes r
  M.modify (setCaps m)
  Ctx.appendA req
  Ctx.appendA rsp

/-- the payload of `encode_spdm_capability` (requester/get_capabilities_req.rs:26-43). -/
def capsRequest (cfg : Config) : Caps := ⟨cfg.reqCt, cfg.reqCaps, cfg.dts, cfg.mms⟩

/-- `send_receive_spdm_capability` (requester/get_capabilities_req.rs:11-24). -/
def getCapabilities (e : REnv) : M Status Ctx Unit := do
  M.modify (Ctx.resetBuffers .reqGetCapabilities none)
  let c ← M.get
  let req ← encodeReq .reqGetCapabilities (.getCaps (capsRequest c.config))
  let rsp ← transact e none req
  handleCapabilities 0 req rsp

/-! ### NEGOTIATE_ALGORITHMS -/

/-- the payload of `encode_spdm_algorithm` (requester/negotiate_algorithms_req.rs:29-71). -/
def algsRequest (cfg : Config) : NegAlgs :=
  ⟨cfg.measSpec, cfg.opaqueSupport, cfg.baseAsym, cfg.baseHash,
    [⟨.dhe, .dhe cfg.dhe⟩, ⟨.aead, .aead cfg.aead⟩, ⟨.reqAsym, .reqAsym cfg.reqAsym⟩, ⟨.keySchedule, .keySchedule cfg.keySchedule⟩]⟩

/-- `negotiate_info` after the response (requester/negotiate_algorithms_req.rs:91-128): the assignments up to an early
return, and whether it was taken. -/
def takeAlgs (m : Algs) (n : Neg) : Neg × Bool :=
  let n := { n with measSpec := m.measSpec, opaqueSupport := m.other, measHash := m.measHash }
  if m.hash = 0 then (n, false) else
  let n := { n with baseHash := m.hash }
  if m.asym = 0 then (n, false) else
  (m.algs.foldl Rsp.offerAlg { n with baseAsym := m.asym }, true)

/-- `handle_spdm_algorithm_response` (requester/negotiate_algorithms_req.rs:73-151). -/
def handleAlgorithms (sid : UInt32) (req bytes : Bytes) : M Status Ctx Unit := do
  let r ← expect (some sid) .rspAlgorithms bytes
  let (m, rsp) ← Rsp.readMsg rdAlgsRsp bytes r
  let c ← M.get
  M.set { c with neg := (takeAlgs m c.neg).1 }
  if (takeAlgs m c.neg).2 = false then M.fail .negotiationFail else do
  Ctx.appendA req
  Ctx.appendA rsp

/-- `send_receive_spdm_algorithm` (requester/negotiate_algorithms_req.rs:14-27). -/
def negotiateAlgorithms (e : REnv) : M Status Ctx Unit := do
  M.modify (Ctx.resetBuffers .reqNegotiateAlgorithms none)
  let c ← M.get
  let req ← encodeReq .reqNegotiateAlgorithms (.negAlgs (algsRequest c.config))
  let rsp ← transact e none req
  handleAlgorithms 0 req rsp

/-- `init_connection` (requester/context.rs:32-36). -/
def initConnection (e : REnv) : M Status Ctx Unit := do
  getVersion e
  getCapabilities e
  negotiateAlgorithms e

end Req
end Verif
