/-
Independent specification of the SPDM 1.2 signing contexts (DSP0274 1.2, section "Signature generation") and of the secured
message version lists (DSP0277 1.1, "Secured message opaque data").
-/
import Verif.Codec.Basic

namespace Verif.Spec

/-- ASCII text as bytes. -/
def ascii (s : String) : Bytes := s.toList.map fun c => UInt8.ofNat c.toNat

/-- what a signature is for. -/
inductive Purpose where
  | challengeAuth | measurements | keyExchangeRsp | finish
  deriving Repr, DecidableEq

/-- the context string of DSP0274 for each purpose. -/
def Purpose.text : Purpose → Bytes
  | .challengeAuth => ascii "responder-challenge_auth signing"
  | .measurements => ascii "responder-measurements signing"
  | .keyExchangeRsp => ascii "responder-key_exchange_rsp signing"
  | .finish => ascii "requester-finish signing"

/-- the version prefix: four copies of "dmtf-spdm-v1.2.*". -/
def versionPrefix : Bytes :=
  ascii "dmtf-spdm-v1.2.*dmtf-spdm-v1.2.*dmtf-spdm-v1.2.*dmtf-spdm-v1.2.*"

/-- the combined SPDM prefix: 64 bytes of version, then the context string right-aligned with zeros in 36 bytes. -/
def combinedPrefix (p : Purpose) : Bytes :=
  versionPrefix ++ (List.replicate (36 - p.text.length) 0 ++ p.text)

/-- what is signed. -/
def signedData (p : Purpose) (hash : Bytes) : Bytes := combinedPrefix p ++ hash

/-- an opaque data list in format 1 with one element: the secured message versions `vs` (each 0xMm) the sender supports. -/
def supportedVersions (vs : List UInt8) : Bytes :=
  let e : Bytes := [0, 0] ++ putU16 (UInt16.ofNat (3 + 2 * vs.length)) ++ [1, 1, UInt8.ofNat vs.length] ++ vs.flatMap fun v => [0, v]
  [1, 0, 0, 0] ++ e ++ List.replicate ((4 - e.length % 4) % 4) 0

/-- an opaque data list in format 1 with one element: the secured message version `v` the sender selected. -/
def selectedVersion (v : UInt8) : Bytes := [1, 0, 0, 0] ++ [0, 0] ++ putU16 4 ++ [1, 0] ++ [0, v]

end Verif.Spec
