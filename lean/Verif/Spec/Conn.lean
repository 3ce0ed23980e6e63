/-
Specification: the order of requests outside a session (DSP0274, section "SPDM connection model").  Codes are the request codes
of the SPDM specification.
-/
import Verif.Ctx.Basic

namespace Verif
namespace Spec

/-- algorithms have been negotiated. -/
def ready : ConnState → Bool
  | .notStarted | .afterVersion | .afterCapabilities => false
  | .negotiated | .afterDigest | .afterCertificate | .authenticated => true

/-- request `k` is not allowed in connection state `st`: GET_CAPABILITIES (E1) only follows GET_VERSION,
NEGOTIATE_ALGORITHMS (E3) only follows GET_CAPABILITIES, GET_DIGESTS (81), GET_CERTIFICATE (82), CHALLENGE (83) and
GET_MEASUREMENTS (E0) need finished negotiation. -/
def tooEarly (k : UInt8) (st : ConnState) : Bool :=
  if k = 0xE1 then st ≠ .afterVersion
  else if k = 0xE3 then st ≠ .afterCapabilities
  else if k = 0x81 ∨ k = 0x82 ∨ k = 0x83 ∨ k = 0xE0 then !ready st
  else false

/-- KEY_EXCHANGE (E4) and PSK_EXCHANGE (E6) need finished negotiation. -/
def exchangeTooEarly (k : UInt8) (st : ConnState) : Bool := (k = 0xE4 ∨ k = 0xE6) && !ready st

/-- how the connection state may move when request `k` arrives outside a session. -/
inductive Moves (k : UInt8) : ConnState → ConnState → Prop
  | stay (st) : Moves k st st
  | version (st) : k = 0x84 → Moves k st .afterVersion
  | versionUnsent (st) : k = 0x84 → Moves k st .notStarted
  | capabilities : k = 0xE1 → Moves k .afterVersion .afterCapabilities
  | algorithms : k = 0xE3 → Moves k .afterCapabilities .negotiated
  | digests (st) : k = 0x81 → ready st = true → Moves k st .afterDigest
  | certificate (st) : k = 0x82 → ready st = true → Moves k st .afterCertificate
  | challenge (st) : k = 0x83 → ready st = true → Moves k st .authenticated

end Spec
end Verif
