/-
Which requests belong to which phase of a session, for property C27.
-/
namespace Verif.Spec

/-- the request codes the responder knows. -/
def isRequest (k : UInt8) : Bool :=
  k ∈ [0x81, 0x82, 0x83, 0x84, 0xE0, 0xE1, 0xE3, 0xE4, 0xE5, 0xE6, 0xE7, 0xE8, 0xE9, 0xEC, 0xFE, 0xFF]

/-- FINISH, PSK_FINISH, VENDOR_DEFINED. -/
def handshakeRequest (k : UInt8) : Bool := k ∈ [0xE5, 0xE7, 0xFE]

/-- GET_DIGESTS, GET_CERTIFICATE, GET_MEASUREMENTS, HEARTBEAT, KEY_UPDATE, END_SESSION, VENDOR_DEFINED. -/
def applicationRequest (k : UInt8) : Bool := k ∈ [0x81, 0x82, 0xE0, 0xE8, 0xE9, 0xEC, 0xFE]

/-- error code and data for a request out of place: VersionMismatch when its version is not the negotiated one,
UnsupportedRequest with the request code for RESPOND_IF_READY, UnexpectedRequest otherwise. -/
def refusal (sameVersion : Bool) (k : UInt8) : UInt8 × UInt8 :=
  if sameVersion then if k = 0xFF then (0x07, 0xFF) else (0x04, 0) else (0x41, 0)

end Verif.Spec
