/-
What it means that a FINISH or PSK_FINISH message verifies for a session, for property C26.
-/
import Verif.Ctx.Basic
import Verif.Spec.Signing

namespace Verif.Spec

/-- the requester has signed `h`: the signature verifies, as an SPDM 1.2 signature of a FINISH, under the leaf of the certificate
chain `chain` the responder holds for its peer in the slot in use (the chain proper follows 4 bytes and the digest of its root). -/
def PeerSigned (e : Env) (c : Ctx) (chain h sig : Bytes) : Prop :=
  ∃ (i : Fin 8) (hs : Nat), i.val = c.rt.peerSlot.toNat ∧ c.peer.chain i = some chain ∧ BaseHash.size? c.neg.baseHash = some hs ∧
    4 + hs ≤ chain.length ∧ e.verify c.neg.baseHash c.neg.baseAsym (chain.drop (4 + hs)) (signedData .finish h) sig = true

/-- `bytes` is a FINISH of version `c.neg.version` whose HMAC `mac` (of the size of the negotiated hash) verifies, under the
request finished key of session `s`, over the hash of the session's transcript so far followed by the message up to the HMAC.
With mutual authentication (`s.mutAuth ≠ 0`, in the build with `mut-auth`) the message also carries the requester's signature of the
transcript, extended by the digest `d` of the requester's certificate chain and the start of the message; `s.fInit` says that an
earlier FINISH of this session has already added a digest. -/
def FinishVerified (e : Env) (c : Ctx) (s : Session) (bytes : Bytes) : Prop :=
  ∃ v attr slot sig mac rest x d th,
    bytes = [v, 0xE5, attr, slot] ++ sig ++ mac ++ rest ∧ SpdmVersion.ofCode v = c.neg.version ∧
    BaseHash.size? c.neg.baseHash = some mac.length ∧ s.usePsk = false ∧ s.th = some x ∧
    (s.mutAuth = 0 → attr = 0 ∧ sig = [] ∧ d = []) ∧
    (s.mutAuth ≠ 0 → attr = 1 ∧ BaseAsym.size? c.neg.baseAsym = some sig.length ∧ ∃ chain h,
      (s.fInit = true → d = []) ∧ (s.fInit = false → e.crypto.hash c.neg.baseHash chain = some d) ∧
      e.crypto.hash x.algo (x.data ++ d ++ [v, 0xE5, attr, slot]) = some h ∧ PeerSigned e c chain h sig) ∧
    e.crypto.hash x.algo (x.data ++ d ++ [v, 0xE5, attr, slot] ++ sig) = some th ∧
    e.crypto.hmacVerify s.hash s.hs.reqFinished th mac = true

/-- the same for PSK_FINISH. -/
def PskFinishVerified (e : Env) (c : Ctx) (s : Session) (bytes : Bytes) : Prop :=
  ∃ v p q mac rest x th,
    bytes = [v, 0xE7, p, q] ++ mac ++ rest ∧ SpdmVersion.ofCode v = c.neg.version ∧
    BaseHash.size? c.neg.baseHash = some mac.length ∧ s.usePsk = true ∧ s.th = some x ∧
    e.crypto.hash x.algo (x.data ++ [v, 0xE7, p, q]) = some th ∧
    e.crypto.hmacVerify s.hash s.hs.reqFinished th mac = true

end Verif.Spec
