/-
What the `ring` library promises (its documentation), and HKDF as RFC 5869 defines it.  Independent of the wrappers of spdmlib/src/crypto/spdm_ring.
-/
import Verif.Ring.Model

namespace Verif.Spec
open Verif.Ring

/-- T(1) | T(2) | ... | T(n) of RFC 5869, section 2.3, continued from T(i-1) = `prev`: T(i) = HMAC-Hash(PRK, T(i-1) | info | i). -/
def hkdfBlocks (mac : Bytes → Bytes) (info : Bytes) : Nat → Nat → Bytes → Bytes
  | _, 0, _ => []
  | i, n + 1, prev =>
    let t := mac (prev ++ info ++ [UInt8.ofNat i])
    t ++ hkdfBlocks mac info (i + 1) n t

/-- HKDF-Expand(PRK, info, L) of RFC 5869: the first `n` octets of T(1) | ... | T(N), N = ceil(L / HashLen), T(0) empty. -/
def hkdfExpand (mac : Bytes → Bytes) (hashLen : Nat) (info : Bytes) (n : Nat) : Bytes :=
  (hkdfBlocks mac info 1 ((n + hashLen - 1) / hashLen) []).take n

/-- The promises of `ring`. -/
structure Promises (l : Lib) : Prop where
  digest_len : ∀ s d, (l.digest s d).length = s.len
  hmac_len : ∀ s k d, (l.hmac s k d).length = s.len
  verify : ∀ s k d m, l.hmacVerify s k d m = true ↔ m = l.hmac s k d
  expand : ∀ s prk info n, prk.length = s.len → n ≤ 255 * s.len → l.expand s prk info n = some (hkdfExpand (l.hmac s prk) s.len info n)
  seal_len : ∀ c k n aad pt out, l.seal c k n aad pt = some out → out.length = pt.length + 16
  open_len : ∀ c k n aad x out, l.open c k n aad x = some out → x.length = out.length + 16
  open_seal : ∀ c k n aad pt out, l.seal c k n aad pt = some out → l.open c k n aad out = some pt
  generate_len : ∀ n b, l.generate n = some b → b.length = 64

/-- The promise of `ring::digest::Context`: feeding pieces and finishing gives the digest of the whole. -/
def Incremental {σ : Type} (l : Lib) (D : Digests σ) : Prop :=
  ∀ s (pieces : List Bytes), D.finish (pieces.foldl D.update (D.new s)) = l.digest s pieces.flatten

end Verif.Spec
