/-
Certificate path validation and signature verification on top of `webpki`
(spdmlib/src/crypto/spdm_ring/{cert_operation_impl,asym_verify_impl}.rs).
-/
import Verif.X509.Walk

namespace Verif.X509
open Verif.Spec

/-- The functions of `webpki` the code calls, as predicates. -/
structure WebPki where
  /-- `TrustAnchor::try_from_cert_der` succeeds -/
  anchor : Bytes → Bool
  /-- `EndEntityCert::try_from` succeeds -/
  parse : Bytes → Bool
  /-- `EndEntityCert::verify_cert_chain_with_eku` with the fixed key usage and algorithms (cert_operation_impl.rs:49-59, 119-127): the anchor,
  the certificates between, the end entity, the time -/
  path : Bytes → List Bytes → Bytes → Nat → Bool
  /-- `EndEntityCert::verify_signature`: algorithm, the certificate, message, signature -/
  signed : SigScheme → Bytes → Bytes → Bytes → Bool

/-- `ring::io::der::expect_tag_and_get_value` with the tag of a sequence, as used at cert_operation_impl.rs:67: the item (tag, length and
content) and what follows; `none` is an error.  Lengths are taken in the shortest form only, up to two octets. -/
def derSequence (d : Bytes) : Option (Bytes × Bytes) :=
  match d with
  | t :: b :: rest =>
    if t ≠ 0x30 then none
    else if b.toNat < 128 then (if rest.length < b.toNat then none else some (d.take (2 + b.toNat), d.drop (2 + b.toNat)))
    else if b = 0x81 then
      match rest with
      | n :: rest' =>
        if n.toNat < 128 then none
        else if rest'.length < n.toNat then none else some (d.take (3 + n.toNat), d.drop (3 + n.toNat))
      | _ => none
    else if b = 0x82 then
      match rest with
      | hi :: lo :: rest' =>
        if hi.toNat * 256 + lo.toNat < 256 then none
        else if rest'.length < hi.toNat * 256 + lo.toNat then none
        else some (d.take (4 + (hi.toNat * 256 + lo.toNat)), d.drop (4 + (hi.toNat * 256 + lo.toNat)))
      | _ => none
    else none
  | _ => none

/-- the loop of `verify_cert_chain` that splits the chain (cert_operation_impl.rs:64-78): it stops at the first error, whatever is left.  Each
turn takes at least two bytes, so `d.length` turns suffice. -/
def splitLoop : Nat → Bytes → List Bytes
  | 0, _ => []
  | fuel + 1, d =>
    match derSequence d with
    | some (c, rest) => c :: splitLoop fuel rest
    | none => []

/-- the certificates `verify_cert_chain` sees (cert_operation_impl.rs:61-78). -/
def splitCerts (d : Bytes) : List Bytes := splitLoop d.length d

/-- `verify_cert_chain` (cert_operation_impl.rs:48-136); `now` is the time in seconds, if the clock can be read. -/
def verifyCertChain (w : WebPki) (now : Option Nat) (chain : Bytes) : Res Unit :=
  match splitCerts chain with
  | [] => .err .invalidCert
  | ca :: cs =>
    let ee := cs.getLastD ca
    let inters := cs.dropLast
    if w.anchor ca = false then .err .invalidCert
    else match now with
      | none => .err .invalidStateLocal
      | some t =>
        if w.parse ee = false then .err .invalidCert
        else if w.path ca inters ee t then .ok () else .err .invalidCert

/-- the hash of an SPDM hash algorithm in bits, in the `match` of `asym_verify` (asym_verify_impl.rs:25-71). -/
def hashBits? (h : BaseHash) : Option Nat :=
  if h = BaseHash.sha256 then some 256 else if h = BaseHash.sha384 then some 384 else if h = BaseHash.sha512 then some 512 else none

/-- the `match` of `asym_verify` on the two algorithms (asym_verify_impl.rs:25-71); `none` is its panic. -/
def algorithm? (h : BaseHash) (a : BaseAsym) : Option SigScheme :=
  match hashBits? h with
  | none => none
  | some b =>
    if a = BaseAsym.ecdsaP256 then (if b = 512 then none else some (.ecdsa 256 b))
    else if a = BaseAsym.ecdsaP384 then (if b = 512 then none else some (.ecdsa 384 b))
    else if a = BaseAsym.rsassa2048 ∨ a = BaseAsym.rsassa3072 ∨ a = BaseAsym.rsassa4096 then some (.pkcs1 b)
    else if a = BaseAsym.rsapss2048 ∨ a = BaseAsym.rsapss3072 ∨ a = BaseAsym.rsapss4096 then some (.pss b)
    else none

/-- the last part of `asym_verify`, with the leaf certificate (asym_verify_impl.rs:79-117). -/
def verifyWithLeaf (w : WebPki) (s : SigScheme) (a : BaseAsym) (leaf data sig : Bytes) : Res Unit :=
  if w.parse leaf = false then .err .invalidCert
  else if a = BaseAsym.ecdsaP256 ∨ a = BaseAsym.ecdsaP384 then do
    let der ← eccDer (96 + 8) sig
    if w.signed s leaf data der then .ok () else .err .verifFail
  else if w.signed s leaf data sig then .ok () else .err .verifFail

/-- `asym_verify` (asym_verify_impl.rs:14-118), with `fuel` rounds for each of its two loops. -/
def asymVerify (ov : Bool) (w : WebPki) (h : BaseHash) (a : BaseAsym) (chain data sig : Bytes) (fuel : Nat) : Option (Res Unit) :=
  match BaseAsym.size? a with
  | none => some .panic
  | some n =>
    if sig.length ≠ n then some (.err .verifFail)
    else match algorithm? h a with
      | none => some .panic
      | some s =>
        match checkChain ov a chain fuel with
        | none => none
        | some .panic => some .panic
        | some (.err e) => some (.err e)
        | some (.ok _) =>
          match certFromChain chain (-1) fuel with
          | none => none
          | some .panic => some .panic
          | some (.err e) => some (.err e)
          | some (.ok (b, e)) => some (verifyWithLeaf w s a ((chain.drop b).take (e - b)) data sig)

end Verif.X509
