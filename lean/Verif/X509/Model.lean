/-
Certificate chains: the format checker (spdmlib/src/crypto/x509v3.rs), the walk over a chain and the conversion of an ECDSA signature
(spdmlib/src/crypto/spdm_ring/{cert_operation_impl,asym_verify_impl}.rs).  `usize` is 64 bits wide.  `ov` says whether the build checks
arithmetic overflow: then an overflowing addition panics, otherwise (release) it wraps.
-/
import Verif.Proto.Status
import Verif.Proto.Algo

namespace Verif.X509

/-- `usize` addition: panics or wraps on overflow (used throughout x509v3.rs:39-286). -/
def add (ov : Bool) (a b : Nat) : Res Nat :=
  if a + b < 2 ^ 64 then .ok (a + b) else if ov then .panic else .ok ((a + b) % 2 ^ 64)

/-- the slice `&data[k..]`: panics if `k` is past the end (used throughout x509v3.rs:39-286). -/
def from? (k : Nat) (data : Bytes) : Res Bytes := if k ≤ data.length then .ok (data.drop k) else .panic

/-- `check_tag_is_sequence` (x509v3.rs:176-184). -/
def checkSequence (data : Bytes) : Res Unit :=
  match data with
  | [] => .err .verifFail
  | t :: _ => if t = 0x30 then .ok () else .err .verifFail

/-- little-endian value of the bytes, the first least significant (`usize::from_le_bytes`, x509v3.rs:204). -/
def leNat : Bytes → Nat
  | [] => 0
  | b :: bs => b.toNat + 256 * leNat bs

/-- `check_length` (x509v3.rs:189-207): the length and the number of octets it takes; `length[i]` panics at the ninth length octet. -/
def checkLength (data : Bytes) : Res (Nat × Nat) :=
  match data with
  | [] => .err .verifFail
  | b :: bs =>
    if b.toNat < 0x80 then .ok (b.toNat, 1)
    else if bs.length < b.toNat - 0x80 ∨ b.toNat - 0x80 = 0 then .err .verifFail
    else if b.toNat - 0x80 > 8 then .panic
    else .ok (leNat (bs.take (b.toNat - 0x80)).reverse, b.toNat - 0x80 + 1)

/-- `check_version` (x509v3.rs:209-226). -/
def checkVersion (data : Bytes) : Res Nat :=
  match data with
  | a :: b :: c :: d :: v :: _ =>
    if a ≠ 0xA0 ∨ b ≠ 3 ∨ c ≠ 2 ∨ d ≠ 1 then .err .verifFail else if v = 2 then .ok 5 else .err .verifFail
  | _ => .err .verifFail

/-- `object_identifiers_are_same` (x509v3.rs:302-314). -/
def sameOid (a b : Bytes) : Bool := a == b

/-- `check_object_identifier` (x509v3.rs:228-246). -/
def checkOid (oid : Option Bytes) (data : Bytes) : Res Nat :=
  match data with
  | t :: n :: rest =>
    if t ≠ 6 then .err .verifFail
    else if rest.length < n.toNat ∨ n ≥ 0x80 then .err .verifFail
    else match oid with
      | some o => if sameOid (rest.take n.toNat) o then .ok (n.toNat + 2) else .err .verifFail
      | none => .ok (n.toNat + 2)
  | _ => .err .verifFail

/-- the tail shared by `check_and_skip_common_sequence` and `check_and_skip_common_tag` (x509v3.rs:265-270, 279-284): `rest` is what follows
the tag. -/
def skipBody (ov : Bool) (rest : Bytes) : Res Nat := do
  let (n, k) ← checkLength rest
  let a ← add ov 1 k
  let b ← add ov a n
  if rest.length + 1 < b then .err .verifFail else .ok b

/-- `check_and_skip_common_sequence` (x509v3.rs:260-272), which `check_name`, `check_validity` and `check_public_key_info` call
(x509v3.rs:248-258). -/
def skipSequence (ov : Bool) (data : Bytes) : Res Nat :=
  match data with
  | [] => .err .verifFail
  | t :: rest => if t ≠ 0x30 then .err .verifFail else skipBody ov rest

/-- `check_and_skip_common_tag` (x509v3.rs:274-286); also `check_signature_value` (x509v3.rs:172-174). -/
def skipTag (ov : Bool) (data : Bytes) : Res Nat :=
  match data with
  | [] => .err .verifFail
  | _ :: rest => skipBody ov rest

/-- `get_oid_by_base_asym_algo` with the `OID_*` constants (x509v3.rs:25-29, 288-300). -/
def oidOf (a : BaseAsym) : Option Bytes :=
  if a = BaseAsym.rsassa2048 ∨ a = BaseAsym.rsapss2048 then some [0x2a, 0x86, 0x48, 0x86, 0xf7, 0x0d, 0x01, 0x01, 0x0b]
  else if a = BaseAsym.rsassa3072 ∨ a = BaseAsym.rsapss3072 then some [0x2a, 0x86, 0x48, 0x86, 0xf7, 0x0d, 0x01, 0x01, 0x0c]
  else if a = BaseAsym.rsassa4096 ∨ a = BaseAsym.rsapss4096 then some [0x2a, 0x86, 0x48, 0x86, 0xf7, 0x0d, 0x01, 0x01, 0x0d]
  else if a = BaseAsym.ecdsaP256 then some [0x2a, 0x86, 0x48, 0xce, 0x3d, 0x04, 0x03, 0x02]
  else if a = BaseAsym.ecdsaP384 then some [0x2a, 0x86, 0x48, 0xce, 0x3d, 0x04, 0x03, 0x03]
  else none

/-- the object identifier demanded: only of the leaf certificate (x509v3.rs:123-127, 163-167). -/
def wantOid (a : BaseAsym) (leaf : Bool) : Option Bytes := if leaf then oidOf a else none

/-- one step of a walk: check at position `w`, then move on by what the check consumed (e.g. x509v3.rs:110-111). -/
def stepAt (ov : Bool) (chk : Bytes → Res Nat) (data : Bytes) (w : Nat) : Res Nat := do
  let d ← from? w data
  let k ← chk d
  add ov w k

/-- the header of the sequence at position `w`: the position after it and the length of its body (x509v3.rs:118-121, 158-161). -/
def openAt (ov : Bool) (data : Bytes) (w : Nat) : Res (Nat × Nat) := do
  let d ← from? w data
  checkSequence d
  let w1 ← add ov w 1
  let d1 ← from? w1 data
  let (n, k) ← checkLength d1
  let w2 ← add ov w1 k
  .ok (w2, n)

/-- the algorithm identifier at position `w` (x509v3.rs:118-128, 158-169): the position after it; the length of the sequence is not compared
with the data. -/
def algorithmAt (ov : Bool) (oid : Option Bytes) (data : Bytes) (w : Nat) : Res Nat := do
  let (w1, n) ← openAt ov data w
  let d ← from? w1 data
  let _ ← checkOid oid d
  add ov w1 n

/-- the rest of `check_tbs_certificate` after its length test, from position `w` (x509v3.rs:109-142). -/
def tbsFields (ov : Bool) (oid : Option Bytes) (data : Bytes) (w : Nat) : Res Unit := do
  let w1 ← stepAt ov checkVersion data w
  let w2 ← stepAt ov (skipTag ov) data w1
  let w3 ← algorithmAt ov oid data w2
  let w4 ← stepAt ov (skipSequence ov) data w3
  let w5 ← stepAt ov (skipSequence ov) data w4
  let w6 ← stepAt ov (skipSequence ov) data w5
  let d ← from? w6 data
  let _ ← skipSequence ov d
  .ok ()

/-- `check_tbs_certificate` (x509v3.rs:89-149). -/
def checkTbs (ov : Bool) (oid : Option Bytes) (data : Bytes) : Res Nat := do
  let (w, n) ← openAt ov data 0
  let e ← add ov w n
  if data.length < e then .err .verifFail else do
  tbsFields ov oid data w
  add ov w n

/-- `check_signature_algorithm` (x509v3.rs:151-170). -/
def checkSigAlg (ov : Bool) (oid : Option Bytes) (data : Bytes) : Res Nat := algorithmAt ov oid data 0

/-- the three parts of a certificate, from position `w` (x509v3.rs:73-80): the position after them. -/
def partsAt (ov : Bool) (oid : Option Bytes) (cert : Bytes) (w : Nat) : Res Nat := do
  let w1 ← stepAt ov (checkTbs ov oid) cert w
  let w2 ← stepAt ov (checkSigAlg ov oid) cert w1
  stepAt ov (skipTag ov) cert w2

/-- `check_cert_format` (x509v3.rs:62-87): the size of the certificate at the start of the data.  The certificate that reaches the end of the
data is the leaf. -/
def checkCert (ov : Bool) (a : BaseAsym) (cert : Bytes) : Res Nat := do
  let (w, n) ← openAt ov cert 0
  let e ← add ov w n
  let w' ← partsAt ov (wantOid a (cert.length = e)) cert w
  let e' ← add ov w n
  if w' = e' then .ok w' else .err .verifFail

/-- the loop of `check_cert_chain_format` (x509v3.rs:47-56), `fuel` times round at most: `none` if it is still running. -/
def chainLoop (ov : Bool) (a : BaseAsym) (chain : Bytes) : Nat → Nat → Nat → Option (Res Nat)
  | 0, w, n => if w < chain.length then none else some (if w = chain.length then .ok n else .err .verifFail)
  | fuel + 1, w, n =>
    if w < chain.length then
      match (do let k ← checkCert ov a (chain.drop w); add ov w k) with
      | .ok w' => chainLoop ov a chain fuel w' (n + 1)
      | .err s => some (.err s)
      | .panic => some .panic
    else some (if w = chain.length then .ok n else .err .verifFail)

/-- `check_cert_chain_format` (x509v3.rs:39-57), given `fuel` rounds: the number of certificates. -/
def checkChain (ov : Bool) (a : BaseAsym) (chain : Bytes) (fuel : Nat) : Option (Res Nat) := chainLoop ov a chain fuel 0 0

/-- the loop of `get_cert_from_cert_chain` (spdm_ring/cert_operation_impl.rs:23-45), `fuel` times round at most.  Positions stay below the
length of a slice plus `2^16 + 4`, so the additions do not overflow. -/
def certLoop (chain : Bytes) (index : Int) : Nat → Nat → Int → Option (Res (Nat × Nat))
  | 0, _, _ => none
  | fuel + 1, off, this =>
    if chain.length < off then some .panic
    else match chain.drop off with
    | t :: u :: hi :: lo :: _ =>
      if t ≠ 0x30 ∨ u ≠ 0x82 then some (.err .invalidCert)
      else if hi.toNat * 256 + lo.toNat + 4 > chain.length - off then some (.err .invalidCert)
      else if this = index then some (.ok (off, off + (hi.toNat * 256 + lo.toNat + 4)))
      else if off + (hi.toNat * 256 + lo.toNat + 4) = chain.length ∧ index = -1 then
        some (.ok (off, off + (hi.toNat * 256 + lo.toNat + 4)))
      else certLoop chain index fuel (off + (hi.toNat * 256 + lo.toNat + 4)) (this + 1)
    | _ => some (.err .invalidCert)

/-- `get_cert_from_cert_chain` (spdm_ring/cert_operation_impl.rs:19-46): the first and the last position (exclusive) of certificate `index`,
`-1` for the last. -/
def certFromChain (chain : Bytes) (index : Int) (fuel : Nat) : Option (Res (Nat × Nat)) := certLoop chain index fuel 0 0

/-- a big-endian number without its leading zeroes (asym_verify_impl.rs:124-144). -/
def strip (n : Bytes) : Bytes := n.dropWhile (· == 0)

/-- the content octets of the integer: a leading zero keeps it positive (asym_verify_impl.rs:149-150, 172-177, 181-186). -/
def derInt (n : Bytes) : Bytes := match n with | [] => [] | b :: _ => if b < 0x80 then n else 0 :: n

/-- `ecc_signature_bin_to_der` (spdm_ring/asym_verify_impl.rs:121-187) into a buffer of `cap` bytes: the bytes it reports.  Of a signature of
odd length the second `copy_from_slice` gets a slice of the wrong length. -/
def eccDer (cap : Nat) (sig : Bytes) : Res Bytes :=
  let half := sig.length / 2
  let r := strip (sig.take half)
  let s := strip ((sig.drop half).take half)
  if r = [] ∨ s = [] then .ok []
  else
    let r' := derInt r
    let s' := derInt s
    let n := r'.length + s'.length + 6
    if cap < n then .err .verifFail
    else if r'.length > 255 ∨ s'.length > 255 ∨ n > 255 then .err .verifFail
    else if sig.length % 2 = 1 then .panic
    else .ok ([0x30, UInt8.ofNat (n - 2), 0x02, UInt8.ofNat r'.length] ++ r' ++ [0x02, UInt8.ofNat s'.length] ++ s')

end Verif.X509
