/-
What a certificate chain looks like, written down without reference to the code: ASN.1 definite lengths, tag-length-value items, the outline
of an X.509 version 3 certificate.
-/
import Verif.Codec.Basic

namespace Verif.Spec

/-- the number a string of bytes denotes, most significant byte first. -/
def beNat : Bytes → Nat
  | [] => 0
  | b :: bs => b.toNat * 256 ^ bs.length + beNat bs

/-- `l` are length octets for `n`: one octet below 128, or an octet 128 + k and k octets with the number, k between 1 and 8 (the shortest form
is not demanded). -/
inductive LengthOf : Nat → Bytes → Prop
  | short (b : UInt8) : b.toNat < 128 → LengthOf b.toNat [b]
  | long (b : UInt8) (bs : Bytes) : b.toNat = 128 + bs.length → 1 ≤ bs.length → bs.length ≤ 8 → LengthOf (beNat bs) (b :: bs)

/-- `item` is an item with tag `t` and content `body`. -/
def Tlv (t : UInt8) (body item : Bytes) : Prop := ∃ l, LengthOf body.length l ∧ item = t :: (l ++ body)

/-- the data starts with an object identifier of less than 128 bytes, the given one if one is given. -/
def StartsOid (oid : Option Bytes) (data : Bytes) : Prop :=
  ∃ n o rest, data = 6 :: n :: (o ++ rest) ∧ n.toNat = o.length ∧ n.toNat < 128 ∧ (∀ want, oid = some want → o = want)

/-- the data starts with version 3, a serial number, an algorithm identifier, issuer, validity, subject, public key. -/
def Fields (oid : Option Bytes) (data : Bytes) : Prop :=
  ∃ t serial sb algorithm ab issuer ib validity vb subject jb key kb tail,
    data = [0xA0, 3, 2, 1, 2] ++ (serial ++ (algorithm ++ (issuer ++ (validity ++ (subject ++ (key ++ tail)))))) ∧
    Tlv t sb serial ∧ Tlv 0x30 ab algorithm ∧ StartsOid oid (ab ++ (issuer ++ (validity ++ (subject ++ (key ++ tail))))) ∧
    Tlv 0x30 ib issuer ∧ Tlv 0x30 vb validity ∧ Tlv 0x30 jb subject ∧ Tlv 0x30 kb key

/-- `cert`, followed by `rest`, has the outline of a certificate: a sequence of exactly three items, the certified content, the signature
algorithm and the signature.  `Fields` and `StartsOid` are asked of what starts at the content, not of the content. -/
def CertForm (oid : Option Bytes) (cert rest : Bytes) : Prop :=
  ∃ content tbs algorithm ab t sb signature,
    Tlv 0x30 (content ++ (algorithm ++ signature)) cert ∧ Tlv 0x30 tbs content ∧ Tlv 0x30 ab algorithm ∧ Tlv t sb signature ∧
    Fields oid (tbs ++ (algorithm ++ (signature ++ rest))) ∧ StartsOid oid (ab ++ (signature ++ rest))

/-- a chain of certificates; only of the last an object identifier is demanded. -/
def ChainForm (oid : Option Bytes) : List Bytes → Prop
  | [] => True
  | c :: cs => CertForm (if cs = [] then oid else none) c cs.flatten ∧ ChainForm oid cs

/-- base 128, most significant digit first, all digits but the last marked (`fuel` digits at most). -/
def arc : Nat → Nat → Bytes
  | 0, _ => []
  | fuel + 1, n => (if n < 128 then [] else (arc fuel (n / 128)).map (· ||| 0x80)) ++ [UInt8.ofNat (n % 128)]

/-- the content octets of the object identifier with the given arcs. -/
def oid : List Nat → Bytes
  | a :: b :: rest => arc 5 (40 * a + b) ++ (rest.map (arc 5)).flatten
  | _ => []

/-- the object identifier of the signature algorithm of a certificate, by the negotiated signature algorithm (DSP0274 bit numbers): RSA with
SHA-256/384/512 (1.2.840.113549.1.1.11/12/13) for 2048/3072/4096-bit keys, ECDSA with SHA-256/384 (1.2.840.10045.4.3.2/3) for P-256/P-384. -/
def signatureOid (bit : Nat) : Option Bytes :=
  if bit = 0 ∨ bit = 1 then some (oid [1, 2, 840, 113549, 1, 1, 11])
  else if bit = 2 ∨ bit = 3 then some (oid [1, 2, 840, 113549, 1, 1, 12])
  else if bit = 5 ∨ bit = 6 then some (oid [1, 2, 840, 113549, 1, 1, 13])
  else if bit = 4 then some (oid [1, 2, 840, 10045, 4, 3, 2])
  else if bit = 7 then some (oid [1, 2, 840, 10045, 4, 3, 3])
  else none

/-- a certificate as the chain walk knows it: a sequence with two length octets. -/
def RawCert (c : Bytes) : Prop := ∃ hi lo body, c = 0x30 :: 0x82 :: hi :: lo :: body ∧ body.length = hi.toNat * 256 + lo.toNat

/-- `i` are the content octets of the positive integer `n`: its shortest two's complement form. -/
def DerInt (n : Nat) (i : Bytes) : Prop :=
  beNat i = n ∧ ∃ b bs, i = b :: bs ∧ b.toNat < 128 ∧ (b = 0 → ∃ b' bs', bs = b' :: bs' ∧ 128 ≤ b'.toNat)

/-- `l` is the shortest form of the length `n` (DER), for lengths below 65536. -/
def ShortestLength (n : Nat) (l : Bytes) : Prop :=
  (n < 128 ∧ l = [UInt8.ofNat n]) ∨ (128 ≤ n ∧ n < 256 ∧ l = [0x81, UInt8.ofNat n]) ∨
    (256 ≤ n ∧ n < 65536 ∧ l = [0x82, UInt8.ofNat (n / 256), UInt8.ofNat (n % 256)])

/-- a sequence in DER, of less than 65536 bytes of content. -/
def DerSequence (c : Bytes) : Prop := ∃ l body, ShortestLength body.length l ∧ c = 0x30 :: (l ++ body)

/-- a signature scheme: ECDSA over the curve of the given number of bits, or one of the two RSA paddings; with the number of bits of the hash. -/
inductive SigScheme where
  | ecdsa (curve hash : Nat)
  | pkcs1 (hash : Nat)
  | pss (hash : Nat)
  deriving DecidableEq, Repr

/-- the scheme of a signature algorithm and a hash, by their bit numbers (DSP0274). -/
def scheme (asym hash : Nat) : SigScheme :=
  let h := if hash = 0 then 256 else if hash = 1 then 384 else 512
  if asym = 4 then .ecdsa 256 h else if asym = 7 then .ecdsa 384 h
  else if asym = 1 ∨ asym = 3 ∨ asym = 6 then .pss h else .pkcs1 h

/-- the size of a signature, by the bit number of its algorithm (DSP0274). -/
def signatureSize (asym : Nat) : Nat :=
  if asym = 4 then 64 else if asym = 7 then 96 else if asym = 0 ∨ asym = 1 then 256 else if asym = 2 ∨ asym = 3 then 384 else 512

/-- `out` is the signature `sig` as X.509 software expects it: RSA signatures as they are, of ECDSA the DER sequence of the two integers (nothing
if one of them is zero). -/
def SignatureFor (asym : Nat) (sig out : Bytes) : Prop :=
  if asym = 4 ∨ asym = 7 then
    ∃ r s, sig = r ++ s ∧ r.length = s.length ∧
      (((beNat r = 0 ∨ beNat s = 0) ∧ out = []) ∨
       (beNat r ≠ 0 ∧ beNat s ≠ 0 ∧ ∃ ir is rItem sItem, DerInt (beNat r) ir ∧ DerInt (beNat s) is ∧ Tlv 2 ir rItem ∧ Tlv 2 is sItem ∧
         Tlv 0x30 (rItem ++ sItem) out))
  else out = sig

end Verif.Spec
