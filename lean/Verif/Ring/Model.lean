/-
The default cryptographic callbacks (spdmlib/src/crypto/spdm_ring): thin wrappers around the `ring` library.  `ring` itself is a record of functions;
what it promises is stated in `Verif/Spec/Ring.lean`.
-/
import Verif.Session.Crypto

namespace Verif.Ring

/-- the digests of `ring` the code uses. -/
inductive Sha where | sha256 | sha384 | sha512
  deriving DecidableEq, Repr

/-- `output_len` of a digest of `ring`. -/
def Sha.len : Sha → Nat
  | .sha256 => 32
  | .sha384 => 48
  | .sha512 => 64

/-- the ciphers of `ring` the code uses. -/
inductive Cipher where | aes128 | aes256 | chacha
  deriving DecidableEq, Repr

/-- `key_len` of a cipher of `ring`. -/
def Cipher.keyLen : Cipher → Nat
  | .aes128 => 16
  | .aes256 => 32
  | .chacha => 32

/-- The functions of `ring` the wrappers call. -/
structure Lib where
  /-- `ring::digest::digest` -/
  digest : Sha → Bytes → Bytes
  /-- `ring::hmac::sign`: key, data -/
  hmac : Sha → Bytes → Bytes → Bytes
  /-- `ring::hmac::verify`: key, data, tag -/
  hmacVerify : Sha → Bytes → Bytes → Bytes → Bool
  /-- `ring::hkdf::Prk::expand` and `Okm::fill`: pseudo-random key, info, length -/
  expand : Sha → Bytes → Bytes → Nat → Option Bytes
  /-- `ring::aead::SealingKey::seal_in_place_append_tag`: key, nonce, aad, plaintext; result ciphertext followed by tag -/
  «seal» : Cipher → Bytes → Bytes → Bytes → Bytes → Option Bytes
  /-- `ring::aead::OpeningKey::open_in_place`: key, nonce, aad, ciphertext followed by tag -/
  «open» : Cipher → Bytes → Bytes → Bytes → Bytes → Option Bytes
  /-- `ring::rand::generate` of 64 bytes, the `n`-th call -/
  generate : Nat → Option Bytes

/-- the `match` of `hash_all`, `hmac`, `hmac_verify`, `hkdf_extract`, `hkdf_expand` and `hash_ctx_init` on the hash (spdm_ring/hash_impl.rs:26-31, 82-87,
hmac_impl.rs:15-22, 36-43, hkdf_impl.rs:21-28, 47-52). -/
def sha? (a : BaseHash) : Option Sha :=
  if a = BaseHash.sha256 then some .sha256
  else if a = BaseHash.sha384 then some .sha384
  else if a = BaseHash.sha512 then some .sha512
  else none

/-- the `match` of `make_key` on the cipher (spdm_ring/aead_impl.rs:134-141); `none` is its panic. -/
def cipher? (a : Aead) : Option Cipher :=
  if a = Aead.aes128 then some .aes128
  else if a = Aead.aes256 then some .aes256
  else if a = Aead.chacha then some .chacha
  else none

/-- `From<&[u8]>` of the sized byte structures (protocol/algo.rs:1158-1166): the length is asserted. -/
def sized (max : Nat) (b : Bytes) : Res Bytes := if b.length ≤ max then .ok b else .panic

/-- `hash_all` (spdm_ring/hash_impl.rs:25-34); `none` is the `None` of an unsupported algorithm. -/
def hashAll (l : Lib) (a : BaseHash) (d : Bytes) : Option (Res Bytes) := (sha? a).map fun s => sized 64 (l.digest s d)

/-- `hmac` (spdm_ring/hmac_impl.rs:14-28). -/
def hmac (l : Lib) (a : BaseHash) (k d : Bytes) : Res Bytes := do
  let s ← Res.unwrap (sha? a)
  sized 64 (l.hmac s k d)

/-- `hmac_verify` (spdm_ring/hmac_impl.rs:30-50). -/
def hmacVerify (l : Lib) (a : BaseHash) (k d m : Bytes) : Res Unit := do
  let s ← Res.unwrap (sha? a)
  if l.hmacVerify s k d m then .ok () else .err .verifFail

/-- `hkdf_extract` (spdm_ring/hkdf_impl.rs:16-34). -/
def extract (l : Lib) (a : BaseHash) (salt ikm : Bytes) : Res Bytes := do
  let s ← Res.unwrap (sha? a)
  sized 64 (l.hmac s salt ikm)

/-- `hkdf_expand` (spdm_ring/hkdf_impl.rs:36-71).  `Okm::fill` fails when the length is not the one asked for; it always is. -/
def expand (l : Lib) (a : BaseHash) (prk info : Bytes) (n : Nat) : Option Bytes :=
  if 64 < n then none
  else match sha? a with
    | none => none
    | some s => if prk.length ≠ s.len then none else l.expand s prk info n

/-- `make_key` (spdm_ring/aead_impl.rs:128-154): panic on another cipher; `UnboundKey::new` refuses a key of the wrong length. -/
def makeKey (a : Aead) (key : Bytes) : Res Cipher := do
  let c ← Res.unwrap (cipher? a)
  if key.length ≠ c.keyLen then .err .cryptoError else .ok c

/-- the checks `encrypt` and `decrypt` begin with (spdm_ring/aead_impl.rs:25-44, 76-95): `tagLen` and `outLen` are the lengths of the buffers for the tag
and for the result, `inLen` the length of the input.  The sizes of another algorithm panic. -/
def checkSizes (a : Aead) (key iv : Bytes) (tagLen inLen outLen : Nat) : Res Unit := do
  let ks ← Res.unwrap (Aead.keySize? a)
  if key.length ≠ ks then .err .cryptoError else
    let is ← Res.unwrap (Aead.ivSize? a)
    if iv.length ≠ is then .err .cryptoError else
      let ts ← Res.unwrap (Aead.tagSize? a)
      if tagLen ≠ ts then .err .cryptoError else
        if outLen ≠ inLen then .err .cryptoError else .ok ()

/-- `encrypt` (spdm_ring/aead_impl.rs:16-65): ciphertext and tag.  The initialisation vector is `iv.data[..12]`; `iv` is `data[..data_size]`, which has 12
bytes when the sizes are right.  The result of `ring` is cut into ciphertext and tag; an index out of range panics. -/
def encrypt (l : Lib) (a : Aead) (key iv aad plain : Bytes) (tagLen outLen : Nat) : Res (Bytes × Bytes) := do
  checkSizes a key iv tagLen plain.length outLen
  let c ← makeKey a key
  match l.seal c key (iv.take 12) aad plain with
  | none => .err .cryptoError
  | some out =>
    if plain.length + tagLen ≤ out.length then .ok (out.take plain.length, (out.drop plain.length).take tagLen) else .panic

/-- `decrypt` (spdm_ring/aead_impl.rs:67-112): the plaintext. -/
def decrypt (l : Lib) (a : Aead) (key iv aad cipher tag : Bytes) (outLen : Nat) : Res Bytes := do
  checkSizes a key iv tag.length cipher.length outLen
  let c ← makeKey a key
  match l.open c key (iv.take 12) aad (cipher ++ tag) with
  | none => .err .cryptoError
  | some out => if cipher.length ≤ out.length then .ok (out.take cipher.length) else .panic

/-- the loop of `get_random` (spdm_ring/rand_impl.rs:17-31): `data` is the buffer, `offset` how much is filled, `len` how much is left, `calls` how often
`ring` was called.  Blocks of 64 bytes; the recursion is on a bound of the number of turns, which `getRandom` chooses large enough. -/
def randomLoop (l : Lib) : Nat → Nat → Nat → Nat → Bytes → Res Bytes
  | 0, _, _, _, data => .ok data
  | turns + 1, calls, offset, len, data =>
    if len = 0 then .ok data
    else match l.generate calls with
      | none => .err .cryptoError
      | some block =>
        if 64 < len then
          if offset + 64 ≤ data.length ∧ block.length = 64 then
            randomLoop l turns (calls + 1) (offset + 64) (len - 64) (data.take offset ++ block ++ data.drop (offset + 64))
          else .panic
        else if offset + len ≤ data.length ∧ len ≤ block.length then .ok (data.take offset ++ block.take len ++ data.drop (offset + len))
        else .panic

/-- `get_random` (spdm_ring/rand_impl.rs:11-34): the buffer afterwards. -/
def getRandom (l : Lib) (calls : Nat) (data : Bytes) : Res Bytes := randomLoop l (data.length + 1) calls 0 data.length data

/-- A crypto table as the rest of the model uses it, made of these functions and of the secret callbacks: a panic and an error both give no result (where
they panic is stated by the theorems about them). -/
def get? {α : Type} : Res α → Option α
  | .ok a => some a
  | _ => none

/-- the callbacks of spdmlib/src/crypto/mod.rs with the defaults of spdm_ring; the buffers `encode_msg` and `decode_msg` hand to the cipher
(common/session.rs:956-964, 1034-1043) have the sizes `checkSizes` asks for. -/
def crypto (l : Lib) (pskHandshake pskMaster : SpdmVersion → BaseHash → Bytes → Bytes → Option Bytes) : Crypto where
  hash a d := (hashAll l a d).bind get?
  hmac a k d := get? (hmac l a k d)
  hmacVerify a k d m := (get? (hmacVerify l a k d m)).isSome
  extract a s k := get? (extract l a s k)
  expand a k i n := expand l a k i n
  pskHandshake := pskHandshake
  pskMaster := pskMaster
  «seal» a k iv aad pt := get? (encrypt l a k iv aad pt ((Aead.tagSize? a).getD 0) pt.length)
  «open» a k iv aad ct tag := get? (decrypt l a k iv aad ct tag ct.length)

/-! ### Hash contexts (spdm_ring/hash_impl.rs:36-98)

The contexts live in a table indexed by the address of their box.  Each access to the table is made under a lock, so a step below is atomic; `init` and
`dup` allocate the box first and take the lock again to insert it. -/

/-- The table and the boxes that were allocated but not yet inserted. -/
structure Heap (σ : Type) where
  table : Nat → Option σ
  pending : Nat → Option σ

/-- A context of `ring::digest`: `Context::new`, `update`, `finish`. -/
structure Digests (σ : Type) where
  new : Sha → σ
  update : σ → Bytes → σ
  finish : σ → Bytes

/-- What a thread does in one atomic step.  `addr` is the address the allocator chose. -/
inductive Ev where
  /-- `HashCtxConcrete::new` in `hash_ctx_init` (hash_impl.rs:82-88) -/
  | create (a : BaseHash) (addr : Nat)
  /-- the first lock of `hash_ctx_dup` (hash_impl.rs:70-75) -/
  | copy (h : Nat) (addr : Nat)
  /-- `insert_to_table` (hash_impl.rs:92-97) -/
  | insert (addr : Nat)
  /-- `hash_ctx_update` (hash_impl.rs:56-61) -/
  | update (h : Nat) (data : Bytes)
  /-- `hash_ctx_finalize` (hash_impl.rs:63-67); dropping an `SpdmHashCtx` with a non-zero handle does the same (crypto/mod.rs:78-84) -/
  | finish (h : Nat)
  deriving DecidableEq

/-- what the step returns to its thread. -/
inductive Ret where
  | none
  | done
  | failed (st : Status)
  | digest (d : Bytes)
  deriving DecidableEq

variable {σ : Type}

/-- change one entry of a map. -/
def put (f : Nat → Option σ) (k : Nat) (v : Option σ) : Nat → Option σ := fun i => if i = k then v else f i

/-- an address the allocator may choose: not null and not that of a box in use. -/
def Heap.free (m : Heap σ) (addr : Nat) : Prop := addr ≠ 0 ∧ m.table addr = .none ∧ m.pending addr = .none

instance (m : Heap σ) [DecidableEq (Option σ)] (addr : Nat) : Decidable (m.free addr) := by unfold Heap.free; infer_instance

/-- One step. -/
inductive Step (D : Digests σ) : Heap σ → Ev → Ret → Heap σ → Prop
  | create {m a s addr} : sha? a = some s → m.free addr → Step D m (.create a addr) .done { m with pending := put m.pending addr (some (D.new s)) }
  | unsupported {m a addr} : sha? a = .none → Step D m (.create a addr) .none m
  | copy {m h x addr} : m.table h = some x → m.free addr → Step D m (.copy h addr) .done { m with pending := put m.pending addr (some x) }
  | noCopy {m h addr} : m.table h = .none → Step D m (.copy h addr) .none m
  | insert {m addr x} : m.pending addr = some x → Step D m (.insert addr) .done { table := put m.table addr (some x), pending := put m.pending addr .none }
  | update {m h x data} : m.table h = some x → Step D m (.update h data) .done { m with table := put m.table h (some (D.update x data)) }
  | noUpdate {m h data} : m.table h = .none → Step D m (.update h data) (.failed .cryptoError) m
  | finish {m h x} : m.table h = some x → Step D m (.finish h) (.digest (D.finish x)) { m with table := put m.table h .none }
  | noFinish {m h} : m.table h = .none → Step D m (.finish h) .none m

/-- A schedule: any number of steps of any threads, one after the other. -/
inductive Steps (D : Digests σ) : Heap σ → List (Ev × Ret) → Heap σ → Prop
  | nil {m} : Steps D m [] m
  | cons {m m1 m2 evs ev r} : Step D m ev r m1 → Steps D m1 evs m2 → Steps D m ((ev, r) :: evs) m2

end Verif.Ring
