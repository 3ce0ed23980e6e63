/-
The cryptographic callbacks (spdmlib/src/crypto/crypto_callbacks.rs, spdmlib/src/secret) as a record of functions.
Theorems quantify over every such record; laws they need are hypotheses.
-/
import Verif.Proto.Status
import Verif.Proto.Neg

namespace Verif

/-- Crypto callbacks.  Keys, digests and secrets are byte strings (`data[..data_size]` of the Rust structs).  The static
callback tables of Rust (`CRYPTO_HASH`, ...) are pure functions here: the same inputs give the same result.  -/
structure Crypto where
  /-- `hash_all_cb`, and also init/update*/finalize of a hash context over the concatenation of the updates
  (crypto_callbacks.rs:24-31): the model identifies incremental and one-shot hashing. `none`: unsupported algorithm. -/
  hash : BaseHash → Bytes → Option Bytes
  /-- `hmac_cb` (crypto_callbacks.rs:35-36) -/
  hmac : BaseHash → Bytes → Bytes → Option Bytes
  /-- `hmac_verify_cb` (crypto_callbacks.rs:38-43); `true` is `Ok`, `false` is `Err(SPDM_STATUS_VERIF_FAIL)` -/
  hmacVerify : BaseHash → Bytes → Bytes → Bytes → Bool
  /-- `hkdf_extract_cb` (crypto_callbacks.rs:86-90): algorithm, salt, input keying material -/
  extract : BaseHash → Bytes → Bytes → Option Bytes
  /-- `hkdf_expand_cb` (crypto_callbacks.rs:91-96): algorithm, pseudo-random key, info, output size -/
  expand : BaseHash → Bytes → Bytes → Nat → Option Bytes
  /-- `secret::psk::handshake_secret_hkdf_expand`: version, algorithm, hint, info -/
  pskHandshake : SpdmVersion → BaseHash → Bytes → Bytes → Option Bytes
  /-- `secret::psk::master_secret_hkdf_expand` -/
  pskMaster : SpdmVersion → BaseHash → Bytes → Bytes → Option Bytes
  /-- `encrypt_cb` (crypto_callbacks.rs:46-54): algorithm, key, iv, aad, plaintext; result ciphertext and tag; `none` is
  `Err(SPDM_STATUS_CRYPTO_ERROR)` -/
  «seal» : Aead → Bytes → Bytes → Bytes → Bytes → Option (Bytes × Bytes)
  /-- `decrypt_cb` (crypto_callbacks.rs:56-64): algorithm, key, iv, aad, ciphertext, tag -/
  «open» : Aead → Bytes → Bytes → Bytes → Bytes → Bytes → Option Bytes

/-- AEAD correctness: what was sealed opens to the plaintext, ciphertexts have the length of the plaintext and tags the
tag size. -/
structure Crypto.AeadLaws (c : Crypto) : Prop where
  open_seal : ∀ a k iv aad pt ct tag, c.seal a k iv aad pt = some (ct, tag) → c.open a k iv aad ct tag = some pt
  seal_size : ∀ a k iv aad pt ct tag, c.seal a k iv aad pt = some (ct, tag) →
    ct.length = pt.length ∧ some tag.length = Aead.tagSize? a

/-- A hash context (`SpdmHashCtx`): algorithm and the bytes fed so far. -/
structure HashCtx where
  algo : BaseHash
  data : Bytes
  deriving Repr, DecidableEq

end Verif
