/-
C64: the AEAD callbacks.  C65: hashing, HMAC and HKDF.  C66: random numbers.
-/
import Verif.Props.HashCtx
import Verif.Props.KeyUpdate

namespace Verif.Props
open Verif.Spec Verif.Ring

variable {l : Lib}

/-- the three ciphers: the algorithm, the cipher of `ring`, the size of its keys. -/
inductive CipherOf : Aead → Cipher → Nat → Prop
  | aes128 : CipherOf Aead.aes128 .aes128 16
  | aes256 : CipherOf Aead.aes256 .aes256 32
  | chacha : CipherOf Aead.chacha .chacha 32

theorem cipherOf_facts {a : Aead} {c : Cipher} {k : Nat} (h : CipherOf a c k) :
    Aead.keySize? a = some k ∧ Aead.ivSize? a = some 12 ∧ Aead.tagSize? a = some 16 ∧ cipher? a = some c ∧ c.keyLen = k := by
  cases h <;> decide

theorem cipherOf_of {a : Aead} {n : Nat} (h : Aead.keySize? a = some n) : ∃ c, CipherOf a c n := by
  unfold Aead.keySize? at h
  split at h
  · rename_i h'; cases h; subst h'; exact ⟨_, .aes128⟩
  · split at h
    · rename_i h'; cases h; subst h'; exact ⟨_, .aes256⟩
    · split at h
      · rename_i h'; cases h; subst h'; exact ⟨_, .chacha⟩
      · cases h

theorem checkSizes_of {a : Aead} {c : Cipher} {k : Nat} (h : CipherOf a c k) (key iv : Bytes) (tagLen inLen outLen : Nat) :
    checkSizes a key iv tagLen inLen outLen = if key.length = k ∧ iv.length = 12 ∧ tagLen = 16 ∧ outLen = inLen then .ok () else .err .cryptoError := by
  obtain ⟨h1, h2, h3, -, -⟩ := cipherOf_facts h
  unfold checkSizes
  simp only [h1, h2, h3, Res.unwrap, Res.ok_bind]
  by_cases a1 : key.length = k
  · by_cases a2 : iv.length = 12
    · by_cases a3 : tagLen = 16
      · by_cases a4 : outLen = inLen <;> simp [a1, a2, a3, a4]
      · simp [a1, a2, a3]
    · simp [a1, a2]
  · simp [a1]

theorem makeKey_of {a : Aead} {c : Cipher} {k : Nat} (h : CipherOf a c k) {key : Bytes} (hk : key.length = k) : makeKey a key = .ok c := by
  obtain ⟨-, -, -, h4, h5⟩ := cipherOf_facts h
  unfold makeKey
  simp [h4, Res.unwrap, hk, h5]

/-- **C64**: for each cipher and all sizes of the arguments: when every size is right the result is what `ring` gives for that cipher, the key, the whole of the
initialisation vector as nonce and the associated data, cut into ciphertext and tag, or the crypto error if `ring` refuses; with any wrong size it is the crypto
error.  There is no panic. -/
theorem C64_encrypt (hl : Promises l) {a : Aead} {c : Cipher} {k : Nat} (ha : CipherOf a c k) (key iv aad plain : Bytes) (tagLen outLen : Nat) :
    (key.length = k ∧ iv.length = 12 ∧ tagLen = 16 ∧ outLen = plain.length →
      (∃ ct tag, encrypt l a key iv aad plain tagLen outLen = .ok (ct, tag) ∧ l.seal c key iv aad plain = some (ct ++ tag) ∧ ct.length = plain.length ∧ tag.length = 16) ∨
      (encrypt l a key iv aad plain tagLen outLen = .err .cryptoError ∧ l.seal c key iv aad plain = none)) ∧
    (¬ (key.length = k ∧ iv.length = 12 ∧ tagLen = 16 ∧ outLen = plain.length) → encrypt l a key iv aad plain tagLen outLen = .err .cryptoError) := by
  unfold encrypt
  rw [checkSizes_of ha]
  constructor
  · intro h
    rw [if_pos h]
    obtain ⟨h1, h2, h3, h4⟩ := h
    rw [Res.ok_bind, makeKey_of ha h1, Res.ok_bind, List.take_of_length_le (Nat.le_of_eq h2)]
    cases hs : l.seal c key iv aad plain with
    | none => exact .inr ⟨rfl, rfl⟩
    | some out =>
      have hlen := hl.seal_len _ _ _ _ _ _ hs
      left
      refine ⟨out.take plain.length, (out.drop plain.length).take tagLen, ?_, ?_, ?_, ?_⟩
      · dsimp only
        rw [if_pos (by omega)]
      · rw [List.take_of_length_le (l := out.drop plain.length) (by rw [List.length_drop]; omega), List.take_append_drop]
      · rw [List.length_take]; omega
      · rw [List.length_take, List.length_drop]; omega
  · intro h
    rw [if_neg h]
    rfl

/-- **C64**: likewise for decryption: a plaintext is only given out when `ring` authenticated that ciphertext and tag with that key, nonce and associated data, and it
has the length of the ciphertext. -/
theorem C64_decrypt (hl : Promises l) {a : Aead} {c : Cipher} {k : Nat} (ha : CipherOf a c k) (key iv aad ct tag : Bytes) (outLen : Nat) :
    (key.length = k ∧ iv.length = 12 ∧ tag.length = 16 ∧ outLen = ct.length →
      (∃ plain, decrypt l a key iv aad ct tag outLen = .ok plain ∧ l.open c key iv aad (ct ++ tag) = some plain ∧ plain.length = ct.length) ∨
      (decrypt l a key iv aad ct tag outLen = .err .cryptoError ∧ l.open c key iv aad (ct ++ tag) = none)) ∧
    (¬ (key.length = k ∧ iv.length = 12 ∧ tag.length = 16 ∧ outLen = ct.length) → decrypt l a key iv aad ct tag outLen = .err .cryptoError) := by
  unfold decrypt
  rw [checkSizes_of ha]
  constructor
  · intro h
    rw [if_pos h]
    obtain ⟨h1, h2, h3, h4⟩ := h
    rw [Res.ok_bind, makeKey_of ha h1, Res.ok_bind, List.take_of_length_le (Nat.le_of_eq h2)]
    cases hs : l.open c key iv aad (ct ++ tag) with
    | none => exact .inr ⟨rfl, rfl⟩
    | some out =>
      have hlen := hl.open_len _ _ _ _ _ _ hs
      rw [List.length_append] at hlen
      refine .inl ⟨out, ?_, rfl, by omega⟩
      dsimp only
      rw [if_pos (by omega), List.take_of_length_le (by omega)]
  · intro h
    rw [if_neg h]
    rfl

/-- **C64**: what was encrypted decrypts, with the same key, initialisation vector and associated data, to the plaintext. -/
theorem C64_round_trip (hl : Promises l) {a : Aead} {key iv aad plain ct tag : Bytes} {tagLen outLen : Nat}
    (h : encrypt l a key iv aad plain tagLen outLen = .ok (ct, tag)) : decrypt l a key iv aad ct tag ct.length = .ok plain := by
  have hk : ∃ k, Aead.keySize? a = some k := by
    cases hk : Aead.keySize? a with
    | some k => exact ⟨k, rfl⟩
    | none => unfold encrypt checkSizes at h; rw [hk] at h; cases h
  obtain ⟨k, hk⟩ := hk
  obtain ⟨c, ha⟩ := cipherOf_of hk
  obtain ⟨e1, e2⟩ := C64_encrypt hl ha key iv aad plain tagLen outLen
  by_cases hsz : key.length = k ∧ iv.length = 12 ∧ tagLen = 16 ∧ outLen = plain.length
  · rcases e1 hsz with ⟨ct', tag', g1, g2, g3, g4⟩ | ⟨g1, -⟩
    · rw [h] at g1
      cases g1
      have ho := hl.open_seal _ _ _ _ _ _ g2
      rcases (C64_decrypt hl ha key iv aad ct tag ct.length).1 ⟨hsz.1, hsz.2.1, g4, rfl⟩ with ⟨p, q1, q2, -⟩ | ⟨-, q2⟩
      · rw [ho] at q2; cases q2; exact q1
      · rw [ho] at q2; cases q2
    · rw [h] at g1; cases g1
  · rw [h] at e2; cases e2 hsz

/-- an algorithm that is none of the three makes both functions panic. -/
theorem C64_unsupported {a : Aead} (h : ∀ c k, ¬ CipherOf a c k) (key iv aad plain tag : Bytes) (tagLen outLen : Nat) :
    encrypt l a key iv aad plain tagLen outLen = .panic ∧ decrypt l a key iv aad plain tag outLen = .panic := by
  have hk : Aead.keySize? a = none := by
    cases hk : Aead.keySize? a with
    | none => rfl
    | some k => obtain ⟨c, hc⟩ := cipherOf_of hk; exact absurd hc (h c k)
  unfold encrypt decrypt checkSizes
  rw [hk]
  exact ⟨rfl, rfl⟩

/-! ### Hashing -/

/-- the three hashes: the algorithm, the digest of `ring` and the size. -/
inductive HashOf : BaseHash → Sha → Nat → Prop
  | sha256 : HashOf BaseHash.sha256 .sha256 32
  | sha384 : HashOf BaseHash.sha384 .sha384 48
  | sha512 : HashOf BaseHash.sha512 .sha512 64

theorem hashOf_facts {a : BaseHash} {s : Sha} {n : Nat} (h : HashOf a s n) : BaseHash.size? a = some n ∧ sha? a = some s ∧ s.len = n ∧ n ≤ 64 ∧ 0 < n := by
  cases h <;> decide

theorem hashOf_sha {a : BaseHash} {s : Sha} (h : sha? a = some s) : HashOf a s s.len := by
  unfold sha? at h
  split at h
  · rename_i h'; cases h; subst h'; exact .sha256
  · split at h
    · rename_i h'; cases h; subst h'; exact .sha384
    · split at h
      · rename_i h'; cases h; subst h'; exact .sha512
      · cases h

theorem hashOf_size {a : BaseHash} {n : Nat} (h : BaseHash.size? a = some n) : ∃ s, HashOf a s n := by
  unfold BaseHash.size? at h
  split at h
  · rename_i h'; cases h; subst h'; exact ⟨_, .sha256⟩
  · split at h
    · rename_i h'; cases h; subst h'; exact ⟨_, .sha384⟩
    · split at h
      · rename_i h'; cases h; subst h'; exact ⟨_, .sha512⟩
      · cases h

theorem sized_ok {b : Bytes} (h : b.length ≤ 64) : sized 64 b = .ok b := if_pos h

theorem hkdfBlocks_length {mac : Bytes → Bytes} {info : Bytes} {len : Nat} (hm : ∀ d, (mac d).length = len) :
    ∀ n i prev, (hkdfBlocks mac info i n prev).length = n * len := by
  intro n
  induction n with
  | zero => intro i prev; simp [hkdfBlocks]
  | succ n ih => intro i prev; rw [hkdfBlocks, List.length_append, hm, ih, Nat.succ_mul]; omega

theorem hkdfExpand_length {mac : Bytes → Bytes} {info : Bytes} {len : Nat} (hm : ∀ d, (mac d).length = len) (h0 : 0 < len) (n : Nat) :
    (hkdfExpand mac len info n).length = n := by
  unfold hkdfExpand
  rw [List.length_take, hkdfBlocks_length hm]
  have h1 := Nat.div_add_mod (n + len - 1) len
  have h2 := Nat.mod_lt (n + len - 1) h0
  rw [Nat.mul_comm] at h1
  omega

/-- **C65**: for each of the three hashes the callbacks compute the digest, the HMAC and the HKDF of RFC 5869 with that hash (extraction is HMAC keyed with the salt),
a MAC is accepted exactly when it is the HMAC, and there is no panic; expansion refuses more than 64 bytes and a key that is not of the size of the hash. -/
theorem C65_hash (hl : Promises l) {a : BaseHash} {s : Sha} {n : Nat} (ha : HashOf a s n) (key data info : Bytes) (m : Nat) :
    hashAll l a data = some (.ok (l.digest s data)) ∧
    hmac l a key data = .ok (l.hmac s key data) ∧
    (∀ mac, hmacVerify l a key data mac = if mac = l.hmac s key data then .ok () else .err .verifFail) ∧
    extract l a key data = .ok (l.hmac s key data) ∧
    expand l a key info m = if m ≤ 64 ∧ key.length = n then some (hkdfExpand (l.hmac s key) n info m) else none := by
  obtain ⟨-, h2, h3, h4, h5⟩ := hashOf_facts ha
  refine ⟨?_, ?_, ?_, ?_, ?_⟩
  · unfold hashAll
    rw [h2, Option.map_some, sized_ok (by rw [hl.digest_len]; omega)]
  · unfold hmac
    rw [h2]
    exact sized_ok (by rw [hl.hmac_len]; omega)
  · intro mac
    unfold hmacVerify
    rw [h2]
    show (if l.hmacVerify s key data mac = true then Res.ok () else .err .verifFail) = _
    by_cases hm : mac = l.hmac s key data
    · rw [if_pos ((hl.verify ..).2 hm), if_pos hm]
    · rw [if_neg fun h => hm ((hl.verify ..).1 h), if_neg hm]
  · unfold extract
    rw [h2]
    exact sized_ok (by rw [hl.hmac_len]; omega)
  · unfold expand
    rw [h2]
    by_cases hm : m ≤ 64
    · rw [if_neg (by omega)]
      dsimp only
      by_cases hk : key.length = n
      · rw [if_neg (by rw [h3]; exact fun h => h hk), if_pos ⟨hm, hk⟩, hl.expand _ _ _ _ (by rw [h3]; exact hk) (by rw [h3]; omega), h3]
      · rw [if_pos (by rw [h3]; exact hk), if_neg fun h => hk h.2]
    · rw [if_pos (by omega), if_neg fun h => hm h.1]

/-- the sizes of what they give. -/
theorem C65_sizes (hl : Promises l) {a : BaseHash} {s : Sha} {n : Nat} (ha : HashOf a s n) (key data info : Bytes) (m : Nat) :
    (l.digest s data).length = n ∧ (l.hmac s key data).length = n ∧ (hkdfExpand (l.hmac s key) n info m).length = m := by
  obtain ⟨-, -, h3, -, h5⟩ := hashOf_facts ha
  exact ⟨by rw [hl.digest_len, h3], by rw [hl.hmac_len, h3], hkdfExpand_length (fun d => by rw [hl.hmac_len, h3]) h5 m⟩

/-- with another hash, hashing and expanding are refused, but HMAC, its verification and extraction panic. -/
theorem C65_unsupported {a : BaseHash} (h : ∀ s n, ¬ HashOf a s n) (key data : Bytes) (m : Nat) :
    hashAll l a data = none ∧ expand l a key data m = none ∧ hmac l a key data = .panic ∧ hmacVerify l a key data data = .panic ∧ extract l a key data = .panic := by
  have hk : sha? a = none := by
    cases hk : sha? a with
    | none => rfl
    | some s => exact absurd (hashOf_sha hk) (h _ _)
  unfold hashAll expand hmac hmacVerify extract
  rw [hk]
  refine ⟨rfl, ?_, rfl, rfl, rfl⟩
  split <;> rfl

/-- the crypto table of spdmlib with its default callbacks, as the rest of the model uses it, obeys the laws assumed there: what was sealed opens, ciphertexts and tags
have their sizes, digests have the size of the hash, and expansion gives keys. -/
theorem C65_laws (hl : Promises l) (p q : SpdmVersion → BaseHash → Bytes → Bytes → Option Bytes) :
    (crypto l p q).AeadLaws ∧ (∀ a d h, (crypto l p q).hash a d = some h → BaseHash.size? a = some h.length) ∧ ExpandLaw (crypto l p q) := by
  have get_some : ∀ {α : Type} {x : Res α} {y : α}, Ring.get? x = some y → x = .ok y := by
    intro α x y h
    cases x with
    | ok a => cases h; rfl
    | err e => cases h
    | panic => cases h
  refine ⟨⟨?_, ?_⟩, ?_, ?_⟩
  · intro a k iv aad pt ct tag h
    have h := get_some h
    show Ring.get? (decrypt l a k iv aad ct tag ct.length) = some pt
    rw [C64_round_trip hl h]
    rfl
  · intro a k iv aad pt ct tag h
    have h := get_some h
    have hk : ∃ n, Aead.keySize? a = some n := by
      cases hk : Aead.keySize? a with
      | some k => exact ⟨k, rfl⟩
      | none => unfold encrypt checkSizes at h; rw [hk] at h; cases h
    obtain ⟨n, hk⟩ := hk
    obtain ⟨c, ha⟩ := cipherOf_of hk
    obtain ⟨e1, e2⟩ := C64_encrypt hl ha k iv aad pt ((Aead.tagSize? a).getD 0) pt.length
    by_cases hsz : k.length = n ∧ iv.length = 12 ∧ (Aead.tagSize? a).getD 0 = 16 ∧ pt.length = pt.length
    · rcases e1 hsz with ⟨ct', tag', g1, g2, g3, g4⟩ | ⟨g1, -⟩
      · rw [h] at g1; cases g1
        exact ⟨g3, by rw [g4, (cipherOf_facts ha).2.2.1]⟩
      · rw [h] at g1; cases g1
    · rw [h] at e2; cases e2 hsz
  · intro a d h hh
    change (hashAll l a d).bind Ring.get? = some h at hh
    cases hk : sha? a with
    | none => unfold hashAll at hh; rw [hk] at hh; cases hh
    | some s =>
      have ha := hashOf_sha hk
      rw [(C65_hash hl ha [] d [] 0).1] at hh
      cases hh
      rw [hl.digest_len]
      exact (hashOf_facts ha).1
  · intro a key info n hk hn
    obtain ⟨s, ha⟩ := hashOf_size hk
    refine ⟨hkdfExpand (l.hmac s key) key.length info n, ?_, (C65_sizes hl ha key [] info n).2.2⟩
    show expand l a key info n = _
    rw [(C65_hash hl ha key [] info n).2.2.2.2, if_pos ⟨hn, rfl⟩]

/-! ### Random numbers -/

theorem randomLoop_spec (hl : Promises l) : ∀ (turns calls offset len : Nat) (data : Bytes), offset + len = data.length → len < 64 * turns →
    (∃ blocks : List Bytes, blocks.length = (len + 63) / 64 ∧ (∀ i (h : i < blocks.length), l.generate (calls + i) = some blocks[i]) ∧
      randomLoop l turns calls offset len data = .ok (data.take offset ++ blocks.flatten.take len)) ∨
    (randomLoop l turns calls offset len data = .err .cryptoError ∧ ∃ i < (len + 63) / 64, l.generate (calls + i) = none) := by
  intro turns
  induction turns with
  | zero => intro calls offset len data _ h; omega
  | succ turns ih =>
    intro calls offset len data hlen hturn
    unfold randomLoop
    by_cases h0 : len = 0
    · subst h0
      left
      refine ⟨[], rfl, fun i h => by simp at h, ?_⟩
      rw [if_pos rfl, List.take_of_length_le (by omega)]
      simp
    · rw [if_neg h0]
      cases hg : l.generate calls with
      | none => right; exact ⟨rfl, 0, by omega, hg⟩
      | some block =>
        have hb := hl.generate_len _ _ hg
        dsimp only
        by_cases h64 : 64 < len
        · rw [if_pos h64, if_pos ⟨by omega, hb⟩]
          have hlen2 : (data.take offset ++ block ++ data.drop (offset + 64)).length = data.length := by
            simp only [List.length_append, List.length_take, List.length_drop, hb]; omega
          have hdiv : (len + 63) / 64 = (len - 64 + 63) / 64 + 1 := by omega
          rcases ih (calls + 1) (offset + 64) (len - 64) _ (by rw [hlen2]; omega) (by omega) with ⟨blocks, b1, b2, b3⟩ | ⟨b1, i, b2, b3⟩
          · left
            refine ⟨block :: blocks, by rw [List.length_cons, b1, hdiv], ?_, ?_⟩
            · intro i hi
              cases i with
              | zero => exact hg
              | succ i =>
                have := b2 i (by simpa using hi)
                rw [List.getElem_cons_succ, ← this, show calls + (i + 1) = calls + 1 + i by omega]
            · rw [b3]
              congr 1
              rw [List.take_append_of_le_length (by simp only [List.length_append, List.length_take, hb]; omega), List.take_of_length_le (by simp only [List.length_append, List.length_take, hb]; omega),
                List.flatten_cons, List.take_append, List.take_of_length_le (l := block) (by omega), hb, List.append_assoc]
          · right
            exact ⟨b1, i + 1, by omega, by rw [← b3, show calls + (i + 1) = calls + 1 + i by omega]⟩
        · rw [if_neg h64, if_pos ⟨by omega, by omega⟩]
          left
          refine ⟨[block], by simp only [List.length_singleton]; omega, ?_, ?_⟩
          · intro i hi
            have : i = 0 := by simpa using hi
            subst this
            exact hg
          · rw [List.drop_eq_nil_of_le (by omega), List.append_nil]
            simp

/-- **C66**: whatever the length of the buffer and whatever was in it, either every byte of it afterwards comes from a block of 64 fresh bytes of the generator of `ring`, each
block used once and in order and no byte of the old content left, or the generator failed and the crypto error is returned.  There is no panic. -/
theorem C66_random (hl : Promises l) (calls : Nat) (data : Bytes) :
    (∃ blocks : List Bytes, blocks.length = (data.length + 63) / 64 ∧ (∀ i (h : i < blocks.length), l.generate (calls + i) = some blocks[i]) ∧
      getRandom l calls data = .ok (blocks.flatten.take data.length) ∧ (blocks.flatten.take data.length).length = data.length) ∨
    (getRandom l calls data = .err .cryptoError ∧ ∃ i < (data.length + 63) / 64, l.generate (calls + i) = none) := by
  rcases randomLoop_spec hl (data.length + 1) calls 0 data.length data (by omega) (by omega) with ⟨blocks, b1, b2, b3⟩ | h
  · left
    refine ⟨blocks, b1, b2, by rw [getRandom, b3]; simp, ?_⟩
    have hb : ∀ (bs : List Bytes), (∀ b ∈ bs, b.length = 64) → bs.flatten.length = 64 * bs.length := by
      intro bs
      induction bs with
      | nil => intro _; rfl
      | cons b t ih =>
        intro h
        rw [List.flatten_cons, List.length_append, h b (List.mem_cons_self ..), ih fun x hx => h x (List.mem_cons_of_mem _ hx), List.length_cons]
        omega
    have := hb blocks fun b hbm => by
      obtain ⟨i, hi, rfl⟩ := List.getElem_of_mem hbm
      exact hl.generate_len _ _ (b2 i hi)
    rw [List.length_take, this, b1]
    omega
  · right; exact h

/-- a library that keeps its promises. -/
theorem toyLib_promises : Promises toyLib where
  digest_len s d := Toy.digest_length ..
  hmac_len s k d := Toy.digest_length ..
  verify s k d m := by simp [toyLib]
  expand s prk info n _ h := if_pos h
  seal_len c k n aad pt out h := by cases h; simp
  open_len c k n aad x out h := by
    simp only [toyLib] at h
    split at h
    · rename_i hx; cases h; rw [List.length_take]; omega
    · cases h
  open_seal c k n aad pt out h := by
    cases h
    simp [toyLib]
  generate_len n b h := by cases h; simp

/-- the hypotheses of C64, C65 and C66 are met: a library, an encryption, a derivation and a buffer of 150 bytes. -/
theorem C64_case : Promises toyLib ∧ encrypt toyLib Aead.aes256 (List.replicate 32 1) (List.replicate 12 2) [3] [4, 5] 16 2 = .ok ([4, 5], List.replicate 16 0xEE) ∧
    decrypt toyLib Aead.aes256 (List.replicate 32 1) (List.replicate 12 2) [3] [4, 5] (List.replicate 16 0) 2 = .err .cryptoError := by
  refine ⟨toyLib_promises, by decide +kernel, by decide +kernel⟩

theorem C65_case : Promises toyLib ∧ (expand toyLib BaseHash.sha256 (List.replicate 32 7) [1, 2] 64).map List.length = some 64 ∧
    expand toyLib BaseHash.sha256 (List.replicate 48 7) [1, 2] 32 = none := ⟨toyLib_promises, by decide +kernel, by decide +kernel⟩

theorem C66_case : Promises toyLib ∧
    getRandom toyLib 5 (List.replicate 150 0) = .ok (List.replicate 64 5 ++ List.replicate 64 6 ++ List.replicate 22 7) := ⟨toyLib_promises, by decide +kernel⟩

end Verif.Props
