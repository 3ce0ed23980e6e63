/-
A concrete toy cryptography.  It is not secure and is used only to show that hypotheses on `Crypto` are satisfiable and to
run the model on concrete sessions.
-/
import Verif.Session.Session

namespace Verif.Toy

/-- first `n` bytes, zero padded -/
def fit (n : Nat) (x : Bytes) : Bytes := (x ++ List.replicate n 0).take n

theorem fit_length (n : Nat) (x : Bytes) : (fit n x).length = n := by simp [fit]

/-- a checksum, so that different inputs usually give different digests -/
def mix (x : Bytes) : UInt8 := x.foldl (fun a b => a * 31 + b + 7) 1

def digest (n : Nat) (x : Bytes) : Bytes := fit n (mix x :: UInt8.ofNat x.length :: x)

theorem digest_length (n : Nat) (x : Bytes) : (digest n x).length = n := fit_length _ _

def tagOf (iv : Bytes) : Bytes := iv ++ [0, 0, 0, 0]

def crypto : Crypto where
  hash a x := (BaseHash.size? a).map fun n => digest n x
  hmac a k d := (BaseHash.size? a).map fun n => digest n (k ++ d)
  hmacVerify a k d m := decide ((BaseHash.size? a).map (fun n => digest n (k ++ d)) = some m)
  extract a s k := (BaseHash.size? a).map fun n => digest n (s ++ k)
  expand _ prk info n := some (digest n (mix prk :: info ++ prk))
  pskHandshake _ a h i := (BaseHash.size? a).map fun n => digest n (h ++ i)
  pskMaster _ a h i := (BaseHash.size? a).map fun n => digest n (h ++ i)
  «seal» a k iv _ pt :=
    if Aead.tagSize? a = some 16 ∧ Aead.keySize? a = some k.length ∧ iv.length = 12 then some (pt, tagOf iv) else none
  «open» a k iv _ ct tag :=
    if Aead.tagSize? a = some 16 ∧ Aead.keySize? a = some k.length ∧ iv.length = 12 ∧ tag = tagOf iv then some ct else none

theorem aeadLaws : crypto.AeadLaws := by
  constructor
  · intro a k iv aad pt ct tag h
    simp only [crypto] at h ⊢
    split at h
    · rename_i hc; simp at h; obtain ⟨rfl, rfl⟩ := h; simp [hc]
    · simp at h
  · intro a k iv aad pt ct tag h
    simp only [crypto] at h
    split at h
    · rename_i hc; simp at h; obtain ⟨rfl, rfl⟩ := h; simp [hc, tagOf]
    · simp at h

/-- a ciphertext and tag open under one nonce only -/
theorem nonceBinding : ∀ a k iv iv' aad aad' ct tag pt pt', crypto.open a k iv aad ct tag = some pt →
    crypto.open a k iv' aad' ct tag = some pt' → iv = iv' := by
  intro a k iv iv' aad aad' ct tag pt pt' h h'
  simp only [crypto] at h h'
  split at h
  · split at h'
    · rename_i h1 h2
      have := h1.2.2.2.symm.trans h2.2.2.2
      exact List.append_cancel_right this
    · simp at h'
  · simp at h

/-- An established session as either side has it after a handshake (AES-256-GCM, two carried sequence bytes). -/
def sess (seq : UInt64) : Session :=
  { id := 0xFFFD0007, state := .established, hash := 1, aead := 2, seqCount := 2,
    app := { req := { key := List.replicate 32 7, salt := List.replicate 12 5, seq := seq },
             rsp := { key := List.replicate 32 9, salt := List.replicate 12 3, seq := 0 } } }

end Verif.Toy
