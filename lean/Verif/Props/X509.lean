/-
C44: certificate chain parsing.  C56: ECDSA signatures in DER.
-/
import Verif.X509.Walk
import Verif.Spec.SampleChain

namespace Verif.Props
open Verif.Spec Verif.X509

/-- the algorithm with the given bit number. -/
def asymBit (bit : Nat) : BaseAsym := (1 : UInt32) <<< UInt32.ofNat bit

theorem oid_of_bit : ∀ bit < 8, oidOf (asymBit bit) = signatureOid bit := by decide

/-- C44: a build that checks overflow accepts, for each algorithm, exactly the chains of certificates of the required form, and reports how
many there are. -/
theorem C44_format {chain : Bytes} {bit n : Nat} (hb : bit < 8) (hs : chain.length < 2 ^ 63) :
    (∃ fuel, checkChain true (asymBit bit) chain fuel = some (.ok n)) ↔
      ∃ certs : List Bytes, chain = certs.flatten ∧ ChainForm (signatureOid bit) certs ∧ n = certs.length := by
  rw [← oid_of_bit bit hb]
  constructor
  · rintro ⟨fuel, h⟩
    obtain ⟨certs, e1, e2, e3⟩ := chainLoop_ok hs fuel 0 0 (Nat.zero_le _) h
    exact ⟨certs, e1, e2, by omega⟩
  · rintro ⟨certs, rfl, hf, rfl⟩
    refine ⟨certs.length + 0, ?_⟩
    have h := chainLoop_walk (a := asymBit bit) true (tail := []) certs [] 0 (by simpa using hs) (fun xs c ys he => by
      have h1 := chainForm_at certs hf xs c ys he
      rw [List.append_nil]
      by_cases hy : ys = []
      · rw [if_pos hy] at h1; rw [if_pos ((chainForm_nil h1.2).2 hy)]; exact h1.1
      · rw [if_neg hy] at h1; rw [if_neg fun hf => hy ((chainForm_nil h1.2).1 hf)]; exact h1.1) 0
    simp only [List.nil_append, List.append_nil, List.length_nil] at h
    rw [checkChain, h, chainLoop, if_neg (Nat.lt_irrefl _), if_pos rfl, Nat.zero_add]

/-- C44: in every build a chain of certificates of the required form is accepted and its certificates are counted. -/
theorem C44_accepts {certs : List Bytes} {bit : Nat} (ov : Bool) (hb : bit < 8) (hs : certs.flatten.length < 2 ^ 63)
    (hf : ChainForm (signatureOid bit) certs) : ∃ fuel, checkChain ov (asymBit bit) certs.flatten fuel = some (.ok certs.length) := by
  obtain ⟨fuel, h⟩ := (C44_format hb hs).2 ⟨certs, rfl, hf, rfl⟩
  refine ⟨fuel, ?_⟩
  rcases agree_chainLoop ov (asymBit bit) certs.flatten fuel 0 0 with h' | h'
  · rw [checkChain, h'] at h; cases h
  · rw [checkChain] at h ⊢; rw [← h']; exact h

/-- C44, in part: a release build accepts nothing else, unless one of its additions overflows (the checking build stops there).  Missing: the
chains on which an addition does overflow; for them the claim fails, see the theorems below. -/
theorem C44_format_release_partial {chain : Bytes} {bit n fuel : Nat} (hb : bit < 8) (hs : chain.length < 2 ^ 63)
    (h : checkChain false (asymBit bit) chain fuel = some (.ok n)) :
    checkChain true (asymBit bit) chain fuel = some .panic ∨
      ∃ certs : List Bytes, chain = certs.flatten ∧ ChainForm (signatureOid bit) certs ∧ n = certs.length := by
  rcases agree_chainLoop false (asymBit bit) chain fuel 0 0 with h' | h'
  · exact Or.inl h'
  · refine Or.inr ((C44_format hb hs).1 ⟨fuel, ?_⟩)
    rw [checkChain, h']; exact h

/-- the chain of test_key/ecp384 is such a chain of three certificates. -/
theorem sample_form : ∃ certs : List Bytes, sampleChain = certs.flatten ∧ ChainForm (signatureOid 7) certs ∧ 3 = certs.length :=
  (C44_format (by decide) (by decide +kernel)).1 ⟨3, by decide +kernel⟩

/-- and it is refused for P-256. -/
example : checkChain true (asymBit 4) sampleChain 3 = some (.err .verifFail) := by decide +kernel

/-- C44 is violated: a length of nine octets makes the check panic in every build, whatever the octets are and whatever follows (a slot is
written past an array of eight). -/
theorem C44_long_length_violated (ov : Bool) (a : BaseAsym) (octets rest : Bytes) (h : octets.length = 9) (fuel : Nat) :
    checkChain ov a (0x30 :: 0x89 :: (octets ++ rest)) (fuel + 1) = some .panic := by
  have hl : checkLength (0x89 :: (octets ++ rest)) = .panic := by
    simp only [checkLength]
    rw [if_neg (by decide), if_neg (by rw [List.length_append]; simp only [show (0x89 : UInt8).toNat = 0x89 from rfl]; omega),
      if_pos (by decide)]
  have ho : openAt ov (0x30 :: 0x89 :: (octets ++ rest)) 0 = .panic := by
    unfold openAt
    have h0 : from? 0 (0x30 :: 0x89 :: (octets ++ rest)) = .ok (0x30 :: 0x89 :: (octets ++ rest)) := rfl
    have h1 : from? 1 (0x30 :: 0x89 :: (octets ++ rest)) = .ok (0x89 :: (octets ++ rest)) := by
      rw [from_ok]; exact ⟨by simp, rfl⟩
    rw [h0, Res.ok_bind, show checkSequence (0x30 :: 0x89 :: (octets ++ rest)) = .ok () from rfl, Res.ok_bind,
      show add ov 0 1 = .ok 1 from rfl, Res.ok_bind, h1, Res.ok_bind, hl]
    rfl
  rw [checkChain, chainLoop, if_pos (by simp), List.drop_zero, checkCert, ho]
  rfl

/-- C44 is violated: the length of an algorithm identifier is not compared with the data; following it, in the certified content or after it,
the check reads past the end and panics, in every build. -/
theorem C44_slice_violated :
    (∀ ov, checkChain ov (asymBit 7) ([0x30, 0x16, 0x30, 0x0c, 0xA0, 3, 2, 1, 2, 2, 1, 1, 0x30, 0x7f, 6, 0]) 1 = some .panic) ∧
    (∀ ov, checkChain ov (asymBit 7) ([0x30, 28, 0x30, 20, 0xA0, 3, 2, 1, 2, 2, 1, 1, 0x30, 2, 6, 0, 0x30, 0, 0x30, 0, 0x30, 0, 0x30, 0,
      0x30, 0x7f, 6, 0]) 1 = some .panic) := by
  decide +kernel

/-- 44 bytes whose lengths wrap around. -/
def wrapping : Bytes :=
  [0x30, 0x88, 0xff, 0xff, 0xff, 0xff, 0xff, 0xff, 0xff, 0xf6,
   0x30, 20, 0xA0, 3, 2, 1, 2, 2, 1, 1, 0x30, 2, 6, 0, 0x30, 0, 0x30, 0, 0x30, 0, 0x30, 0,
   0x30, 0x88, 0xff, 0xff, 0xff, 0xff, 0xff, 0xff, 0xff, 0xd6, 6, 0]

theorem wrapping_zero (a : BaseAsym) : checkCert false a wrapping = .ok 0 := by
  have h : openAt false wrapping 0 = .ok (10, 2 ^ 64 - 10) := by decide +kernel
  have h1 : add false 10 (2 ^ 64 - 10) = .ok 0 := by decide +kernel
  have h2 : partsAt false none wrapping 10 = .ok 0 := by decide +kernel
  rw [checkCert, h, Res.ok_bind]
  dsimp only
  rw [h1, Res.ok_bind, show (decide (wrapping.length = 0)) = false from rfl, show wantOid a false = none from rfl, h2, Res.ok_bind, Res.ok_bind,
    if_pos rfl]

/-- more bytes after a chain do not take the form away from its certificates. -/
theorem startsOid_more {o : Option Bytes} {d x : Bytes} (h : StartsOid o d) : StartsOid none (d ++ x) := by
  obtain ⟨n, id, rest, rfl, h1, h2, _⟩ := h
  exact ⟨n, id, rest ++ x, by simp, h1, h2, by intro _ hf; cases hf⟩

theorem certForm_more {o : Option Bytes} {c r x : Bytes} (h : CertForm o c r) : CertForm none c (r ++ x) := by
  obtain ⟨content, tbs, alg, ab, t, sb, sig, e1, e2, e3, e4, e5, e6⟩ := h
  refine ⟨content, tbs, alg, ab, t, sb, sig, e1, e2, e3, e4, ?_, ?_⟩
  · obtain ⟨t', serial, sb', al, ab', issuer, ib, validity, vb, subject, jb, key, kb, tail, f1, f2, f3, f4, f5, f6, f7, f8⟩ := e5
    refine ⟨t', serial, sb', al, ab', issuer, ib, validity, vb, subject, jb, key, kb, tail ++ x, ?_, f2, f3, ?_, f5, f6, f7, f8⟩
    · rw [show tbs ++ (alg ++ (sig ++ (r ++ x))) = (tbs ++ (alg ++ (sig ++ r))) ++ x by simp, f1]; simp
    · have := startsOid_more (x := x) f4
      simpa using this
  · have := startsOid_more (x := x) e6
    simpa using this

/-- C44 is violated: take any acceptable chain and append the 44 bytes; the check of a release build then never returns. -/
theorem C44_hang_violated {certs : List Bytes} {bit : Nat} (hs : (certs.flatten ++ wrapping).length < 2 ^ 63)
    (hf : ChainForm (signatureOid bit) certs) (fuel : Nat) : checkChain false (asymBit bit) (certs.flatten ++ wrapping) fuel = none := by
  have hne : ∀ x : Bytes, x ++ wrapping ≠ [] := by
    intro x hx
    have := congrArg List.length hx
    rw [List.length_append, List.length_nil, show wrapping.length = 44 from rfl] at this; omega
  have hstay : ∀ f n, chainLoop false (asymBit bit) (certs.flatten ++ wrapping) f certs.flatten.length n = none := by
    intro f
    induction f with
    | zero =>
      intro n
      rw [chainLoop, if_pos (by rw [List.length_append, show wrapping.length = 44 from rfl]; omega)]
    | succ f ih =>
      intro n
      rw [chainLoop, if_pos (by rw [List.length_append, show wrapping.length = 44 from rfl]; omega), List.drop_left' rfl, wrapping_zero,
        Res.ok_bind, show add false certs.flatten.length 0 = .ok certs.flatten.length by
          unfold add
          rw [List.length_append] at hs
          rw [if_pos (by omega)]; rfl]
      exact ih (n + 1)
  have hrun := chainLoop_walk (a := asymBit bit) false (tail := wrapping) certs [] 0 (by simpa using hs) (fun xs c ys he => by
      rw [if_neg (hne _)]; exact certForm_more (chainForm_at certs hf xs c ys he).1)
  have hall : ∀ f, chainLoop false (asymBit bit) (certs.flatten ++ wrapping) (certs.length + f) 0 0 = none := by
    intro f
    have h := hrun f
    simp only [List.nil_append, List.length_nil] at h
    rw [h]; exact hstay f _
  -- fewer rounds than certificates: still running
  have hmono : ∀ (f w n : Nat), chainLoop false (asymBit bit) (certs.flatten ++ wrapping) (f + 1) w n = none →
      chainLoop false (asymBit bit) (certs.flatten ++ wrapping) f w n = none := by
    intro f
    induction f with
    | zero =>
      intro w n h
      rw [chainLoop] at h
      rw [chainLoop]
      by_cases hw : w < (certs.flatten ++ wrapping).length
      · rw [if_pos hw]
      · rw [if_neg hw] at h; cases h
    | succ f ih =>
      intro w n h
      rw [chainLoop] at h
      rw [chainLoop]
      by_cases hw : w < (certs.flatten ++ wrapping).length
      · rw [if_pos hw] at h ⊢
        cases hc : (do let k ← checkCert false (asymBit bit) ((certs.flatten ++ wrapping).drop w); add false w k : Res Nat) with
        | ok w' => rw [hc] at h; exact ih w' (n + 1) h
        | err s => rw [hc] at h; cases h
        | panic => rw [hc] at h; cases h
      · rw [if_neg hw] at h; cases h
  have hdown : ∀ k f, chainLoop false (asymBit bit) (certs.flatten ++ wrapping) (f + k) 0 0 = none →
      chainLoop false (asymBit bit) (certs.flatten ++ wrapping) f 0 0 = none := by
    intro k
    induction k with
    | zero => intro f h; exact h
    | succ k ih => intro f h; exact ih f (hmono _ _ _ h)
  exact hdown certs.length fuel (by rw [Nat.add_comm]; exact hall fuel)

/-- the sample chain followed by the 44 bytes is such a chain. -/
example (fuel : Nat) : checkChain false (asymBit 7) (sampleChain ++ wrapping) fuel = none := by
  obtain ⟨certs, h1, h2, _⟩ := sample_form
  rw [h1]
  refine C44_hang_violated ?_ h2 fuel
  rw [← h1]
  decide +kernel

/-- the algorithm identifier of ECDSA with SHA-384. -/
def ecdsaAlg : Bytes := [0x30, 10, 6, 8, 0x2a, 0x86, 0x48, 0xce, 0x3d, 0x04, 0x03, 0x03]

/-- version, serial number, algorithm, issuer, validity: no subject, no key. -/
def shortTbs : Bytes := [0xA0, 3, 2, 1, 2] ++ [2, 1, 1] ++ ecdsaAlg ++ [0x30, 0] ++ [0x30, 0]

/-- C44 is violated: the fields of a certificate need not lie within its certified content.  Accepted, in every build, is a certificate whose
content ends after the validity: its signature algorithm is taken for the subject and its signature for the public key. -/
theorem C44_fields_violated :
    ∃ content tbs algorithm signature cert : Bytes, Tlv 0x30 tbs content ∧ Tlv 0x30 (content ++ (algorithm ++ signature)) cert ∧
      (∀ ov, checkChain ov (asymBit 7) cert 1 = some (.ok 1)) ∧
      tbs = [0xA0, 3, 2, 1, 2] ++ [2, 1, 1] ++ algorithm ++ [0x30, 0] ++ [0x30, 0] := by
  refine ⟨0x30 :: 0x18 :: shortTbs, shortTbs, ecdsaAlg, [0x30, 0], 0x30 :: 40 :: (0x30 :: 0x18 :: shortTbs ++ (ecdsaAlg ++ [0x30, 0])),
    ⟨[0x18], LengthOf.short 0x18 (by decide), rfl⟩, ⟨[40], LengthOf.short 40 (by decide), rfl⟩, by decide +kernel, rfl⟩

/-- C44: asked for certificate `i`, the walk over a chain reports exactly the certificate that comes after the first `i` ones. -/
theorem C44_index (chain : Bytes) (i b e : Nat) :
    (∃ fuel, certFromChain chain i fuel = some (.ok (b, e))) ↔
      ∃ (before : List Bytes) (cert after : Bytes), chain = before.flatten ++ (cert ++ after) ∧ (∀ c ∈ before, RawCert c) ∧ RawCert cert ∧
        before.length = i ∧ b = before.flatten.length ∧ e = b + cert.length := by
  constructor
  · rintro ⟨fuel, h⟩
    obtain ⟨pre, c, post, h1, h2, h3, h4, h5, h6⟩ := certLoop_ok fuel 0 0 (Nat.zero_le _) h
    rw [List.drop_zero] at h1
    exact ⟨pre, c, post, h1, h2, h3, by omega, by omega, h5⟩
  · rintro ⟨pre, c, post, h1, h2, h3, h4, h5, h6⟩
    have := certLoop_finds (chain := chain) (index := (i : Int)) (post := post) h3 pre 0 0 (Nat.zero_le _) h1 h2 (by omega) (Or.inl (by omega))
    refine ⟨_, this.trans ?_⟩
    rw [Nat.zero_add, h6, h5]

/-- C44: asked for the last certificate, it reports exactly the last certificate of a chain that consists of certificates. -/
theorem C44_last (chain : Bytes) (b e : Nat) :
    (∃ fuel, certFromChain chain (-1) fuel = some (.ok (b, e))) ↔
      ∃ (before : List Bytes) (cert : Bytes), chain = before.flatten ++ cert ∧ (∀ c ∈ before, RawCert c) ∧ RawCert cert ∧
        b = before.flatten.length ∧ e = chain.length := by
  constructor
  · rintro ⟨fuel, h⟩
    obtain ⟨pre, c, post, h1, h2, h3, h4, h5, h6⟩ := certLoop_ok fuel 0 0 (Nat.zero_le _) h
    rw [List.drop_zero] at h1
    rcases h6 with h6 | ⟨_, rfl⟩
    · omega
    · rw [List.append_nil] at h1
      refine ⟨pre, c, h1, h2, h3, by omega, ?_⟩
      rw [h1, List.length_append]; omega
  · rintro ⟨pre, c, h1, h2, h3, h4, h5⟩
    have := certLoop_finds (chain := chain) (index := -1) (post := []) h3 pre 0 0 (Nat.zero_le _) (by rw [List.append_nil]; exact h1) h2
      (by omega) (Or.inr ⟨rfl, rfl⟩)
    refine ⟨_, this.trans ?_⟩
    rw [h1, List.length_append] at h5
    rw [Nat.zero_add, h5, h4]

/-- C44: the walk returns, without panic, on every chain and for every index, within one round more than the chain has bytes. -/
theorem C44_walk_total (chain : Bytes) (index : Int) : ∃ r, certFromChain chain index (chain.length + 1) = some r ∧ r ≠ .panic :=
  certLoop_total chain index _ 0 0 (Nat.zero_le _) (by omega)

/-- C44: a reported certificate lies within the chain. -/
theorem C44_within {chain : Bytes} {index : Int} {fuel b e : Nat} (h : certFromChain chain index fuel = some (.ok (b, e))) :
    b + 4 ≤ e ∧ e ≤ chain.length := by
  obtain ⟨pre, c, post, h1, h2, h3, h4, h5, h6⟩ := certLoop_ok fuel 0 0 (Nat.zero_le _) h
  have := rawCert_length h3
  have hl := congrArg List.length h1
  rw [List.drop_zero, List.length_append, List.length_append] at hl
  omega

/-- C44: certificates of consecutive indices are adjacent; certificate 0 starts the chain. -/
theorem C44_adjacent {chain : Bytes} {i f f' b e b' e' : Nat} (h : certFromChain chain i f = some (.ok (b, e)))
    (h' : certFromChain chain (i + 1 : Nat) f' = some (.ok (b', e'))) : b' = e ∧ (i = 0 → b = 0) := by
  obtain ⟨pre, c, post, h1, h2, h3, h4, h5, h6⟩ := (C44_index chain i b e).1 ⟨f, h⟩
  obtain ⟨pre', c', post', g1, g2, g3, g4, g5, g6⟩ := (C44_index chain (i + 1) b' e').1 ⟨f', h'⟩
  refine ⟨?_, ?_⟩
  · have key : ∀ (p q : List Bytes) (r s : Bytes), (∀ x ∈ p, RawCert x) → (∀ x ∈ q, RawCert x) → p.flatten ++ (c ++ r) = q.flatten ++ s →
        q.length = p.length + 1 → q.flatten.length = p.flatten.length + c.length := by
      intro p
      induction p with
      | nil =>
        intro q r s _ hq he hl
        cases q with
        | nil => simp at hl
        | cons x xs =>
          cases xs with
          | nil =>
            simp only [List.flatten_nil, List.nil_append, List.flatten_cons, List.append_nil] at he
            obtain ⟨rfl, _⟩ := rawCert_inj h3 (hq x (List.mem_cons_self ..)) he
            simp
          | cons y ys => simp at hl
      | cons x xs ih =>
        intro q r s hp hq he hl
        cases q with
        | nil => simp at hl
        | cons y ys =>
          simp only [List.flatten_cons, List.append_assoc] at he
          obtain ⟨rfl, he2⟩ := rawCert_inj (hp x (List.mem_cons_self ..)) (hq y (List.mem_cons_self ..)) he
          have := ih ys r s (fun z hz => hp z (List.mem_cons_of_mem _ hz)) (fun z hz => hq z (List.mem_cons_of_mem _ hz)) he2
            (by simpa using hl)
          simp only [List.flatten_cons, List.length_append]; omega
    have := key pre pre' post (c' ++ post') h2 g2 (by rw [← h1, g1]) (by omega)
    omega
  · intro hi
    have : pre = [] := List.length_eq_zero_iff.1 (by omega)
    subst this
    simp [h5]

/-- the three certificates of the sample chain. -/
example : certFromChain sampleChain 0 4 = some (.ok (0, 473)) ∧ certFromChain sampleChain 1 4 = some (.ok (473, 951)) ∧
    certFromChain sampleChain 2 4 = some (.ok (951, 1533)) ∧ certFromChain sampleChain (-1) 4 = some (.ok (951, 1533)) ∧
    certFromChain sampleChain 3 4 = some (.err .invalidCert) := by decide +kernel

/-- C44: asked for any other negative index, the walk reports nothing. -/
theorem C44_negative (chain : Bytes) (index : Int) (h : index < -1) (fuel b e : Nat) : certFromChain chain index fuel ≠ some (.ok (b, e)) := by
  intro hk
  obtain ⟨pre, c, post, h1, h2, h3, h4, h5, h6⟩ := certLoop_ok fuel 0 0 (Nat.zero_le _) hk
  rcases h6 with h6 | h6 <;> omega

/-- C56: an ECDSA signature over P-256 or P-384 (r and s, 32 or 48 bytes each) is always turned into the DER encoding of exactly that pair of
integers; if one of them is zero it is turned into nothing, which no verifier accepts. -/
theorem C56_der {r s : Bytes} (h : (r.length = 32 ∧ s.length = 32) ∨ (r.length = 48 ∧ s.length = 48)) :
    ((beNat r = 0 ∨ beNat s = 0) ∧ eccDer 104 (r ++ s) = .ok []) ∨
    (beNat r ≠ 0 ∧ beNat s ≠ 0 ∧ ∃ ir is rItem sItem der, eccDer 104 (r ++ s) = .ok der ∧ DerInt (beNat r) ir ∧ DerInt (beNat s) is ∧
      Tlv 2 ir rItem ∧ Tlv 2 is sItem ∧ Tlv 0x30 (rItem ++ sItem) der) := by
  have hl : (r ++ s).length / 2 = r.length := by rw [List.length_append]; omega
  have hodd : ¬ (r ++ s).length % 2 = 1 := by rw [List.length_append]; omega
  have h1 : (r ++ s).take r.length = r := List.take_left' rfl
  have h2 : ((r ++ s).drop r.length).take r.length = s := by
    rw [List.drop_left' rfl, List.take_of_length_le (by omega)]
  unfold eccDer
  simp only [hl, h1, h2]
  by_cases hz : strip r = [] ∨ strip s = []
  · rw [if_pos hz]
    refine Or.inl ⟨?_, rfl⟩
    rcases hz with hz | hz
    · exact Or.inl (strip_nil.1 hz)
    · exact Or.inr (strip_nil.1 hz)
  · rw [if_neg hz]
    simp only [not_or] at hz
    have hr1 := strip_length r
    have hs1 := strip_length s
    have hr2 := derInt_length (strip r)
    have hs2 := derInt_length (strip s)
    have dr := derInt_spec hz.1
    have ds := derInt_spec hz.2
    generalize derInt (strip r) = ir at *
    generalize derInt (strip s) = is at *
    rw [if_neg (by omega), if_neg (by omega), if_neg hodd]
    refine Or.inr ⟨fun hf => hz.1 (strip_nil.2 hf), fun hf => hz.2 (strip_nil.2 hf), ir, is, 2 :: UInt8.ofNat ir.length :: ir,
      2 :: UInt8.ofNat is.length :: is, _, rfl, dr, ds, ?_, ?_, ?_⟩
    · have := LengthOf.short (UInt8.ofNat ir.length) (by rw [ofNat_toNat] <;> omega)
      rw [ofNat_toNat (by omega)] at this
      exact ⟨_, this, rfl⟩
    · have := LengthOf.short (UInt8.ofNat is.length) (by rw [ofNat_toNat] <;> omega)
      rw [ofNat_toNat (by omega)] at this
      exact ⟨_, this, rfl⟩
    · have hb : (2 :: UInt8.ofNat ir.length :: ir ++ 2 :: UInt8.ofNat is.length :: is).length = ir.length + is.length + 6 - 2 := by
        simp only [List.length_append, List.length_cons]; omega
      have := LengthOf.short (UInt8.ofNat (ir.length + is.length + 6 - 2)) (by rw [ofNat_toNat] <;> omega)
      rw [ofNat_toNat (by omega)] at this
      refine ⟨_, by rw [hb]; exact this, ?_⟩
      simp

/-- a signature whose r starts with a zero byte and whose s has its top bit set. -/
example : eccDer 104 (0 :: List.replicate 31 1 ++ List.replicate 32 0x81) =
    .ok ([0x30, 68, 2, 31] ++ List.replicate 31 1 ++ [2, 33, 0] ++ List.replicate 32 0x81) := by decide +kernel

/-- C56: different signatures never share an encoding: the pair of integers can be read back. -/
theorem C56_injective {r s r' s' der : Bytes} (h : (r.length = 32 ∧ s.length = 32) ∨ (r.length = 48 ∧ s.length = 48))
    (hr : r'.length = r.length) (hs : s'.length = s.length) (hne : der ≠ []) (h1 : eccDer 104 (r ++ s) = .ok der)
    (h2 : eccDer 104 (r' ++ s') = .ok der) : beNat r = beNat r' ∧ beNat s = beNat s' := by
  rcases C56_der h with ⟨_, hk⟩ | ⟨_, _, ir, is, ri, si, d, e1, e2, e3, e4, e5, e6⟩
  · rw [hk] at h1; exact absurd (Res.ok.inj h1).symm hne
  rcases C56_der (r := r') (s := s') (by omega) with ⟨_, hk⟩ | ⟨_, _, ir', is', ri', si', d', f1, f2, f3, f4, f5, f6⟩
  · rw [hk] at h2; exact absurd (Res.ok.inj h2).symm hne
  have q1 : d = der := Res.ok.inj (e1.symm.trans h1)
  have q2 : d' = der := Res.ok.inj (f1.symm.trans h2)
  subst q1
  rw [q2] at f6
  have tlv_inj : ∀ {t t' : UInt8} {b b' x y u v : Bytes}, Tlv t b x → Tlv t' b' y → x ++ u = y ++ v → b = b' ∧ u = v := by
    intro t t' b b' x y u v ⟨l, hl, e⟩ ⟨l', hl', e'⟩ he
    subst e; subst e'
    simp only [List.cons_append, List.append_assoc, List.cons.injEq] at he
    have he := he.2
    have hk : checkLength (l ++ (b ++ u)) = .ok (b.length, l.length) := checkLength_ok.2 ⟨l, _, rfl, hl, rfl⟩
    rw [he, checkLength_ok.2 ⟨l', _, rfl, hl', rfl⟩] at hk
    have hk := Prod.mk.inj (Res.ok.inj hk)
    have a1 := List.append_inj he hk.2.symm
    have a2 := List.append_inj a1.2 hk.1.symm
    exact a2
  obtain ⟨k1, _⟩ := tlv_inj (u := []) (v := []) e6 f6 rfl
  obtain ⟨k2, k3⟩ := tlv_inj e4 f4 k1
  obtain ⟨k4, _⟩ := tlv_inj (u := []) (v := []) e5 f5 (by rw [k3])
  rw [← e2.1, ← f2.1, ← e3.1, ← f3.1, k2, k4]
  exact ⟨rfl, rfl⟩

end Verif.Props
