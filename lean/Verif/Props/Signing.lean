/-
C40: signing contexts.  C42: secured message version lists in opaque data.
-/
import Verif.Ctx.Opaque
import Verif.Spec.Signing
import Verif.Codec.Combi

namespace Verif.Props
open Verif.Spec (Purpose)

/-- the code that builds the data to be signed or verified, per purpose. -/
def signMsg (c : Cc) : Purpose → Bytes → Res Bytes
  | .challengeAuth => Sign.challengeAuthMsg c
  | .measurements => Sign.measurementsMsg c
  | .keyExchangeRsp => Sign.keyExchangeRspMsg c
  | .finish => Sign.finishMsg c

theorem combinedPrefix_length (p : Purpose) : (Spec.combinedPrefix p).length = 100 := by
  cases p <;> decide +kernel

theorem combinedPrefix_inj {p q : Purpose} (h : Spec.combinedPrefix p = Spec.combinedPrefix q) : p = q := by
  revert h
  cases p <;> cases q <;> decide +kernel

theorem sign_parts :
    Sign.pfx ++ Sign.zeros 4 ++ Sign.challengeAuth = Spec.combinedPrefix .challengeAuth ∧
    Sign.pfx ++ Sign.zeros 6 ++ Sign.measurements = Spec.combinedPrefix .measurements ∧
    Sign.pfx ++ Sign.zeros 2 ++ Sign.keyExchangeRsp = Spec.combinedPrefix .keyExchangeRsp ∧
    Sign.pfx ++ Sign.zeros 12 ++ Sign.finish = Spec.combinedPrefix .finish := by
  decide +kernel

theorem signMsg_eq (c : Cc) (p : Purpose) (h : Bytes) :
    signMsg c p h = if c.ge12 = false then .err .invalidStateLocal
      else if h.length ≤ 64 then .ok (Spec.signedData p h) else .err .bufferFull := by
  have hl := combinedPrefix_length p
  obtain ⟨h1, h2, h3, h4⟩ := sign_parts
  cases p <;>
    simp only [signMsg, Sign.challengeAuthMsg, Sign.measurementsMsg, Sign.keyExchangeRspMsg, Sign.finishMsg, Sign.message,
      h1, h2, h3, h4, Spec.signedData, Sign.cap, List.length_append, hl] <;>
    (congr 1; by_cases hh : h.length ≤ 64 <;> simp [hh] <;> omega)

/-- **C40** For SPDM 1.2 and every hash of at most 64 bytes (the largest digest there is) the data handed to the signer or
verifier is the 100-byte prefix of the specification (version text, zero padding, purpose text) followed by the hash. -/
theorem C40_signed_data (c : Cc) (hv : c.ge12 = true) (p : Purpose) (h : Bytes) (hl : h.length ≤ 64) :
    signMsg c p h = .ok (Spec.signedData p h) ∧ (Spec.combinedPrefix p).length = 100 := by
  rw [signMsg_eq]
  simp [hv, hl, combinedPrefix_length]

/-- **C40** Nothing else is ever signed: below SPDM 1.2 or with an oversized hash building the data fails. -/
theorem C40_only_signed_data (c : Cc) (p : Purpose) (h m : Bytes) (hm : signMsg c p h = .ok m) :
    c.ge12 = true ∧ h.length ≤ 64 ∧ m = Spec.signedData p h := by
  rw [signMsg_eq] at hm
  by_cases hv : c.ge12 = false
  · simp [hv] at hm
  · by_cases hl : h.length ≤ 64
    · simp [hv, hl] at hm
      simp at hv
      exact ⟨hv, hl, hm.symm⟩
    · simp [hv, hl] at hm

/-- **C40** Building the data never panics. -/
theorem C40_never_panics (c : Cc) (p : Purpose) (h : Bytes) : signMsg c p h ≠ .panic := by
  rw [signMsg_eq]
  split
  · simp
  · split <;> simp

/-- **C40** Data for different purposes or different hashes never coincide, in whatever contexts they are built. -/
theorem C40_purposes_separate (c c' : Cc) (p q : Purpose) (h h' m : Bytes)
    (hm : signMsg c p h = .ok m) (hm' : signMsg c' q h' = .ok m) : p = q ∧ h = h' := by
  obtain ⟨_, _, rfl⟩ := C40_only_signed_data c p h m hm
  obtain ⟨_, _, he⟩ := C40_only_signed_data c' q h' _ hm'
  have := List.append_inj he (by rw [combinedPrefix_length, combinedPrefix_length])
  exact ⟨combinedPrefix_inj this.1, this.2⟩

/-- **C40** Hence with a signature scheme in which a signature verifies only over the data it was made for, a signature for
one purpose is refused for every other purpose and every other hash. -/
theorem C40_no_cross_use {Sig : Type} (madeFor : Sig → Bytes → Prop) (verify : Bytes → Sig → Bool)
    (unforgeable : ∀ d d' s, madeFor s d → verify d' s = true → d' = d)
    (c c' : Cc) (p q : Purpose) (h h' d d' : Bytes) (s : Sig)
    (hd : signMsg c p h = .ok d) (hs : madeFor s d) (hd' : signMsg c' q h' = .ok d') (hne : p ≠ q ∨ h ≠ h') :
    verify d' s = false := by
  rcases hv : verify d' s with _ | _
  · rfl
  have := unforgeable d d' s hs hv
  subst this
  obtain ⟨rfl, rfl⟩ := C40_purposes_separate c c' p q h h' _ hd hd'
  simp at hne

/-- hypotheses met: SPDM 1.2 and a 48-byte hash. -/
example : signMsg ⟨{ version := .v12 }, false, false⟩ .challengeAuth (List.replicate 48 7) =
    .ok (Spec.signedData .challengeAuth (List.replicate 48 7)) :=
  (C40_signed_data _ (by decide) .challengeAuth _ (by simp)).1

/-- **C40, restriction of the default build.** Below SPDM 1.2 no signature can be made or checked at all. -/
theorem C40_v11_refused_partial (c : Cc) (hv : c.ge12 = false) (p : Purpose) (h : Bytes) :
    signMsg c p h = .err .invalidStateLocal := by
  rw [signMsg_eq]; simp [hv]

/-! ### C42 -/

/-- a version byte 0xMm survives the trip through its two halves. -/
theorem smVersion_get (m u : UInt8) :
    (Opaque.SmVersion.mk (m >>> 4) (m &&& 0x0F) (u >>> 4) (u &&& 0x0F)).get = m := by
  show (m >>> 4) <<< 4 + (m &&& 0x0F) = m
  have key : ∀ n : Fin 256, (UInt8.ofNat n.val >>> 4) <<< 4 + (UInt8.ofNat n.val &&& 0x0F) = UInt8.ofNat n.val := by
    set_option maxRecDepth 20000 in decide
  have := key ⟨m.toNat, m.toNat_lt⟩
  simpa using this

/-- SPDM 1.2 with opaque data format 1 negotiated. -/
def Fmt1 (c : Cc) : Prop := c.ge12 = true ∧ c.neg.opaqueSupport = 2

/-- **C42** For every list of at most two versions, the list a requester sends is recovered by the responder. -/
theorem C42_list_recovered (c : Cc) (hc : Fmt1 c) (vs : List UInt8) (hv : vs.length ≤ 2) :
    ∃ l r, Opaque.rdSupportedList c (Reader.init (Spec.supportedVersions vs)) = .ok l r ∧ r.rest = [] ∧
      l.count.toNat = vs.length ∧ l.entries.map Opaque.SmVersion.get = vs := by
  obtain ⟨h1, h2⟩ := hc
  match vs, hv with
  | [], _ =>
    refine ⟨⟨0, {}, {}⟩, ⟨[], 12⟩, ?_, rfl, rfl, rfl⟩
    simp [Spec.supportedVersions, Opaque.rdSupportedList, Opaque.rdHeader, h1, h2, Reader.init, putU16, rdN,
      Opaque.rdSupported, Opaque.SmVersionList.read, Opaque.rdPad, rdBytes, Rd.take, Reader.left, List.replicate]
  | [a], _ =>
    refine ⟨⟨1, ⟨a >>> 4, a &&& 0x0F, 0, 0⟩, {}⟩, ⟨[], 16⟩, ?_, rfl, rfl, ?_⟩
    · simp [Spec.supportedVersions, Opaque.rdSupportedList, Opaque.rdHeader, h1, h2, Reader.init, putU16, rdN,
        Opaque.rdSupported, Opaque.SmVersionList.read, Opaque.SmVersion.read, Opaque.rdPad, rdBytes, Rd.take, Reader.left, List.replicate]
    · simp only [Opaque.SmVersionList.entries]
      show [_] = _
      exact congrArg (fun x => [x]) (smVersion_get a 0)
  | [a, b], _ =>
    refine ⟨⟨2, ⟨a >>> 4, a &&& 0x0F, 0, 0⟩, ⟨b >>> 4, b &&& 0x0F, 0, 0⟩⟩, ⟨[], 16⟩, ?_, rfl, rfl, ?_⟩
    · simp [Spec.supportedVersions, Opaque.rdSupportedList, Opaque.rdHeader, h1, h2, Reader.init, putU16, rdN,
        Opaque.rdSupported, Opaque.SmVersionList.read, Opaque.SmVersion.read, Opaque.rdPad, rdBytes, Rd.take, Reader.left, List.replicate]
    · simp only [Opaque.SmVersionList.entries]
      show [_, _] = _
      have ha := smVersion_get a 0
      have hb := smVersion_get b 0
      exact (congrArg (fun x => [x, _]) ha).trans (congrArg (fun x => [a, x]) hb)

/-- what the requester sends is such a list: versions 1.0 and 1.1. -/
theorem C42_requester_list : Opaque.reqListFmt1 = Spec.supportedVersions [0x10, 0x11] := by decide +kernel

/-- **C42** The version a responder selects is recovered by the requester. -/
theorem C42_selection_recovered (c : Cc) (hc : Fmt1 c) (v : UInt8) :
    ∃ s r, Opaque.rdSelectionFirst c (Reader.init (Spec.selectedVersion v)) = .ok s r ∧ r.rest = [] ∧ s.get = v := by
  obtain ⟨h1, h2⟩ := hc
  refine ⟨⟨v >>> 4, v &&& 0x0F, 0, 0⟩, ⟨[], 12⟩, ?_, rfl, smVersion_get v 0⟩
  simp [Spec.selectedVersion, Opaque.rdSelectionFirst, Opaque.rdHeader, h1, h2, Reader.init, putU16, rdN,
    Opaque.rdSelection, Opaque.SmVersion.read]

theorem answer_fmt1 {c : Cc} (hc : Fmt1 c) (v : UInt8) : Opaque.answer c.neg v = some (Spec.selectedVersion v) := by
  obtain ⟨h1, h2⟩ := hc
  have : (Cc.mk c.neg false false).ge12 = true := h1
  simp [Opaque.answer, this, h2, Opaque.setLast, Opaque.rspSelFmt1, Spec.selectedVersion, putU16]
  decide

theorem pickLocal_fmt1 {c : Cc} (hc : Fmt1 c) (v : UInt8) (ls : List UInt8) (acc : Bytes) :
    Opaque.pickLocal c.neg v ls acc = .ok (if v ∈ ls then Spec.selectedVersion v else acc) := by
  induction ls generalizing acc with
  | nil => simp [Opaque.pickLocal]
  | cons l ls ih =>
    simp only [Opaque.pickLocal]
    by_cases h : v = l
    · subst h
      simp [answer_fmt1 hc, ih]
    · simp [h, ih]

theorem pick_fmt1 {c : Cc} (hc : Fmt1 c) (locals vs : List UInt8) (acc : Bytes) :
    Opaque.pick c.neg locals vs acc =
      .ok (match (vs.filter (· ∈ locals)).getLast? with | some v => Spec.selectedVersion v | none => acc) := by
  induction vs generalizing acc with
  | nil => simp [Opaque.pick]
  | cons v vs ih =>
    simp only [Opaque.pick, pickLocal_fmt1 hc]
    show Opaque.pick c.neg locals vs _ = _
    rw [ih]
    congr 1
    by_cases h : v ∈ locals
    · simp only [h, if_true, List.filter_cons, decide_true]
      rw [List.getLast?_cons]
      cases (vs.filter (· ∈ locals)).getLast? <;> rfl
    · simp [h, List.filter_cons]

/-- **C42** The whole exchange: for every requester list `vs` of at most two versions and every responder list `locals`, the
responder answers with nothing when there is no common version, and otherwise with a selection that the requester reads as
a version both support (the last of `vs` that is in `locals`). -/
theorem C42_agreement (c : Cc) (hc : Fmt1 c) (vs locals : List UInt8) (hv : vs.length ≤ 2) :
    ∃ o, Opaque.respond c locals (Spec.supportedVersions vs) = .ok o ∧
      ((∀ v ∈ vs, v ∉ locals) → o = []) ∧
      (∀ v, (vs.filter (· ∈ locals)).getLast? = some v → v ∈ vs ∧ v ∈ locals ∧
        ∃ s r, Opaque.rdSelectionFirst c (Reader.init o) = .ok s r ∧ s.get = v) := by
  obtain ⟨l, r, h1, _, h3, h4⟩ := C42_list_recovered c hc vs hv
  have hcnt : ¬ l.count > 2 := by
    intro hh
    have : (2 : UInt8).toNat < l.count.toNat := hh
    have h2 : (2 : UInt8).toNat = 2 := rfl
    omega
  refine ⟨match (vs.filter (· ∈ locals)).getLast? with | some v => Spec.selectedVersion v | none => [], ?_, ?_, ?_⟩
  · simp only [Opaque.respond, h1, hcnt, if_false, h4, pick_fmt1 hc]
  · intro hn
    have : vs.filter (· ∈ locals) = [] := by
      rw [List.filter_eq_nil_iff]; intro v hvv; simpa using hn v hvv
    simp [this]
  · intro v hl
    have hmem : v ∈ vs.filter (· ∈ locals) := List.mem_of_getLast? hl
    simp only [List.mem_filter, decide_eq_true_eq] at hmem
    refine ⟨hmem.1, hmem.2, ?_⟩
    simp only [hl]
    obtain ⟨s, r, hs, _, hg⟩ := C42_selection_recovered c hc v
    exact ⟨s, r, hs, hg⟩

/-- hypotheses met. -/
example : Fmt1 ⟨{ version := .v12, opaqueSupport := 2 }, false, false⟩ := by constructor <;> decide
example : (([0x10, 0x11] : List UInt8).filter (· ∈ ([0x11] : List UInt8))).getLast? = some 0x11 := by decide

theorem rdPad_good : Rd.Good Opaque.rdPad := by
  intro r
  have : Rd.Good (do let _ ← rdBytes ((r.used + 3) / 4 * 4 - r.used); pure () : Rd Unit) := by rd_good
  exact this r

theorem smVersionList_good : Rd.Good Opaque.SmVersionList.read := by
  unfold Opaque.SmVersionList.read Opaque.SmVersion.read
  rd_good

theorem rdSupported_good : Rd.Good Opaque.rdSupported := by
  unfold Opaque.rdSupported
  have := rdPad_good
  have := smVersionList_good
  rd_good

theorem rdHeader_good (c : Cc) : Rd.Good (Opaque.rdHeader c) := by
  unfold Opaque.rdHeader
  rd_good

theorem rdSupportedList_good (c : Cc) : Rd.Good (Opaque.rdSupportedList c) := by
  unfold Opaque.rdSupportedList
  refine Rd.Good.bind (rdHeader_good c) fun n => ?_
  refine Rd.Good.ite Rd.Good.none ?_
  exact Rd.Good.bind (Rd.Good.repeat rdSupported_good _) fun _ => Rd.Good.pure _

theorem pickLocal_ne_panic (n : Neg) (v : UInt8) (ls : List UInt8) (acc : Bytes) : Opaque.pickLocal n v ls acc ≠ .panic := by
  induction ls generalizing acc with
  | nil => simp [Opaque.pickLocal]
  | cons l ls ih =>
    simp only [Opaque.pickLocal]
    split
    · split
      · exact ih _
      · simp
    · exact ih _

theorem pick_ne_panic (n : Neg) (locals vs : List UInt8) (acc : Bytes) : Opaque.pick n locals vs acc ≠ .panic := by
  induction vs generalizing acc with
  | nil => simp [Opaque.pick]
  | cons v vs ih =>
    simp only [Opaque.pick]
    have := pickLocal_ne_panic n v locals acc
    rcases h : Opaque.pickLocal n v locals acc with a | e | _
    · exact ih a
    · exact fun h => nomatch h
    · exact absurd h this

/-- **C42** Whatever opaque data arrives, the responder does not panic on it. -/
theorem C42_never_panics (c : Cc) (locals : List UInt8) (opaq : Bytes) : Opaque.respond c locals opaq ≠ .panic := by
  simp only [Opaque.respond]
  have := (rdSupportedList_good c).ne_panic (Reader.init opaq)
  split
  · contradiction
  · simp
  · split
    · simp
    · exact pick_ne_panic _ _ _ _

/-- **C42 is violated below SPDM 1.2.** `DMTF_SPEC_ID` is written 0x444D546 instead of 0x444D5446, so the very list the
requester sends does not parse: the responder ignores it and selects nothing, whatever versions it supports. -/
theorem C42_v11_list_ignored_violated (c : Cc) (hv : c.ge12 = false) (locals : List UInt8) :
    Opaque.respond c locals Opaque.reqList277 = .ok [] := by
  have e : ¬ (decU32 0x46 0x54 0x4d 0x44 = (0x444D546 : UInt32)) := by decide
  simp [Opaque.respond, Opaque.rdSupportedList, Opaque.rdHeader, hv, Opaque.reqList277, Reader.init, Rd.none,
    Opaque.dmtfSpecId, e]

/-- **C42 is violated below SPDM 1.2**: neither does the requester recover any selection. -/
theorem C42_v11_selection_ignored_violated (c : Cc) (hv : c.ge12 = false) (v : UInt8) :
    ∃ r, Opaque.rdSelectionFirst c (Reader.init (Opaque.setLast v Opaque.rspSel277)) = .err () r := by
  have e : ¬ (decU32 0x46 0x54 0x4d 0x44 = (0x444D546 : UInt32)) := by decide
  refine ⟨⟨[1, 1, 0, 0, 0, 0, 4, 0, 1, 0, 0, v], 4⟩, ?_⟩
  simp [Opaque.rdSelectionFirst, Opaque.rdHeader, hv, Opaque.setLast, Opaque.rspSel277, Reader.init, Rd.none,
    Opaque.dmtfSpecId, e]

end Verif.Props
