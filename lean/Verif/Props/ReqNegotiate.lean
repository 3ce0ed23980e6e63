/-
The requester's side of the negotiation: versions (C32) and algorithms (C33).
-/
import Verif.Props.ReqAuth

namespace Verif.Props
open Req

variable {e : REnv}

/-! ### C32: versions -/

/-- the version codes in a VERSION response after its two header bytes: parameters, reserved byte, count, and per entry an update byte and a code. -/
def versionsOffered (t : Bytes) : List UInt8 := (List.range (t.getD 3 0).toNat).map fun i => t.getD (5 + 2 * i) 0

/-- the requester is configured for that version. -/
def KnowsVersion (cfg : Config) (b : UInt8) : Prop := ∃ v, v.get = b ∧ (v = .v10 ∨ v = .v11 ∨ v = .v12) ∧ (v = cfg.version0 ∨ v = cfg.version1 ∨ v = cfg.version2)

theorem entry_read {r r' : Reader} {x : VersionEntry} (h : VersionEntry.read r = .ok x r') :
    ∃ a b, r.rest = a :: b :: r'.rest ∧ x.version = SpdmVersion.ofCode b := by
  simp only [VersionEntry.read, SpdmVersion.read, M.bind_ok, M.pure_ok, M.map_ok, rdU8_ok] at h
  obtain ⟨a, r1, h1, v, r2, ⟨b, r3, h2, rfl, rfl⟩, rfl, rfl⟩ := h
  refine ⟨a, b, ?_, rfl⟩
  rw [h1.1, h2.1]; rfl

theorem entries_read {n : Nat} {r r' : Reader} {l : List VersionEntry} (h : rdN n VersionEntry.read r = .ok l r') :
    l.length = n ∧ l.map (·.version) = (List.range n).map fun i => SpdmVersion.ofCode (r.rest.getD (1 + 2 * i) 0) := by
  induction n generalizing r l with
  | zero =>
    obtain ⟨rfl, rfl⟩ := M.pure_ok.1 h
    exact ⟨rfl, rfl⟩
  | succ n ih =>
    obtain ⟨x, r1, h1, h2⟩ := M.bind_ok.1 h
    obtain ⟨xs, r2, h3, h4⟩ := M.bind_ok.1 h2
    obtain ⟨rfl, rfl⟩ := M.pure_ok.1 h4
    obtain ⟨g1, g2⟩ := ih h3
    obtain ⟨a, b, k1, k2⟩ := entry_read h1
    refine ⟨by rw [List.length_cons, g1], ?_⟩
    rw [List.map_cons, g2, List.range_succ_eq_map, List.map_cons, List.map_map, k2, k1]
    congr 1

theorem version_read {t : Bytes} {m : VersionRsp} {r' : Reader} (h : VersionRsp.read ⟨t, 2⟩ = .ok m r') :
    m.entries.map (·.version) = (versionsOffered t).map SpdmVersion.ofCode ∧ 1 ≤ m.entries.length ∧ m.entries.length ≤ 3 := by
  simp only [VersionRsp.read, Rd.none, M.bind_ok, M.guard_ok, M.pure_ok, rdU8_ok] at h
  obtain ⟨a1, r1, h1, a2, r2, h2, a3, r3, h3, n, r4, h4, hn, l, r5, h5, rfl, rfl⟩ := h
  obtain ⟨g1, g2⟩ := entries_read h5
  have ht : t = a1 :: a2 :: a3 :: n :: r4.rest := by
    have := h1.1
    rw [h2.1, h3.1, h4.1] at this
    exact this
  dsimp only
  rw [g2, g1, ht]
  refine ⟨?_, ?_, ?_⟩
  · unfold versionsOffered
    rw [List.map_map]
    refine List.map_congr_left fun i _ => ?_
    show _ = SpdmVersion.ofCode ((a1 :: a2 :: a3 :: n :: r4.rest).getD (5 + 2 * i) 0)
    have : 5 + 2 * i = (1 + 2 * i) + 1 + 1 + 1 + 1 := by omega
    rw [this]; rfl
  · have := hn
    simp only [UInt8.lt_iff_toNat_lt, gt_iff_lt, not_or] at this
    have h1 : (1 : UInt8).toNat = 1 := rfl
    omega
  · have := hn
    simp only [UInt8.lt_iff_toNat_lt, gt_iff_lt, not_or] at this
    have h1 : (3 : UInt8).toNat = 3 := rfl
    omega

theorem insert_mem {v w : SpdmVersion} {l : List SpdmVersion} : w ∈ insertVersion v l ↔ w = v ∨ w ∈ l := by
  induction l with
  | nil => simp [insertVersion]
  | cons a l ih =>
    unfold insertVersion
    split
    · simp
    · simp only [List.mem_cons, ih]
      constructor
      · rintro (h | h | h)
        · exact .inr (.inl h)
        · exact .inl h
        · exact .inr (.inr h)
      · rintro (h | h | h)
        · exact .inr (.inl h)
        · exact .inl h
        · exact .inr (.inr h)

theorem sort_mem {w : SpdmVersion} {l : List SpdmVersion} : w ∈ sortVersions l ↔ w ∈ l := by
  induction l with
  | nil => simp [sortVersions]
  | cons a l ih => unfold sortVersions; rw [insert_mem, ih]; simp

theorem insert_length (v : SpdmVersion) (l : List SpdmVersion) : (insertVersion v l).length = l.length + 1 := by
  induction l with
  | nil => rfl
  | cons a l ih =>
    unfold insertVersion
    split
    · rfl
    · rw [List.length_cons, ih]; rfl

theorem sort_length (l : List SpdmVersion) : (sortVersions l).length = l.length := by
  induction l with
  | nil => rfl
  | cons a l ih => unfold sortVersions; rw [insert_length, ih]; rfl

theorem insert_sorted {v : SpdmVersion} {l : List SpdmVersion} (h : l.Pairwise fun a b => b.get ≤ a.get) : (insertVersion v l).Pairwise fun a b => b.get ≤ a.get := by
  induction l with
  | nil => simp [insertVersion]
  | cons a l ih =>
    obtain ⟨h1, h2⟩ := List.pairwise_cons.1 h
    unfold insertVersion
    split
    · rename_i hle
      refine List.pairwise_cons.2 ⟨fun b hb => ?_, h⟩
      rcases List.mem_cons.1 hb with rfl | hb
      · exact hle
      · exact UInt8.le_trans (h1 b hb) hle
    · rename_i hle
      refine List.pairwise_cons.2 ⟨fun b hb => ?_, ih h2⟩
      rcases insert_mem.1 hb with rfl | hb
      · exact UInt8.le_of_lt (UInt8.not_le.1 hle)
      · exact h1 b hb

theorem sort_sorted (l : List SpdmVersion) : (sortVersions l).Pairwise fun a b => b.get ≤ a.get := by
  induction l with
  | nil => exact .nil
  | cons a l ih => exact insert_sorted ih

/-- unused entries stay last if all used ones are 1.0 or later. -/
theorem insert_padded {v : SpdmVersion} {l : List SpdmVersion} (k : Nat) (h : 0x10 ≤ v.get) :
    insertVersion v (l ++ List.replicate k .v10) = insertVersion v l ++ List.replicate k .v10 := by
  induction l with
  | nil =>
    cases k with
    | zero => rfl
    | succ k =>
      show insertVersion v (.v10 :: List.replicate k .v10) = _
      unfold insertVersion
      rw [if_pos (show SpdmVersion.v10.get ≤ v.get from h)]
      rfl
  | cons a l ih =>
    show insertVersion v (a :: (l ++ List.replicate k .v10)) = _
    unfold insertVersion
    split
    · rfl
    · rw [ih]; rfl

theorem sort_padded {l : List SpdmVersion} (k : Nat) (h : ∀ v ∈ l, 0x10 ≤ v.get) :
    sortVersions (l ++ List.replicate k .v10) = sortVersions l ++ List.replicate k .v10 := by
  induction l with
  | nil =>
    induction k with
    | zero => rfl
    | succ k ih =>
      show insertVersion .v10 (sortVersions ([] ++ List.replicate k .v10)) = _
      rw [ih]
      have := insert_padded (v := .v10) (l := []) k (by decide)
      exact this
  | cons a l ih =>
    show insertVersion a (sortVersions (l ++ List.replicate k .v10)) = insertVersion a (sortVersions l) ++ _
    rw [ih fun v hv => h v (List.mem_cons_of_mem _ hv), insert_padded k (h a List.mem_cons_self)]

theorem find_first {α : Type} {p : α → Bool} {r : α → α → Prop} {l : List α} {a : α} (hs : l.Pairwise r) (hf : l.find? p = some a) (hr : ∀ a, r a a) : ∀ b ∈ l, p b = true → r a b := by
  induction l with
  | nil => cases hf
  | cons x l ih =>
    obtain ⟨h1, h2⟩ := List.pairwise_cons.1 hs
    intro b hb hp
    by_cases hx : p x = true
    · rw [List.find?_cons, hx] at hf
      cases hf
      rcases List.mem_cons.1 hb with rfl | hb
      · exact hr _
      · exact h1 b hb
    · have hx' : p x = false := by simpa using hx
      rw [List.find?_cons, hx'] at hf
      rcases List.mem_cons.1 hb with rfl | hb
      · exact absurd hp hx
      · exact ih h2 hf b hb hp

theorem knows_of {cfg : Config} {v : SpdmVersion} (h : supportsVersion cfg v = true) (hu : isUnknown v = false) : KnowsVersion cfg v.get := by
  refine ⟨v, rfl, ?_, ?_⟩
  · cases v with
    | unknown b => cases hu
    | v10 => exact .inl rfl
    | v11 => exact .inr (.inl rfl)
    | v12 => exact .inr (.inr rfl)
  · unfold supportsVersion at h
    simpa [Bool.or_eq_true, or_assoc] using h

theorem of_knows {cfg : Config} {b : UInt8} (h : KnowsVersion cfg b) : supportsVersion cfg (SpdmVersion.ofCode b) = true ∧ isUnknown (SpdmVersion.ofCode b) = false := by
  obtain ⟨v, rfl, hv, hc⟩ := h
  unfold supportsVersion
  rcases hv with rfl | rfl | rfl
  all_goals
    refine ⟨?_, rfl⟩
    simpa [SpdmVersion.ofCode, SpdmVersion.get, Bool.or_eq_true, or_assoc] using hc

/-- what is selected when all versions offered are 1.0 or later. -/
theorem select_find {cfg : Config} {t : Bytes} {m : VersionRsp} {r' : Reader} (h : VersionRsp.read ⟨t, 2⟩ = .ok m r') (hge : ∀ b ∈ versionsOffered t, 0x10 ≤ b) :
    selectVersion cfg m = ((sortVersions ((versionsOffered t).map SpdmVersion.ofCode)).find? (supportsVersion cfg)).getD (.unknown 0) := by
  obtain ⟨h1, -, -⟩ := version_read h
  have hl : m.entries.length = (sortVersions ((versionsOffered t).map SpdmVersion.ofCode)).length := by
    rw [sort_length, ← h1, List.length_map]
  unfold selectVersion versionArray
  rw [h1, sort_padded, hl, List.take_left']
  · rfl
  · intro v hv
    obtain ⟨b, hb, rfl⟩ := List.mem_map.1 hv
    rw [SpdmVersion.get_ofCode]; exact hge b hb

/-- GET_VERSION succeeded, and the responder offered no version code below 0x10: the version selected is the highest both offered and configured.
For lower codes this is false, see `C32_padding_violated`. -/
theorem C32_selected_partial {e : REnv} {c c' : Ctx} (h : getVersion e c = .ok () c') :
    ∃ v t cx, Said e none c [0x10, 0x84, 0, 0] (v :: 0x04 :: t) cx ∧
      ((∀ b ∈ versionsOffered t, 0x10 ≤ b) → ∃ b ∈ versionsOffered t, c'.neg.version.get = b ∧ KnowsVersion c.config b ∧ ∀ b' ∈ versionsOffered t, KnowsVersion c.config b' → b' ≤ b) := by
  obtain ⟨pkt, bytes, t, v, m, r', h1, rfl, h3, h4, rfl⟩ := getVersion_ok h
  refine ⟨v, t, _, h1, fun hge => ?_⟩
  rw [select_find h3 hge] at h4
  dsimp only
  rw [select_find h3 hge]
  cases hf : (sortVersions ((versionsOffered t).map SpdmVersion.ofCode)).find? (supportsVersion c.config) with
  | none => rw [hf] at h4; cases h4
  | some w =>
    rw [hf] at h4
    obtain ⟨b, hb, rfl⟩ := List.mem_map.1 (sort_mem.1 (List.mem_of_find?_eq_some hf))
    refine ⟨b, hb, SpdmVersion.get_ofCode b, ?_, fun b' hb' hk => ?_⟩
    · have := knows_of (List.find?_some hf) h4
      rwa [SpdmVersion.get_ofCode] at this
    · have := find_first (sort_sorted _) hf (fun _ => UInt8.le_refl _) (SpdmVersion.ofCode b') (sort_mem.2 (List.mem_map_of_mem hb')) (of_knows hk).1
      simpa using this

/-- the decoder accepts every VERSION response of one to three entries. -/
theorem version_reads {t : Bytes} (h1 : 1 ≤ (t.getD 3 0).toNat) (h3 : (t.getD 3 0).toNat ≤ 3) (hl : 4 + 2 * (t.getD 3 0).toNat ≤ t.length) :
    ∃ m r', VersionRsp.read ⟨t, 2⟩ = .ok m r' ∧ r'.used ≤ 12 := by
  match t, h1, h3, hl with
  | a :: b :: d :: n :: t, h1, h3, hl =>
    change 1 ≤ n.toNat at h1
    change n.toNat ≤ 3 at h3
    change 4 + 2 * n.toNat ≤ t.length + 1 + 1 + 1 + 1 at hl
    have hx : ∀ (k : Nat) (r : Reader), 2 * k ≤ r.rest.length → ∃ l r', rdN k VersionEntry.read r = .ok l r' ∧ r'.used = r.used + 2 * k := by
      intro k
      induction k with
      | zero => exact fun r _ => ⟨[], r, rfl, rfl⟩
      | succ k ih =>
        intro r hr
        obtain ⟨rest, used⟩ := r
        match rest, hr with
        | x :: y :: rest, hr =>
          obtain ⟨l, r', h, hu⟩ := ih ⟨rest, used + 1 + 1⟩ (by simp at hr ⊢; omega)
          refine ⟨⟨x, SpdmVersion.ofCode y⟩ :: l, r', ?_, by simp at hu ⊢; omega⟩
          show (VersionEntry.read >>= fun a => rdN k VersionEntry.read >>= fun as => pure (a :: as)) _ = _
          have he : VersionEntry.read ⟨x :: y :: rest, used⟩ = .ok ⟨x, SpdmVersion.ofCode y⟩ ⟨rest, used + 1 + 1⟩ := rfl
          rw [M.bind_apply, he]
          dsimp only
          rw [M.bind_apply, h]
          rfl
    obtain ⟨l, r', h, hu⟩ := hx n.toNat ⟨t, 2 + 1 + 1 + 1 + 1⟩ (by simp; omega)
    refine ⟨⟨l⟩, r', ?_, by simp at hu; omega⟩
    have hn : ¬ (n < 1 ∨ n > 3) := by
      simp only [UInt8.lt_iff_toNat_lt, gt_iff_lt]
      have : (1 : UInt8).toNat = 1 := rfl
      have : (3 : UInt8).toNat = 3 := rfl
      omega
    have he : VersionRsp.read ⟨a :: b :: d :: n :: t, 2⟩ = (if n < 1 ∨ n > 3 then Rd.none else rdN n.toNat VersionEntry.read >>= fun es => pure ⟨es⟩ : Rd VersionRsp) ⟨t, 2 + 1 + 1 + 1 + 1⟩ := rfl
    rw [he, if_neg hn, M.bind_apply, h]
    rfl

/-- A well-formed VERSION response decides the matter: GET_VERSION succeeds if a version is common to both sides, and fails for want of one otherwise. -/
theorem C32_decided_partial {e : REnv} {c cx : Ctx} {v : UInt8} {t : Bytes} (ht : transact e none [0x10, 0x84, 0, 0] (Ctx.resetBuffers .reqGetVersion none c) = .ok (v :: 0x04 :: t) cx)
    (h1 : 1 ≤ (t.getD 3 0).toNat) (h3 : (t.getD 3 0).toNat ≤ 3) (hl : 4 + 2 * (t.getD 3 0).toNat ≤ t.length) (hge : ∀ b ∈ versionsOffered t, 0x10 ≤ b)
    (hk : ∀ v ∈ [c.config.version0, c.config.version1, c.config.version2], v = .v10 ∨ v = .v11 ∨ v = .v12) :
    ((∃ b ∈ versionsOffered t, KnowsVersion c.config b) → ∃ c', getVersion e c = .ok () c') ∧
    ((∀ b ∈ versionsOffered t, ¬ KnowsVersion c.config b) → ∃ c', getVersion e c = .err .negotiationFail c') := by
  obtain ⟨m, r', hr, hu⟩ := version_reads h1 h3 hl
  have hcfg : cx.config = c.config := by
    have := transact_ok ht
    exact this.fields.2.2.1
  have h0 : getVersion e c = handleVersion 0 [0x10, 0x84, 0, 0] (v :: 0x04 :: t) cx := by
    unfold getVersion
    rw [M.bind_apply, M.modify_apply]
    dsimp only
    rw [M.bind_apply, encodeAs_eq (p := .getVersion) (w := [0, 0]) encNoParams_writes, if_pos (by decide)]
    dsimp only
    rw [M.bind_apply]
    have : (SpdmVersion.v10.get :: ReqRespCode.reqGetVersion.get :: [0, 0] : Bytes) = [0x10, 0x84, 0, 0] := rfl
    rw [this, ht]
  have h2 : handleVersion 0 [0x10, 0x84, 0, 0] (v :: 0x04 :: t) cx =
      (if isUnknown (selectVersion cx.config m) then M.fail .negotiationFail else do
        M.modify fun c => { c with rt := {} }
        Ctx.appendA [0x10, 0x84, 0, 0]
        Ctx.appendA ((v :: 0x04 :: t).take r'.used) : M Status Ctx Unit) { cx with neg := { cx.neg with version := selectVersion cx.config m } } := by
    unfold handleVersion
    have hx : expectAnyVersion (some 0) .rspVersion (v :: 0x04 :: t) cx = .ok ⟨t, 2⟩ cx := rfl
    rw [M.bind_apply, hx]
    dsimp only
    have hm : Rsp.readMsg (fun _ => VersionRsp.read) (v :: 0x04 :: t) ⟨t, 2⟩ cx = .ok (m, (v :: 0x04 :: t).take r'.used) cx := by
      unfold Rsp.readMsg
      simp only [M.bind_apply, M.get_apply, Res.read, hr]
      rfl
    rw [M.bind_apply, hm]
    rfl
  rw [h0, h2, hcfg, select_find hr hge]
  cases hf : (sortVersions ((versionsOffered t).map SpdmVersion.ofCode)).find? (supportsVersion c.config) with
  | none =>
    refine ⟨fun ⟨b, hb, hk⟩ => ?_, fun _ => ⟨_, by rw [if_pos (by rfl)]; rfl⟩⟩
    have := List.find?_eq_none.1 hf _ (sort_mem.2 (List.mem_map_of_mem hb))
    exact absurd (of_knows hk).1 this
  | some w =>
    have hs := List.find?_some hf
    obtain ⟨b, hb, rfl⟩ := List.mem_map.1 (sort_mem.1 (List.mem_of_find?_eq_some hf))
    have hw : isUnknown (SpdmVersion.ofCode b) = false := by
      unfold supportsVersion at hs
      simp only [Bool.or_eq_true, decide_eq_true_eq] at hs
      have : SpdmVersion.ofCode b = .v10 ∨ SpdmVersion.ofCode b = .v11 ∨ SpdmVersion.ofCode b = .v12 := by
        rcases hs with (hs | hs) | hs
        · rw [hs]; exact hk _ (by simp)
        · rw [hs]; exact hk _ (by simp)
        · rw [hs]; exact hk _ (by simp)
      rcases this with h | h | h <;> rw [h] <;> rfl
    have hkn := knows_of hs hw
    rw [SpdmVersion.get_ofCode] at hkn
    refine ⟨fun _ => ?_, fun h => absurd hkn (h b hb)⟩
    rw [if_neg (by rw [Option.getD_some, hw]; decide)]
    have ha : ∀ (x : Bytes) (cy : Ctx), cy.rt.messageA.length + x.length ≤ 156 → Ctx.appendA x cy = .ok () { cy with rt := { cy.rt with messageA := cy.rt.messageA ++ x } } := by
      intro x cy hx
      simp only [Ctx.appendA, M.bind_apply, M.get_apply]
      rw [if_pos (by exact hx)]
      rfl
    rw [M.bind_apply, M.modify_apply]
    dsimp only
    rw [M.bind_apply, ha _ _ (by simp)]
    dsimp only
    rw [ha]
    · exact ⟨_, rfl⟩
    · have : ((v :: 0x04 :: t).take r'.used).length ≤ r'.used := List.length_take_le _ _
      simp only [List.nil_append, List.length_cons, List.length_nil]
      omega

/-- what the toy requester, configured for 1.0 to 1.2, selects when the answer to GET_VERSION is `rsp`. -/
def versionChosen (rsp : Bytes) : Option UInt8 := match getVersion { Toy.renv with recv := fun _ => some (5 :: rsp) } Toy.req0 with
  | .ok _ c => some c.neg.version.get
  | _ => none

example : versionsOffered [0, 0, 0, 2, 0, 0x11, 0, 0x13] = [0x11, 0x13] ∧ versionChosen [0x10, 4, 0, 0, 0, 2, 0, 0x11, 0, 0x13] = some 0x11 := by decide +kernel
example : versionChosen [0x10, 4, 0, 0, 0, 3, 0, 0x10, 0, 0x12, 0, 0x11] = some 0x12 := by decide +kernel
example : versionChosen [0x10, 4, 0, 0, 0, 1, 0, 0x13] = none := by decide +kernel

/-- A responder that offers nothing but a version below 1.0 is spoken to in version 1.0, which it did not offer. -/
theorem C32_padding_violated : versionsOffered [0, 0, 0, 1, 0, 0x05] = [0x05] ∧ versionChosen [0x10, 4, 0, 0, 0, 1, 0, 0x05] = some 0x10 := by decide +kernel

/-! ### C33: algorithms -/

/-- the little-endian number at offset `i` of `t`. -/
def u32At (t : Bytes) (i : Nat) (b : UInt32) : Prop := (t.drop i).take 4 = putU32 b

/-- what a requester has after taking over an ALGORITHMS response whose bytes after the header are `t`: a single hash and a single signature
algorithm the requester knows, read from the response; at most one measurement specification, measurement hash and opaque format; for each
family with a structure in the response at most one algorithm, for the others what was there before; an algorithm where the capabilities
of both sides need one and the response names the family. -/
structure Settled (cc : Cc) (t : Bytes) (l : List Alg) (n n' : Neg) : Prop where
  hash : n'.baseHash ∈ ([1, 2, 4] : List UInt32) ∧ ∃ b, u32At t 14 b ∧ n'.baseHash = b &&& 0x7
  asym : n'.baseAsym ∈ ([0x1, 0x2, 0x4, 0x8, 0x10, 0x20, 0x40, 0x80] : List UInt32) ∧ ∃ b, u32At t 10 b ∧ n'.baseAsym = b &&& 0xff
  measSpec : n'.measSpec ∈ ([0, 1] : List UInt8) ∧ (cc.measCap = true → n'.measSpec = 1)
  measHash : n'.measHash ∈ ([0, 0x1, 0x2, 0x4, 0x8, 0x10, 0x80] : List UInt32) ∧ (cc.measCap = true → n'.measHash ≠ 0)
  opaqueData : n'.opaqueSupport ∈ ([0, 2] : List UInt8) ∧ (cc.needOpaque = true → n'.opaqueSupport = 2)
  count : l.length ≤ 4 ∧ (cc.ge11 = false → l = [])
  dhe : n'.dhe = ((l.filterMap dheOf).getLast?).getD n.dhe ∧ ∀ x ∈ l.filterMap dheOf, x ∈ ([0, 8, 0x10] : List UInt16) ∧ (cc.keyExBoth = true → x ≠ 0)
  aead : n'.aead = ((l.filterMap aeadOf).getLast?).getD n.aead ∧ ∀ x ∈ l.filterMap aeadOf, x ∈ ([0, 1, 2, 4] : List UInt16) ∧ (cc.needAead = true → x ≠ 0)
  reqAsym : n'.reqAsym = ((l.filterMap reqAsymOf).getLast?).getD n.reqAsym ∧
    ∀ x ∈ l.filterMap reqAsymOf, x ∈ ([0, 0x1, 0x2, 0x4, 0x8, 0x10, 0x20, 0x40, 0x80] : List UInt16) ∧ (cc.mutAuthBoth = true → x ≠ 0)
  schedule : n'.keySchedule = ((l.filterMap scheduleOf).getLast?).getD n.keySchedule ∧
    ∀ x ∈ l.filterMap scheduleOf, x ∈ ([0, 1] : List UInt16) ∧ ((cc.keyExBoth || cc.pskBoth) = true → x ≠ 0)
  rest : n' = { n with measSpec := n'.measSpec, measHash := n'.measHash, baseHash := n'.baseHash, baseAsym := n'.baseAsym, dhe := n'.dhe,
                       aead := n'.aead, reqAsym := n'.reqAsym, keySchedule := n'.keySchedule, opaqueSupport := n'.opaqueSupport }

set_option maxRecDepth 20000

theorem hash_one {x : BaseHash} (hw : BaseHash.WF x) (h : BaseHash.noMoreThanOne x = true) (h0 : x ≠ 0) : x ∈ ([1, 2, 4] : List UInt32) :=
  BaseHash.wf_cases (P := fun x => BaseHash.noMoreThanOne x = true → x ≠ 0 → x ∈ ([1, 2, 4] : List UInt32)) (by decide) x hw h h0

theorem asym_one {x : BaseAsym} (hw : BaseAsym.WF x) (h : BaseAsym.noMoreThanOne x = true) (h0 : x ≠ 0) :
    x ∈ ([0x1, 0x2, 0x4, 0x8, 0x10, 0x20, 0x40, 0x80] : List UInt32) :=
  BaseAsym.wf_cases (P := fun x => BaseAsym.noMoreThanOne x = true → x ≠ 0 → x ∈ ([0x1, 0x2, 0x4, 0x8, 0x10, 0x20, 0x40, 0x80] : List UInt32)) (by decide) x hw h h0

theorem measSpec_one {x : MeasSpec} (hw : MeasSpec.WF x) : x ∈ ([0, 1] : List UInt8) ∧ (MeasSpec.validOne x = true → x = 1) :=
  MeasSpec.wf_cases (P := fun x => x ∈ ([0, 1] : List UInt8) ∧ (MeasSpec.validOne x = true → x = 1)) (by decide) x hw

theorem measHash_one {x : MeasHash} (hw : MeasHash.WF x) (h : MeasHash.noMoreThanOne x = true) :
    x ∈ ([0, 0x1, 0x2, 0x4, 0x8, 0x10, 0x80] : List UInt32) ∧ (MeasHash.validOne x = true → x ≠ 0) :=
  MeasHash.wf_cases (P := fun x => MeasHash.noMoreThanOne x = true → x ∈ ([0, 0x1, 0x2, 0x4, 0x8, 0x10, 0x80] : List UInt32) ∧ (MeasHash.validOne x = true → x ≠ 0)) (by decide) x hw h

theorem dhe_one {x : Dhe} (hw : Dhe.WF x) (h : Dhe.noMoreThanOne x = true) : x ∈ ([0, 8, 0x10] : List UInt16) ∧ (Dhe.validOne x = true → x ≠ 0) :=
  Dhe.wf_cases (P := fun x => Dhe.noMoreThanOne x = true → x ∈ ([0, 8, 0x10] : List UInt16) ∧ (Dhe.validOne x = true → x ≠ 0)) (by decide) x hw h

theorem aead_one {x : Aead} (hw : Aead.WF x) (h : Aead.noMoreThanOne x = true) : x ∈ ([0, 1, 2, 4] : List UInt16) ∧ (Aead.validOne x = true → x ≠ 0) :=
  Aead.wf_cases (P := fun x => Aead.noMoreThanOne x = true → x ∈ ([0, 1, 2, 4] : List UInt16) ∧ (Aead.validOne x = true → x ≠ 0)) (by decide) x hw h

theorem reqAsym_one {x : ReqAsym} (hw : ReqAsym.WF x) (h : ReqAsym.noMoreThanOne x = true) :
    x ∈ ([0, 0x1, 0x2, 0x4, 0x8, 0x10, 0x20, 0x40, 0x80] : List UInt16) ∧ (ReqAsym.validOne x = true → x ≠ 0) :=
  ReqAsym.wf_cases (P := fun x => ReqAsym.noMoreThanOne x = true → x ∈ ([0, 0x1, 0x2, 0x4, 0x8, 0x10, 0x20, 0x40, 0x80] : List UInt16) ∧ (ReqAsym.validOne x = true → x ≠ 0)) (by decide) x hw h

theorem schedule_one {x : KeySchedule} (hw : KeySchedule.WF x) : x ∈ ([0, 1] : List UInt16) ∧ (KeySchedule.validOne x = true → x ≠ 0) :=
  KeySchedule.wf_cases (P := fun x => x ∈ ([0, 1] : List UInt16) ∧ (KeySchedule.validOne x = true → x ≠ 0)) (by decide) x hw

/-- where the hash and the signature algorithm stand in an ALGORITHMS response. -/
theorem algsRsp_at {c : Cc} {t : Bytes} {r' : Reader} {m : Algs} (h : rdAlgsRsp c ⟨t, 2⟩ = .ok m r') :
    (∃ b, u32At t 14 b ∧ m.hash = b &&& 0x7) ∧ ∃ b, u32At t 10 b ∧ m.asym = b &&& 0xff := by
  simp only [rdAlgsRsp, Rd.none, M.bind_ok, M.guard_ok, M.pure_ok] at h
  obtain ⟨n, r1, h1, hn, z, r2, h2, len, r3, h3, ms, r4, h4, g1, ot, r5, h5, g2, mh, r6, h6, g3, asym, r7, h7, g4,
    hash, r8, h8, g5, _, _, _, ea, _, _, hea, eh, _, _, heh, _, _, _, algs, _, halgs, hlen, rfl, rfl⟩ := h
  have h1 := rdU8_ok.1 h1
  have h2 := rdU8_ok.1 h2
  obtain h3 := rdU16_ok.1 h3
  obtain ⟨_, x4, _, h4⟩ := MeasSpec.read_ok h4
  obtain ⟨_, x6, _, h6⟩ := MeasHash.read_ok h6
  obtain ⟨_, x7, hx7, h7⟩ := BaseAsym.read_ok h7
  obtain ⟨_, x8, hx8, h8⟩ := BaseHash.read_ok h8
  have h5 : ∃ b, r4.rest = b :: r5.rest := by
    rw [M.ite_ok] at h5
    rcases h5 with ⟨_, h5⟩ | ⟨_, h5⟩
    · simp only [rdOpaqueSupport, Rd.none, M.bind_ok, M.ite_ok, M.pure_ok, M.fail_ok] at h5
      obtain ⟨b, q, hb, h5⟩ := h5
      have hb := rdU8_ok.1 hb
      rcases h5 with ⟨_, _, rfl⟩ | ⟨_, h5⟩
      · exact ⟨b, hb.1⟩
      · exact absurd h5 id
    · simp only [M.bind_ok, M.pure_ok] at h5
      obtain ⟨b, q, hb, _, rfl⟩ := h5
      exact ⟨b, (rdU8_ok.1 hb).1⟩
  obtain ⟨y, h5⟩ := h5
  have ht : t = n :: z :: (putU16 len ++ (x4 :: y :: (putU32 x6 ++ (putU32 x7 ++ (putU32 x8 ++ r8.rest))))) := by
    have := h1.1
    rw [h2.1, h3.1, h4.1, h5, h6.1, h7.1, h8.1] at this
    exact this
  refine ⟨⟨x8, ?_, hx8⟩, x7, ?_, hx7⟩
  · rw [ht]; rfl
  · rw [ht]; rfl

theorem settled_of {c : Cc} {t : Bytes} {r' : Reader} {m : Algs} {n : Neg} (h : rdAlgsRsp c ⟨t, 2⟩ = .ok m r') (hh : m.hash ≠ 0) (ha : m.asym ≠ 0) :
    Settled c t (m.algs.map (·.alg)) n (takeAlgs m n).1 := by
  obtain ⟨k1, k2⟩ := algsRsp_at h
  obtain ⟨w1, w2, w3, w4, w5, ⟨w6, w7, w8, w9⟩, ⟨s1, s2⟩, ⟨s3, s4⟩, ⟨s5, s6⟩, ⟨s7, s8⟩, ⟨s9, s10⟩, s11⟩ := rdAlgsRsp_ok h
  have ht : (takeAlgs m n).1 = m.algs.foldl Rsp.offerAlg { n with measSpec := m.measSpec, opaqueSupport := m.other, measHash := m.measHash, baseHash := m.hash, baseAsym := m.asym } := by
    simp [takeAlgs, hh, ha]
  have hfm : ∀ f : Alg → Option UInt16, (m.algs.filterMap fun a => f a.alg) = (m.algs.map (·.alg)).filterMap f := fun f => by
    rw [List.filterMap_map]; rfl
  rw [ht, offerAlg_fold, hfm, hfm, hfm, hfm]
  have hm : ∀ {f : Alg → Option UInt16} {x : UInt16}, x ∈ (m.algs.map (·.alg)).filterMap f → ∃ a ∈ m.algs, f a.alg = some x := by
    intro f x hx
    obtain ⟨a, ha, hf⟩ := List.mem_filterMap.1 hx
    obtain ⟨b, hb, rfl⟩ := List.mem_map.1 ha
    exact ⟨b, hb, hf⟩
  refine ⟨⟨hash_one w4 s9 hh, k1⟩, ⟨asym_one w3 s7 ha, k2⟩, ⟨(measSpec_one w1).1, fun h => (measSpec_one w1).2 (s2 h)⟩,
    ⟨(measHash_one w2 s5).1, fun h => (measHash_one w2 s5).2 (s6 h)⟩, ⟨?_, ?_⟩, ⟨by rw [List.length_map]; exact w6, fun g => by rw [w9 g]; rfl⟩,
    ⟨rfl, ?_⟩, ⟨rfl, ?_⟩, ⟨rfl, ?_⟩, ⟨rfl, ?_⟩, rfl⟩
  · rcases w5 with g | ⟨_, g⟩ <;> dsimp only <;> rw [g] <;> decide
  · intro hn
    have := s4 hn
    rcases w5 with g | ⟨_, g⟩
    · rw [g] at this; exact absurd this (by decide)
    · exact g
  · intro x hx
    obtain ⟨⟨ty, al⟩, hal, hf⟩ := hm hx
    cases al <;> simp [dheOf] at hf
    subst hf
    have g1 := s11 _ hal
    have g2 := w7 _ hal
    simp only [algSelOk, Bool.and_eq_true] at g1
    obtain ⟨q1, q2⟩ := dhe_one g2.2 g1.1
    refine ⟨q1, fun hk => q2 ?_⟩
    have := g1.2
    rw [hk] at this
    simpa using this
  · intro x hx
    obtain ⟨⟨ty, al⟩, hal, hf⟩ := hm hx
    cases al <;> simp [aeadOf] at hf
    subst hf
    have g1 := s11 _ hal
    have g2 := w7 _ hal
    simp only [algSelOk, Bool.and_eq_true] at g1
    obtain ⟨q1, q2⟩ := aead_one g2.2 g1.1
    refine ⟨q1, fun hk => q2 ?_⟩
    have := g1.2
    rw [hk] at this
    simpa using this
  · intro x hx
    obtain ⟨⟨ty, al⟩, hal, hf⟩ := hm hx
    cases al <;> simp [reqAsymOf] at hf
    subst hf
    have g1 := s11 _ hal
    have g2 := w7 _ hal
    simp only [algSelOk, Bool.and_eq_true] at g1
    obtain ⟨q1, q2⟩ := reqAsym_one g2.2 g1.1
    refine ⟨q1, fun hk => q2 ?_⟩
    have := g1.2
    rw [hk] at this
    simpa using this
  · intro x hx
    obtain ⟨⟨ty, al⟩, hal, hf⟩ := hm hx
    cases al <;> simp [scheduleOf] at hf
    subst hf
    have g1 := s11 _ hal
    have g2 := w7 _ hal
    simp only [algSelOk, Bool.and_eq_true] at g1
    obtain ⟨q1, q2⟩ := schedule_one g2.2
    refine ⟨q1, fun hk => q2 ?_⟩
    have := g1.2
    rw [hk] at this
    simpa using this

/-- After a successful negotiation the requester has a single algorithm of each kind, those the response names; nothing else of what was
negotiated changes.  Partial: the algorithms need not be among those the requester offered (`C33_not_offered_violated`), and families the response
leaves out keep an earlier value. -/
theorem C33_settled_partial {c c' : Ctx} {u : Unit} (h : negotiateAlgorithms e c = .ok u c') :
    ∃ pkt bytes t l, Said e none c (c.neg.version.get :: 0xE3 :: negAlgsWire c.cc (algsRequest c.config)) bytes (Rsp.withSent pkt c) ∧
      bytes = c.neg.version.get :: 0x63 :: t ∧ Settled c.cc t l c.neg c'.neg := by
  obtain ⟨req, pkt, bytes, t, m, r', h1, rfl, h3, h4, h5, h6, h7, rfl⟩ := negotiateAlgorithms_ok h
  exact ⟨pkt, bytes, t, m.algs.map (·.alg), h1, h3, settled_of h5 h6 h7⟩

/-- what a requester offering only `1` (SHA-256) and `8` (P-256) uses after a connection to a peer whose ALGORITHMS response is altered by `f`. -/
def algsChosen (f : Bytes → Bytes) : Option (UInt32 × UInt32 × UInt16) :=
  match Req.initConnection { Toy.menv with recv := fun l => (Toy.answer Toy.menv Toy.rsp0 l).map fun p => if p.getD 2 0 = 0x63 then f p else p } Toy.req0 with
  | .ok _ c => some (c.neg.baseHash, c.neg.baseAsym, c.neg.dhe)
  | _ => none

example : Toy.req0.config.baseHash = 1 ∧ Toy.req0.config.baseAsym = 0x10 ∧ Toy.req0.config.dhe = 8 ∧ algsChosen id = some (1, 0x10, 8) := by decide +kernel
/- no hash selected, two hashes selected -/
example : algsChosen (·.set 17 0) = none ∧ algsChosen (·.set 17 3) = none := by decide +kernel

/-- Nothing compares the selection with the offer: a responder selecting SHA-512, a 384-bit signature curve and a 384-bit group gets its way
with a requester that offered none of them. -/
theorem C33_not_offered_violated : Toy.req0.config.baseHash = 1 ∧ Toy.req0.config.baseAsym = 0x10 ∧ Toy.req0.config.dhe = 8 ∧
    algsChosen (fun p => ((p.set 17 4).set 13 0x80).set 39 0x10) = some (4, 0x80, 0x10) := by decide +kernel

/-- A family the response leaves out is not "not negotiated": it keeps what an earlier connection selected.  The peer selects no DHE group and no
AEAD the second time. -/
theorem C33_leftover_violated : (Toy.runOps { Toy.menv with
      recv := fun l => if l.length < 6 then Toy.answer Toy.menv Toy.rsp0 (if l.length ≤ 3 then l else l.drop 3) else
        some ([5, 18, 99, 0, 0, 36, 0, 1, 2, 2, 0, 0, 0, 16, 0, 0, 0, 1] ++ List.replicate 19 0) } Toy.req0 [.connect, .connect]).map (fun x => (x.1, x.2.neg.dhe, x.2.neg.aead)) =
    some ([none, none], 8, 2) := by decide +kernel

end Verif.Props
