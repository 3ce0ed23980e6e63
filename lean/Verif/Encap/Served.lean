/-
What the requester answers to an encapsulated request.
-/
import Verif.Encap.Requester
import Verif.Props.Attest

namespace Verif
namespace Encap
open Rsp Props

variable {e : Env}

/-- an ERROR response of the connection's version. -/
def errorOf (c : Ctx) (code : UInt8) : Bytes := [c.neg.version.get, 0x7F, code, 0]

/-- `rsp` is what a requester should answer to the encapsulated request `v :: k :: t`: GET_DIGESTS (0x81) and GET_CERTIFICATE (0x82) are served if
the requester announced CERT_CAP and the request has the connection's version; DIGESTS tells the digests of the own chains, CERTIFICATE gives at most
512 bytes of the own chain of slot 0 at the requested offset; everything else is answered with ERROR. -/
def Answers (e : Env) (c : Ctx) (v k : UInt8) (t rsp : Bytes) : Prop :=
  if k = 0x81 ∨ k = 0x82 then
    if c.neg.reqCaps &&& 0x2 = 0 then rsp = errorOf c 0x07
    else if SpdmVersion.ofCode v ≠ c.neg.version then rsp = errorOf c 0x41
    else if k = 0x81 then (2 ≤ t.length ∧ SaysDigests e c v rsp) ∨ (t.length < 2 ∧ rsp = errorOf c 0x01)
    else
      (∃ p off len rest chain, t = [0, p] ++ putU16 off ++ putU16 len ++ rest ∧ c.prov.chain 0 = some chain ∧ off.toNat ≤ chain.length ∧
        rsp = certMessage v chain off.toNat len.toNat) ∨
      ((¬ ∃ p off len rest chain, t = [0, p] ++ putU16 off ++ putU16 len ++ rest ∧ c.prov.chain 0 = some chain ∧ off.toNat ≤ chain.length) ∧
        rsp = errorOf c 0x01)
  else rsp = errorOf c 0x04

theorem ignoring_ok {x : Enc Nat} {bs : Bytes} (hw : Writes x bs) {w : Writer} (hl : w.out.length + bs.length ≤ w.cap) :
    ignoring x w = .ok () ⟨w.cap, w.out ++ bs⟩ := by
  unfold ignoring
  rw [(hw w (by unfold Writer.WF; omega)).1 hl]

theorem error_ok (c : Ctx) (code : ErrorCode) {w : Writer} (hl : w.out.length + 4 ≤ w.cap) :
    error c code w = .ok () ⟨w.cap, w.out ++ errorOf c code.get⟩ :=
  ignoring_ok (error_writes c code 0) (by simpa [errorBytes] using hl)

theorem digestFrame_writes {c : Ctx} {hs : Nat} (hhs : c.cc.hashSize? = some hs) :
    Writes (Msg.encode c.cc ⟨⟨c.neg.version, .rspDigests⟩, .digests ⟨slotMask c.prov, List.replicate 8 (List.replicate hs 0xff)⟩⟩)
      (digestFrame c.neg.version.get c.prov hs) := by
  have hcount : slotCount (slotMask c.prov) ≤ 8 := by
    have key : ∀ n : Fin 256, slotCount (UInt8.ofNat n.val) ≤ 8 := by set_option maxRecDepth 20000 in decide
    have := key ⟨(slotMask c.prov).toNat, (slotMask c.prov).toNat_lt⟩
    simpa using this
  have hw : Writes (Digests.encode c.cc ⟨slotMask c.prov, List.replicate 8 (List.replicate hs 0xff)⟩)
      ([0] ++ [slotMask c.prov] ++ List.replicate (slotCount (slotMask c.prov) * hs) 0xff) := by
    have hd : Writes (encN (encDigest c.cc) ((List.replicate 8 (List.replicate hs (0xff : UInt8))).take (slotCount (slotMask c.prov))))
        (((List.replicate 8 (List.replicate hs (0xff : UInt8))).take (slotCount (slotMask c.prov))).flatMap id) :=
      Writes.repeat _ fun d hd => encDigest_writes (by
        have := List.eq_of_mem_replicate (List.mem_of_mem_take hd)
        unfold Cc.DigestOk; rw [hhs, this]; simp)
    unfold Digests.encode
    apply Writes.cast
    · wr
    simp only [List.take_replicate, Nat.min_eq_left hcount]
    have : ∀ n, (List.replicate n (List.replicate hs (0xff : UInt8))).flatMap id = List.replicate (n * hs) 0xff := by
      intro n
      induction n with
      | zero => simp
      | succ n ih => rw [List.replicate_succ, List.flatMap_cons, ih, Nat.succ_mul, Nat.add_comm, ← List.replicate_append_replicate]; rfl
    simp [this]
  exact (Writes.seq_cons (Header.encode_writes _) (Writes.seq_cons hw Writes.seq_nil)).cast (by simp [digestFrame, Header.wire, ReqRespCode.get])

theorem digestFrame_length {v : UInt8} {p : Provision} {hs : Nat} (h : hs ≤ 64) : (digestFrame v p hs).length ≤ 516 := by
  have hcount : slotCount (slotMask p) ≤ 8 := by
    have key : ∀ n : Fin 256, slotCount (UInt8.ofNat n.val) ≤ 8 := by set_option maxRecDepth 20000 in decide
    have := key ⟨(slotMask p).toNat, (slotMask p).toNat_lt⟩
    simpa using this
  have := Nat.mul_le_mul hcount h
  simp [digestFrame]
  omega

/-- what is before the digests stays. -/
theorem patchDigests_pre (hl : HashLaw e) {c : Ctx} {hs : Nat} (hh : BaseHash.size? c.neg.baseHash = some hs) (pre : Bytes) :
    ∀ (is : List (Fin 8)) (b : Bytes), (∀ i ∈ is, (c.prov.chain i).isSome = true → hs ≤ b.length) →
    patchDigests e c is (pre ++ b) = match patchDigests e c is b with
      | .ok b' => .ok (pre ++ b')
      | .err x => .err x
      | .panic => .panic
  | [], b, _ => rfl
  | i :: is, b, h => by
    unfold patchDigests
    cases hc : c.prov.chain i with
    | none => exact patchDigests_pre hl hh pre is b fun j hj => h j (by simp [hj])
    | some ch =>
      dsimp only
      have hb := h i (by simp) (by rw [hc]; rfl)
      cases hd : e.crypto.hash c.neg.baseHash ch with
      | none => rfl
      | some d =>
        have hdl : d.length = hs := by have := hl _ _ _ hd; rw [hh] at this; cases this; rfl
        have h1 : patchTail d.length d (pre ++ b) = .ok (pre ++ (b.take (b.length - d.length) ++ d)) := by
          unfold patchTail
          rw [if_pos ⟨by simp; omega, rfl⟩]
          congr 1
          rw [← List.append_assoc]
          congr 1
          rw [List.take_append, List.length_append]
          rw [List.take_of_length_le (by omega)]
          congr 2
          omega
        have h2 : patchTail d.length d b = .ok (b.take (b.length - d.length) ++ d) := by
          unfold patchTail
          rw [if_pos ⟨by omega, rfl⟩]
        show (do let b ← patchTail d.length d (pre ++ b); patchDigests e c is b) = match (do let b ← patchTail d.length d b; patchDigests e c is b) with
          | .ok b' => .ok (pre ++ b')
          | .err x => .err x
          | .panic => .panic
        rw [h1, h2]
        refine patchDigests_pre hl hh pre is (b.take (b.length - d.length) ++ d) fun j hj hs' => ?_
        have := h j (by simp [hj]) hs'
        simp
        omega

theorem slot_length {p : Provision} {v : UInt8} {hs : Nat} {i : Fin 8} (h : (p.chain i).isSome = true) : hs ≤ (digestFrame v p hs).length := by
  obtain ⟨_, m2⟩ := mask_spec p
  have : i ∈ filled p := List.mem_filter.2 ⟨List.mem_finRange i, h⟩
  have hpos : 0 < (filled p).length := List.length_pos_of_mem this
  simp only [digestFrame, m2, List.length_append, List.length_replicate]
  have := Nat.le_mul_of_pos_left hs hpos
  omega

/-- DIGESTS, written behind `w.out`. -/
theorem digests_ok (hl : HashLaw e) {c : Ctx} {w w' : Writer} {u : Unit} (hw : w.cap = 4096 ∧ w.out.length = 4) (h : digests e c w = .ok u w') :
    ∃ rsp, w' = ⟨4096, w.out ++ rsp⟩ ∧ SaysDigests e c c.neg.version.get rsp := by
  unfold digests at h
  cases hhs : c.cc.hashSize? with
  | none => rw [hhs] at h; cases h
  | some hs =>
    rw [hhs] at h
    dsimp only at h
    have hlen := digestFrame_length (v := c.neg.version.get) (p := c.prov) (hashSize_le hhs)
    rw [((digestFrame_writes hhs) w (by unfold Writer.WF; omega)).1 (by omega)] at h
    dsimp only at h
    rw [patchDigests_pre hl (show BaseHash.size? c.neg.baseHash = some hs from hhs) _ _ _ (fun i _ hi => slot_length hi)] at h
    cases hp : patchDigests e c (List.finRange 8) (digestFrame c.neg.version.get c.prov hs) with
    | panic => rw [hp] at h; cases h
    | err x => rw [hp] at h; cases h
    | ok b =>
      rw [hp] at h
      cases h
      exact ⟨b, by rw [hw.1], digests_said hl hhs hp⟩

theorem patchDigests_total {c : Ctx} (hd : ∀ i ch, c.prov.chain i = some ch → ∃ d, e.crypto.hash c.neg.baseHash ch = some d ∧ some d.length = BaseHash.size? c.neg.baseHash) {hs : Nat}
    (hh : BaseHash.size? c.neg.baseHash = some hs) : ∀ (is : List (Fin 8)) (b : Bytes), (∀ i ∈ is, (c.prov.chain i).isSome = true → hs ≤ b.length) →
    ∃ b', patchDigests e c is b = .ok b'
  | [], b, _ => ⟨b, rfl⟩
  | i :: is, b, h => by
    unfold patchDigests
    cases hc : c.prov.chain i with
    | none => exact patchDigests_total hd hh is b fun j hj => h j (by simp [hj])
    | some ch =>
      obtain ⟨d, h1, h2⟩ := hd i ch hc
      rw [hh] at h2
      have h2 : d.length = hs := by simpa using h2
      have hb := h i (by simp) (by rw [hc]; rfl)
      dsimp only
      rw [h1]
      show ∃ b', (do let b ← patchTail d.length d b; patchDigests e c is b) = Res.ok b'
      have h2 : patchTail d.length d b = .ok (b.take (b.length - d.length) ++ d) := by
        unfold patchTail
        rw [if_pos ⟨by omega, rfl⟩]
      rw [h2]
      refine patchDigests_total hd hh is _ fun j hj hs' => ?_
      have := h j (by simp [hj]) hs'
      simp
      omega

theorem noParams_total (t : Bytes) (u : Nat) : (∃ r, rdNoParams ⟨t, u⟩ = .ok () r ∧ 2 ≤ t.length) ∨ (∃ r, rdNoParams ⟨t, u⟩ = .err () r ∧ t.length < 2) := by
  match t with
  | [] => exact .inr ⟨_, rfl, by simp⟩
  | [a] => exact .inr ⟨_, rfl, by simp⟩
  | a :: b :: t => exact .inl ⟨⟨t, u + 1 + 1⟩, by simp [rdNoParams], by simp⟩

theorem getCert_total (t : Bytes) (u : Nat) : (∃ s p off len rest r, t = [s, p] ++ putU16 off ++ putU16 len ++ rest ∧ GetCert.read ⟨t, u⟩ = .ok ⟨s, off, len⟩ r) ∨
    ((∃ r, GetCert.read ⟨t, u⟩ = .err () r) ∧ t.length < 6) := by
  match t with
  | [] => exact .inr ⟨⟨_, rfl⟩, by simp⟩
  | [a] => exact .inr ⟨⟨_, rfl⟩, by simp⟩
  | [a, b] => exact .inr ⟨⟨_, rfl⟩, by simp⟩
  | [a, b, c] => exact .inr ⟨⟨_, rfl⟩, by simp⟩
  | [a, b, c, d] => exact .inr ⟨⟨_, rfl⟩, by simp⟩
  | [a, b, c, d, f] => exact .inr ⟨⟨_, rfl⟩, by simp⟩
  | a :: b :: c :: d :: f :: g :: rest =>
    refine .inl ⟨a, b, decU16 c d, decU16 f g, rest, ⟨rest, u + 6⟩, ?_, ?_⟩
    · simp [putU16_dec]
    · simp [GetCert.read]

/-- CERTIFICATE, written behind `w.out`. -/
theorem portion_ok {c : Ctx} {off len : UInt16} {chain : Bytes} {w : Writer} (hw : w.cap = 4096 ∧ w.out.length = 4) (hsz : chain.length < 65536) :
    portion c ⟨0, off, len⟩ chain w = .ok () ⟨4096, w.out ++ (if off.toNat ≤ chain.length then certMessage c.neg.version.get chain off.toNat len.toNat else errorOf c 0x01)⟩ := by
  have hsz' : (chain.length.toUInt16).toNat = chain.length := by
    show (UInt16.ofNat chain.length).toNat = _
    exact UInt16.toNat_ofNat_of_lt' hsz
  unfold portion
  dsimp only
  rw [certPortion_spec, hsz']
  by_cases ho : off.toNat ≤ chain.length
  · rw [if_pos ho, if_neg (by omega)]
    dsimp only
    have hlt : portionLen chain.length off.toNat len.toNat ≤ 512 ∧ portionLen chain.length off.toNat len.toNat ≤ chain.length - off.toNat := by
      unfold portionLen; omega
    have hpn : (UInt16.ofNat (portionLen chain.length off.toNat len.toNat)).toNat = portionLen chain.length off.toNat len.toNat :=
      UInt16.toNat_ofNat_of_lt' (by show _ < 65536; omega)
    rw [hpn]
    have hwf : CertRsp.WF ⟨0, UInt16.ofNat (portionLen chain.length off.toNat len.toNat),
        UInt16.ofNat (chain.length - off.toNat - portionLen chain.length off.toNat len.toNat),
        (chain.drop off.toNat).take (portionLen chain.length off.toNat len.toNat)⟩ := by
      constructor
      · simp only [hpn, List.length_take, List.length_drop]; omega
      · simp only [List.length_take, List.length_drop]; omega
    have hwr : Writes (Msg.encode c.cc ⟨⟨c.neg.version, .rspCertificate⟩, .cert ⟨0, UInt16.ofNat (portionLen chain.length off.toNat len.toNat),
        UInt16.ofNat (chain.length - off.toNat - portionLen chain.length off.toNat len.toNat),
        (chain.drop off.toNat).take (portionLen chain.length off.toNat len.toNat)⟩⟩) (certMessage c.neg.version.get chain off.toNat len.toNat) :=
      (Writes.seq_cons (Header.encode_writes _) (Writes.seq_cons (CertRsp.encode_writes hwf) Writes.seq_nil)).cast
        (by simp [certMessage, Header.wire, CertRsp.wire, ReqRespCode.get])
    rw [ignoring_ok hwr, hw.1]
    simp [certMessage, putU16]
    omega
  · rw [if_neg ho, if_pos (by omega)]
    dsimp only
    rw [error_ok _ _ (by omega), hw.1]
    rfl

theorem cap_cert (f : UInt32) : Cap.has f Cap.cert = false ↔ f &&& 0x2 = 0 := by
  unfold Cap.has Cap.cert
  simp
  generalize hx : f &&& 2 = x
  have : x = 0 ∨ x = 2 := by
    subst hx
    have : ∀ f : BitVec 32, f &&& 2#32 = 0#32 ∨ f &&& 2#32 = 2#32 := by
      intro f
      by_cases h : f.getLsbD 1 = true
      · right
        apply BitVec.eq_of_getLsbD_eq
        intro i hi
        by_cases h1 : i = 1
        · subst h1; simp [h]
        · simp only [BitVec.getLsbD_and]
          have : (2#32).getLsbD i = false := by
            have : ∀ i : Fin 32, i.val ≠ 1 → (2#32).getLsbD i.val = false := by decide
            exact this ⟨i, hi⟩ h1
          simp [this]
      · left
        apply BitVec.eq_of_getLsbD_eq
        intro i hi
        by_cases h1 : i = 1
        · subst h1
          rw [BitVec.getLsbD_and, Bool.eq_false_iff.2 h]; rfl
        · simp only [BitVec.getLsbD_and]
          have : (2#32).getLsbD i = false := by
            have : ∀ i : Fin 32, i.val ≠ 1 → (2#32).getLsbD i.val = false := by decide
            exact this ⟨i, hi⟩ h1
          simp [this]
    rcases this f.toBitVec with h | h
    · left; exact UInt32.toBitVec_inj.1 h
    · right; exact UInt32.toBitVec_inj.1 h
  rcases this with rfl | rfl <;> decide

/-- everything the requester can write for an encapsulated request. -/
theorem serve_ok (hl : HashLaw e) {c : Ctx} (hsz : ∀ ch, c.prov.chain 0 = some ch → ch.length < 65536) {v k : UInt8} {t : Bytes} {w w' : Writer} {u : Unit}
    (hw : w.cap = 4096 ∧ w.out.length = 4) (h : serve e c (ReqRespCode.ofCode k) (v :: k :: t) w = .ok u w') :
    ∃ rsp, w' = ⟨4096, w.out ++ rsp⟩ ∧ Answers e c v k t rsp := by
  have herr : ∀ code : ErrorCode, ∀ w', error c code w = .ok u w' → w' = ⟨4096, w.out ++ errorOf c code.get⟩ := by
    intro code w' h
    rw [error_ok c code (by omega), hw.1] at h
    cases h
    rfl
  by_cases h1 : k = 0x81
  · subst h1
    have h : serveDigests e c (v :: 0x81 :: t) w = .ok u w' := h
    unfold serveDigests at h
    by_cases hc : Cap.has c.neg.reqCaps Cap.cert = false
    · rw [if_pos hc] at h
      exact ⟨_, herr _ _ h, by unfold Answers; rw [if_pos (by simp), if_pos ((cap_cert _).1 hc)]; rfl⟩
    rw [if_neg hc] at h
    rw [header_read] at h
    dsimp only at h
    by_cases hv : SpdmVersion.ofCode v ≠ c.neg.version
    · rw [if_pos hv] at h
      exact ⟨_, herr _ _ h, by unfold Answers; rw [if_pos (by simp), if_neg fun h => hc ((cap_cert _).2 h), if_pos hv]; rfl⟩
    rw [if_neg hv] at h
    have hA : ∀ rsp, ((2 ≤ t.length ∧ SaysDigests e c v rsp) ∨ (t.length < 2 ∧ rsp = errorOf c 0x01)) → Answers e c v 0x81 t rsp := by
      intro rsp hx
      unfold Answers
      rw [if_pos (by simp), if_neg fun h => hc ((cap_cert _).2 h), if_neg hv, if_pos rfl]
      exact hx
    have hvg : v = c.neg.version.get := by
      have : SpdmVersion.ofCode v = c.neg.version := Decidable.not_not.1 hv
      rw [← this]; simp
    rcases noParams_total t 2 with ⟨r, k1, k2⟩ | ⟨r, k1, k2⟩
    · rw [k1] at h
      obtain ⟨rsp, g1, g2⟩ := digests_ok hl hw h
      exact ⟨rsp, g1, hA _ (.inl ⟨k2, by rw [hvg]; exact g2⟩)⟩
    · rw [k1] at h
      exact ⟨_, herr _ _ h, hA _ (.inr ⟨k2, rfl⟩)⟩
  by_cases h2 : k = 0x82
  · subst h2
    have h : serveCertificate c (v :: 0x82 :: t) w = .ok u w' := h
    unfold serveCertificate at h
    by_cases hc : Cap.has c.neg.reqCaps Cap.cert = false
    · rw [if_pos hc] at h
      exact ⟨_, herr _ _ h, by unfold Answers; rw [if_pos (by simp), if_pos ((cap_cert _).1 hc)]; rfl⟩
    rw [if_neg hc] at h
    rw [header_read] at h
    dsimp only at h
    by_cases hv : SpdmVersion.ofCode v ≠ c.neg.version
    · rw [if_pos hv] at h
      exact ⟨_, herr _ _ h, by unfold Answers; rw [if_pos (by simp), if_neg fun h => hc ((cap_cert _).2 h), if_pos hv]; rfl⟩
    rw [if_neg hv] at h
    have hA : ∀ rsp, ((∃ p off len rest chain, t = [0, p] ++ putU16 off ++ putU16 len ++ rest ∧ c.prov.chain 0 = some chain ∧ off.toNat ≤ chain.length ∧
        rsp = certMessage v chain off.toNat len.toNat) ∨
      ((¬ ∃ p off len rest chain, t = [0, p] ++ putU16 off ++ putU16 len ++ rest ∧ c.prov.chain 0 = some chain ∧ off.toNat ≤ chain.length) ∧
        rsp = errorOf c 0x01)) → Answers e c v 0x82 t rsp := by
      intro rsp hx
      unfold Answers
      rw [if_pos (by simp), if_neg fun h => hc ((cap_cert _).2 h), if_neg hv, if_neg (by decide)]
      exact hx
    have hvg : v = c.neg.version.get := by
      have : SpdmVersion.ofCode v = c.neg.version := Decidable.not_not.1 hv
      rw [← this]; simp
    rcases getCert_total t 2 with ⟨s, p, off, len, rest, r, k1, k2⟩ | ⟨⟨r, k1⟩, k2⟩
    · rw [k2] at h
      dsimp only at h
      have hinj : ∀ {p' : UInt8} {off' len' : UInt16} {rest' : Bytes} {s' : UInt8}, t = [s', p'] ++ putU16 off' ++ putU16 len' ++ rest' → s' = s ∧ off' = off := by
        intro p' off' len' rest' s' ht
        rw [k1] at ht
        simp only [putU16, List.cons_append, List.nil_append, List.append_assoc, List.cons.injEq] at ht
        refine ⟨ht.1.symm, ?_⟩
        rw [← dec_putU16 off', ← dec_putU16 off, ht.2.2.1, ht.2.2.2.1]
      by_cases hs : s ≠ 0
      · rw [if_pos hs] at h
        refine ⟨_, herr _ _ h, hA _ (.inr ⟨?_, rfl⟩)⟩
        rintro ⟨p', off', len', rest', chain, ht, -, -⟩
        exact hs (hinj ht).1.symm
      · rw [if_neg hs] at h
        have hs : s = 0 := Decidable.not_not.1 hs
        subst hs
        have hlc : localChain c 0 = c.prov.chain 0 := rfl
        rw [hlc] at h
        cases hch : c.prov.chain 0 with
        | none =>
          rw [hch] at h
          refine ⟨_, herr _ _ h, hA _ (.inr ⟨?_, rfl⟩)⟩
          rintro ⟨_, _, _, _, _, -, hx, -⟩
          rw [hch] at hx; cases hx
        | some chain =>
          rw [hch] at h
          dsimp only at h
          rw [portion_ok hw (hsz _ hch)] at h
          injection h with _ h
          refine ⟨_, h.symm, hA _ ?_⟩
          by_cases ho : off.toNat ≤ chain.length
          · rw [if_pos ho]
            exact .inl ⟨p, off, len, rest, chain, k1, hch, ho, by rw [hvg]⟩
          · rw [if_neg ho]
            refine .inr ⟨?_, rfl⟩
            rintro ⟨p', off', len', rest', chain', ht, hx, ho'⟩
            rw [hch] at hx; cases hx
            rw [(hinj ht).2] at ho'
            exact ho ho'
    · rw [k1] at h
      refine ⟨_, herr _ _ h, hA _ (.inr ⟨?_, rfl⟩)⟩
      rintro ⟨p', off', len', rest', chain, ht, -, -⟩
      rw [ht] at k2
      simp [putU16] at k2
      omega
  · have hk1 : ReqRespCode.ofCode k ≠ .reqGetDigests := fun hh => h1 (by have := congrArg ReqRespCode.get hh; simp at this; exact this)
    have hk2 : ReqRespCode.ofCode k ≠ .reqGetCertificate := fun hh => h2 (by have := congrArg ReqRespCode.get hh; simp at this; exact this)
    have hs : serve e c (ReqRespCode.ofCode k) (v :: k :: t) = error c .unexpectedRequest := by
      unfold serve
      split
      · exact absurd (by assumption) hk1
      · exact absurd (by assumption) hk2
      · rfl
    rw [hs] at h
    exact ⟨_, herr _ _ h, by unfold Answers; rw [if_neg (by simp [h1, h2])]; rfl⟩

/-- the requester always has an answer. -/
theorem serve_total {c : Ctx} (hsz : ∀ ch, c.prov.chain 0 = some ch → ch.length < 65536) {hs : Nat} (hh : BaseHash.size? c.neg.baseHash = some hs)
    (hd : ∀ i ch, c.prov.chain i = some ch → ∃ d, e.crypto.hash c.neg.baseHash ch = some d ∧ d.length = hs) {v k : UInt8} {t : Bytes} {w : Writer}
    (hw : w.cap = 4096 ∧ w.out.length = 4) : ∃ w', serve e c (ReqRespCode.ofCode k) (v :: k :: t) w = .ok () w' := by
  have herr : ∀ code : ErrorCode, ∃ w', error c code w = .ok () w' := fun code => ⟨_, error_ok c code (by omega)⟩
  have hcases : serve e c (ReqRespCode.ofCode k) (v :: k :: t) = serveDigests e c (v :: k :: t) ∨
      serve e c (ReqRespCode.ofCode k) (v :: k :: t) = serveCertificate c (v :: k :: t) ∨
      serve e c (ReqRespCode.ofCode k) (v :: k :: t) = error c .unexpectedRequest := by
    unfold serve
    split
    · exact .inl rfl
    · exact .inr (.inl rfl)
    · exact .inr (.inr rfl)
  rcases hcases with hx | hx | hx <;> rw [hx]
  · unfold serveDigests
    by_cases hc : Cap.has c.neg.reqCaps Cap.cert = false
    · rw [if_pos hc]; exact herr _
    rw [if_neg hc, header_read]
    dsimp only
    by_cases hv : SpdmVersion.ofCode v ≠ c.neg.version
    · rw [if_pos hv]; exact herr _
    rw [if_neg hv]
    rcases noParams_total t 2 with ⟨r, k1, k2⟩ | ⟨r, k1, k2⟩
    · rw [k1]
      dsimp only
      unfold digests
      have hhs : c.cc.hashSize? = some hs := hh
      rw [hhs]
      dsimp only
      have hlen := digestFrame_length (v := c.neg.version.get) (p := c.prov) (hashSize_le hhs)
      rw [((digestFrame_writes hhs) w (by unfold Writer.WF; omega)).1 (by omega)]
      dsimp only
      obtain ⟨b, hb⟩ := patchDigests_total (e := e) (c := c) (fun i ch hi => by
          obtain ⟨d, h1, h2⟩ := hd i ch hi
          exact ⟨d, h1, by rw [hh, h2]⟩) hh (List.finRange 8) (w.out ++ digestFrame c.neg.version.get c.prov hs) (fun i _ hi => by
          have := slot_length (v := c.neg.version.get) (hs := hs) hi
          rw [List.length_append]; omega)
      rw [hb]
      exact ⟨_, rfl⟩
    · rw [k1]; exact herr _
  · unfold serveCertificate
    by_cases hc : Cap.has c.neg.reqCaps Cap.cert = false
    · rw [if_pos hc]; exact herr _
    rw [if_neg hc, header_read]
    dsimp only
    by_cases hv : SpdmVersion.ofCode v ≠ c.neg.version
    · rw [if_pos hv]; exact herr _
    rw [if_neg hv]
    rcases getCert_total t 2 with ⟨s, p, off, len, rest, r, k1, k2⟩ | ⟨⟨r, k1⟩, k2⟩
    · rw [k2]
      dsimp only
      by_cases hs0 : s ≠ 0
      · rw [if_pos hs0]; exact herr _
      rw [if_neg hs0]
      have hs0 : s = 0 := Decidable.not_not.1 hs0
      subst hs0
      have hlc : localChain c 0 = c.prov.chain 0 := rfl
      rw [hlc]
      cases hch : c.prov.chain 0 with
      | none => exact herr _
      | some chain => exact ⟨_, portion_ok hw (hsz _ hch)⟩
    · rw [k1]; exact herr _
  · exact herr _

theorem deliver_header (v : SpdmVersion) (id : UInt8) :
    Enc.seq [Header.encode ⟨v, .reqDeliverEncapsulatedResponse⟩, encId id] (Writer.init 4096) = .ok 4 ⟨4096, [v.get, 0xEB, id, 0]⟩ := by
  have hw : Writes (Enc.seq [Header.encode ⟨v, .reqDeliverEncapsulatedResponse⟩, encId id]) [v.get, 0xEB, id, 0] :=
    (Writes.seq_cons (Header.encode_writes _) (Writes.seq_cons (encId_writes id) Writes.seq_nil)).cast (by simp [Header.wire, ReqRespCode.get])
  exact (hw (Writer.init 4096) (by simp [Writer.WF, Writer.init])).1 (by simp [Writer.init])

/-- the message with which the requester answers. -/
theorem delivery_ok (hl : HashLaw e) {c : Ctx} (hsz : ∀ ch, c.prov.chain 0 = some ch → ch.length < 65536) {id : UInt8} {req b : Bytes} (h : delivery e c id req = .ok b) :
    ∃ v k t rsp, req = v :: k :: t ∧ b = [c.neg.version.get, 0xEB, id, 0] ++ rsp ∧ Answers e c v k t rsp := by
  unfold delivery at h
  rw [deliver_header] at h
  dsimp only at h
  match req with
  | [] => cases h
  | [a] => cases h
  | v :: k :: t =>
    rw [header_read] at h
    dsimp only at h
    cases hs : serve e c (ReqRespCode.ofCode k) (v :: k :: t) ⟨4096, [c.neg.version.get, 0xEB, id, 0]⟩ with
    | panic => rw [hs] at h; cases h
    | err x w => rw [hs] at h; cases h
    | ok u w =>
      rw [hs] at h
      cases h
      obtain ⟨rsp, rfl, g⟩ := serve_ok hl hsz ⟨rfl, rfl⟩ hs
      exact ⟨v, k, t, rsp, rfl, rfl, g⟩

end Encap
end Verif
