/-
What the authentication handlers write and leave behind: DIGESTS, CERTIFICATE, CHALLENGE_AUTH and MEASUREMENTS.
-/
import Verif.Responder.Answer
import Verif.Responder.Slots
import Verif.Props.Cert

namespace Verif
namespace Rsp
variable {e : Env}

/-- outcome of a response writer: on success `Q`, on failure nothing is in the writer yet. -/
def Does {α : Type} (x : H α) (c : Ctx) (Q : α → Ctx → Prop) : Prop := x.wp c Q (fun r _ => r.pre = [])

theorem Does.bind {α β : Type} {x : H α} {f : α → H β} {c : Ctx} {P : α → Ctx → Prop} {Q : β → Ctx → Prop}
    (hx : Does x c P) (hf : ∀ a c1, P a c1 → Does (f a) c1 Q) : Does (x >>= f) c Q := by
  unfold Does at *
  rw [M.wp_bind]
  exact hx.mono hf (fun _ _ h => h)

theorem Does.mono {α : Type} {x : H α} {c : Ctx} {P Q : α → Ctx → Prop} (hx : Does x c P) (h : ∀ a c1, P a c1 → Q a c1) : Does x c Q :=
  M.wp.mono hx h (fun _ _ h => h)

theorem bind_assoc' {α β γ : Type} (x : H α) (f : α → H β) (g : β → H γ) : (x >>= f) >>= g = x >>= fun a => f a >>= g := by
  funext c
  simp only [M.bind_apply]
  cases x c <;> rfl

theorem Does.of {α : Type} {x : H α} {c : Ctx} {Q : α → Ctx → Prop} (h1 : ∀ a c', x c = .ok a c' → Q a c')
    (h2 : ∀ r c', x c = .err r c' → r.pre = []) : Does x c Q := by
  unfold Does M.wp
  cases hx : x c with
  | ok a c' => exact h1 a c' hx
  | err r c' => exact h2 r c' hx
  | panic => trivial

theorem Does.ok {α : Type} {x : H α} {c c' : Ctx} {a : α} {Q : α → Ctx → Prop} (hx : Does x c Q) (h : x c = .ok a c') : Q a c' := M.wp.ok hx h
theorem Does.err {α : Type} {x : H α} {c c' : Ctx} {r : Reply} {Q : α → Ctx → Prop} (hx : Does x c Q) (h : x c = .err r c') : r.pre = [] :=
  M.wp.err (E := fun (r : Reply) _ => r.pre = []) hx h

theorem does_ready (c : Ctx) : Does afterNegotiation c (fun _ c' => c' = c ∧ ConnState.negotiated.code ≤ c.rt.state.code) := by
  refine Does.of (fun _ _ h => afterNegotiation_ok h) fun r c' h => ?_
  simp only [afterNegotiation, M.bind_apply, M.get_apply] at h
  split at h <;> cases h
  rfl

theorem does_version (bytes : Bytes) (c : Ctx) : Does (checkVersion bytes) c (fun r c' => c' = c ∧
    ∃ v k t, bytes = v :: k :: t ∧ SpdmVersion.ofCode v = c.neg.version ∧ r = ⟨t, 2⟩) := by
  refine Does.of (fun _ _ h => checkVersion_ok h) fun r c' h => ?_
  match bytes with
  | [] =>
    obtain ⟨r, h1⟩ := header_read_short (b := []) (by simp)
    simp [checkVersion, header, h1] at h
    rw [← h.1]
  | [a] =>
    obtain ⟨r, h1⟩ := header_read_short (b := [a]) (by simp)
    simp [checkVersion, header, h1] at h
    rw [← h.1]
  | v :: k :: t =>
    simp only [checkVersion, header, header_read, M.bind_apply, M.pure_apply, M.get_apply] at h
    split at h <;> cases h
    rfl

theorem does_read {α : Type} (x : Cc → Rd α) (bytes : Bytes) (r : Reader) (c : Ctx) : Does (readReq x bytes r) c (fun p c' => c' = c ∧
    ∃ r', x c.cc r = .ok p.1 r' ∧ p.2 = bytes.take r'.used) := by
  refine Does.of (fun ⟨a, req⟩ _ h => readReq_ok h) fun p c' h => ?_
  simp only [readReq, M.bind_apply, M.get_apply] at h
  cases hx : x c.cc r with
  | panic => simp [hx] at h
  | err u s => simp [hx] at h; rw [← h.1]
  | ok b r' => simp [hx] at h

theorem does_modify (f : Ctx → Ctx) (c : Ctx) : Does (M.modify f) c (fun _ c' => c' = f c) := by
  unfold Does; rw [M.wp_modify]
theorem does_get (c : Ctx) : Does M.get c (fun a c' => a = c ∧ c' = c) := by
  unfold Does; rw [M.wp_get]; exact ⟨rfl, rfl⟩
theorem does_pure {α : Type} (a : α) (c : Ctx) : Does (pure a) c (fun b c' => b = a ∧ c' = c) := by
  unfold Does; rw [M.wp_pure]; exact ⟨rfl, rfl⟩
theorem does_ofOption {α : Type} (code : ErrorCode) (data : UInt8) (o : Option α) (c : Ctx) :
    Does (M.ofOption { code := code, data := data } o) c (fun a c' => o = some a ∧ c' = c) :=
  Does.of (fun _ _ h => ofOption_ok.1 h) fun r c' h => by cases o <;> simp at h; rw [← h.1]
theorem does_unwrap {α : Type} (o : Option α) (c : Ctx) : Does (M.unwrap o) c (fun a c' => o = some a ∧ c' = c) :=
  Does.of (fun _ _ h => unwrap_ok.1 h) fun r c' h => by cases o <;> simp at h
theorem does_liftH {α : Type} (code : ErrorCode) (x : Res α) (c : Ctx) : Does (liftH { code := code } x) c (fun a c' => x = .ok a ∧ c' = c) :=
  Does.of (fun _ _ h => liftH_ok.1 h) fun r c' h => by
    unfold liftH at h
    cases x <;> simp [Res.lift, M.mapErr] at h
    rw [← h.1]
theorem does_orUnspecified {α : Type} (x : M Status Ctx α) (c : Ctx) {Q : α → Ctx → Prop} (h : ∀ a c', x c = .ok a c' → Q a c') :
    Does (orUnspecified x) c Q :=
  Does.of (fun _ _ hh => h _ _ (orUnspecified_ok.1 hh)) fun r c' hh => by
    unfold orUnspecified M.mapErr at hh
    cases hx : x c <;> rw [hx] at hh <;> cases hh
    rfl
/-- an append that cannot fail. -/
theorem does_appended {α : Type} (b : Bytes) (x : M Status Ctx α) (c : Ctx) {a : α} {c1 : Ctx} (h : x c = .ok a c1) :
    Does (orAppended b x) c (fun a' c' => a' = a ∧ c' = c1) := by
  unfold Does M.wp
  rw [orAppended_ok.2 h]; exact ⟨rfl, rfl⟩
theorem does_eq {α : Type} {x : H α} {c c1 : Ctx} {a : α} (h : x c = .ok a c1) : Does x c (fun a' c' => a' = a ∧ c' = c1) := by
  unfold Does M.wp
  rw [h]; exact ⟨rfl, rfl⟩
theorem does_encode {k : ReqRespCode} {p : Payload} {c : Ctx} {w : Bytes} (hw : Writes (p.encode c.cc) w) (hl : w.length + 2 ≤ msgSize) :
    Does (encodeRsp k p) c (fun b c' => b = c.neg.version.get :: k.get :: w ∧ c' = c) := by
  unfold Does M.wp
  rw [encodeRsp_writes hw hl]; exact ⟨rfl, rfl⟩

theorem does_summary (t : SummaryHashType) (c : Ctx) : Does (do let s ← summaryHash e t; M.ofOption { code := .unspecified } s) c
    (fun s c' => SummaryIs e c t s ∧ c' = { c with rt := { c.rt with needSummary := wantsSummary t } }) := by
  have h : ∀ c : Ctx, (summaryHash e t : H (Option Bytes)) c =
      .ok (if wantsSummary t then (match e.summary c.neg.version c.neg.baseHash c.neg.measSpec c.neg.measHash t with
        | none => none
        | some h => if h.length = 0 then none else some h) else some []) { c with rt := { c.rt with needSummary := wantsSummary t } } := by
    intro c
    unfold summaryHash wantsSummary
    by_cases h : t = .tcb ∨ t = .all
    · simp only [h, if_true, M.bind_apply, M.modify_apply, M.get_apply, decide_true]
      cases e.summary c.neg.version c.neg.baseHash c.neg.measSpec c.neg.measHash t with
      | none => rfl
      | some h => dsimp only; split <;> rfl
    · simp [h]
  unfold Does
  rw [M.wp_bind, M.wp, h]
  dsimp only
  unfold SummaryIs
  cases hw : wantsSummary t with
  | false => simp [M.wp]
  | true =>
    simp only [if_true]
    cases hs : e.summary c.neg.version c.neg.baseHash c.neg.measSpec c.neg.measHash t with
    | none => simp [M.wp]
    | some d =>
      dsimp only
      by_cases hd : d.length = 0
      · simp [M.wp, hd]
      · simp only [hd, if_false, M.wp, M.ofOption_some, true_and, and_true]
        exact fun h => hd (by rw [h]; rfl)

theorem sendError_ok {ε : Type} (code : ErrorCode) (c : Ctx) : (∃ c', (sendError e code : M ε Ctx Unit) c = .ok () c') ∨ (sendError e code : M ε Ctx Unit) c = .panic := by
  unfold sendError
  rw [M.bind_apply, M.get_apply]
  dsimp only
  rw [M.bind_apply]
  cases hw : writeError c { code := code } with
  | none => exact .inr rfl
  | some b =>
    rw [M.unwrap_some]
    dsimp only
    unfold quiet
    cases sendMessage e b c with
    | ok _ c' => exact .inl ⟨c', rfl⟩
    | err _ c' => exact .inl ⟨c', rfl⟩
    | panic => exact .inr rfl

theorem does_sendError (code : ErrorCode) (c : Ctx) : Does (sendError e code) c (fun _ c' => (sendError e code : H Unit) c = .ok () c') := by
  refine Does.of (fun _ _ h => h) fun r c' h => ?_
  rcases sendError_ok (e := e) (ε := Reply) code c with ⟨_, h'⟩ | h' <;> rw [h'] at h <;> cases h

/-- the summary provider returns digests of the size of the negotiated hash. -/
def SummaryLaw (e : Env) : Prop := ∀ v h s m t d, e.summary v h s m t = some d → BaseHash.size? h = some d.length

/-- the provider of random bytes returns what was asked for. -/
theorem random_length {n : Nat} {b : Bytes} (h : Ctx.random e n = some b) : b.length = n := by
  unfold Ctx.random at h
  cases hr : e.random n with
  | none => simp [hr] at h
  | some r => simp [hr] at h; rw [← h]; simp

theorem hashSize_le {c : Cc} {n : Nat} (h : c.hashSize? = some n) : n ≤ 64 := by
  unfold Cc.hashSize? BaseHash.size? at h
  repeat' split at h
  all_goals first | (cases h; decide) | cases h

theorem asymSize_le {c : Cc} {n : Nat} (h : c.asymSize? = some n) : n ≤ 512 := by
  unfold Cc.asymSize? BaseAsym.size? at h
  repeat' split at h
  all_goals first | (cases h; decide) | cases h

theorem addB_some (msg : Bytes) (c : Ctx) : (addB msg c).rt.m1m2.isSome = true := rfl

theorem appendM1M2_some (st : Status) (msg : Bytes) (c : Ctx) (h : c.rt.m1m2.isSome = true) : Ctx.appendM1M2 e st msg c = .ok () (addB msg c) := by
  rw [appendM1M2_eq, if_pos (.inl h)]

/-! ### CHALLENGE -/

/-- everything a CHALLENGE needs. -/
structure ChallengeValid (e : Env) (c : Ctx) (bytes : Bytes) (m : Challenge) (req sum certHash nonce : Bytes) (asym : Nat) : Prop where
  ready : ConnState.negotiated.code ≤ c.rt.state.code
  wire : ∃ v k t r', bytes = v :: k :: t ∧ SpdmVersion.ofCode v = c.neg.version ∧ Challenge.read c.cc ⟨t, 2⟩ = .ok m r' ∧ req = bytes.take r'.used
  summary : SummaryIs e c m.summary sum
  chain : ∃ chain, localChain c m.slot = some chain ∧ e.crypto.hash c.neg.baseHash chain = some certHash
  nonce : Ctx.random e 32 = some nonce
  asym : c.cc.asymSize? = some asym

/-- CHALLENGE_AUTH up to the signature. -/
def challengeBody (version slot : UInt8) (certHash nonce sum : Bytes) : Bytes :=
  [version, 0x03, slot, 1] ++ certHash ++ nonce ++ sum ++ [0, 0]

/-- the context whose transcript is signed. -/
def challengeCtx (c : Ctx) (m : Challenge) (req body : Bytes) : Ctx :=
  addB body (addB req { Ctx.resetBuffers .reqChallenge none c with
    rt := { (Ctx.resetBuffers .reqChallenge none c).rt with needSummary := wantsSummary m.summary } })

theorem challenge_does (hl : HashLaw e) (hsl : SummaryLaw e) (bytes : Bytes) (c : Ctx) : Does (challengeRsp e bytes) c (fun b c' =>
    ∃ m req sum certHash nonce asym, ChallengeValid e c bytes m req sum certHash nonce asym ∧
      let body := challengeBody c.neg.version.get m.slot certHash nonce sum
      ((∃ sig, challengeSig e (challengeCtx c m req body) = .ok sig ∧ sig.length = asym ∧ b = body ++ sig ∧
          c' = Ctx.resetM1M2 (challengeCtx c m req body)) ∨
       (∃ st, challengeSig e (challengeCtx c m req body) = .err st ∧ b = body ++ List.replicate asym 0xbb ∧
          (sendError e .unspecified : H Unit) (challengeCtx c m req body) = .ok () c'))) := by
  unfold challengeRsp
  refine (does_ready c).bind ?_
  rintro _ _ ⟨rfl, hready⟩
  refine (does_version bytes _).bind ?_
  rintro r c1 ⟨rfl, v, k, t, rfl, hv, rfl⟩
  refine (does_modify _ _).bind ?_
  rintro _ c2 rfl
  obtain ⟨q1, q2, q3, q4, q5⟩ := reset_fields .reqChallenge c1
  refine (does_read _ _ _ _).bind ?_
  rintro ⟨m, req⟩ c3 ⟨rfl, r', hr, hreq⟩
  rw [q1] at hr
  dsimp only at hr hreq ⊢
  rw [← bind_assoc']
  refine (does_summary _ _).bind ?_
  rintro sum c4 ⟨hsum, rfl⟩
  have hsum : SummaryIs e c1 m.summary sum := by
    unfold SummaryIs at hsum ⊢; rw [q5] at hsum; exact hsum
  refine (does_get _).bind ?_
  rintro _ c5 ⟨rfl, rfl⟩
  refine (does_ofOption _ _ _ _).bind ?_
  rintro chain c6 ⟨hch, rfl⟩
  have hch : localChain c1 m.slot = some chain := by
    unfold localChain at hch ⊢; dsimp only at hch; rw [q3] at hch; exact hch
  refine (does_orUnspecified (Q := fun _ c' => c' = addB req { Ctx.resetBuffers .reqChallenge none c1 with
    rt := { (Ctx.resetBuffers .reqChallenge none c1).rt with needSummary := wantsSummary m.summary } }) _ _ (fun _ _ h => appendM1M2_ok h)).bind ?_
  rintro _ c7 rfl
  refine (does_unwrap _ _).bind ?_
  rintro certHash c8 ⟨hcert, rfl⟩
  dsimp only at hcert
  rw [q5] at hcert
  refine (does_ofOption _ _ _ _).bind ?_
  rintro nonce c9 ⟨hnonce, rfl⟩
  refine (does_unwrap _ _).bind ?_
  rintro asym c10 ⟨hasym, rfl⟩
  have hasym : c1.cc.asymSize? = some asym := by
    have : (Ctx.cc { Ctx.resetBuffers .reqChallenge none c1 with
      rt := { (Ctx.resetBuffers .reqChallenge none c1).rt with needSummary := wantsSummary m.summary } }).asymSize? = c1.cc.asymSize? := by
      unfold Cc.asymSize? Ctx.cc; dsimp only; rw [q5]
    rw [← this]; exact hasym
  have hvalid : ChallengeValid e c1 (v :: k :: t) m req sum certHash nonce asym :=
    ⟨hready, ⟨v, k, t, r', rfl, hv, hr, hreq⟩, hsum, ⟨chain, hch, hcert⟩, hnonce, hasym⟩
  generalize hc : (addB req { Ctx.resetBuffers .reqChallenge none c1 with
    rt := { (Ctx.resetBuffers .reqChallenge none c1).rt with needSummary := wantsSummary m.summary } }) = c11
  have hneg : c11.neg = c1.neg := by rw [← hc]; exact q5
  have hns : c11.cc.needSummary = wantsSummary m.summary := by rw [← hc]; rfl
  have hm12 : c11.rt.m1m2.isSome = true := by rw [← hc]; rfl
  have hhs : c11.cc.hashSize? = BaseHash.size? c1.neg.baseHash := by unfold Cc.hashSize? Ctx.cc; rw [hneg]
  have has : c11.cc.asymSize? = some asym := by
    rw [← hasym]; unfold Cc.asymSize? Ctx.cc; rw [hneg]
  have hslot : m.slot < 8 := by
    unfold localChain Ctx.slot? at hch
    split at hch
    · rename_i h; exact UInt8.lt_iff_toNat_lt.2 h
    · cases hch
  have hcd : c11.cc.hashSize? = some certHash.length := by rw [hhs]; exact hl _ _ _ hcert
  have hso : OptOk c11.cc.needSummary c11.cc.DigestOk sum := by
    unfold OptOk SummaryIs at *
    rw [hns]
    split
    · rename_i hw; rw [if_pos hw] at hsum; unfold Cc.DigestOk; rw [hhs]; exact hsl _ _ _ _ _ _ hsum.1
    · rename_i hw; rw [if_neg hw] at hsum; exact hsum
  have hwf : ChallengeAuth.WF c11.cc ⟨m.slot, 0, 1, certHash, nonce, sum, [], List.replicate asym 0xbb⟩ := by
    refine ⟨UInt8.lt_iff_toNat_lt.2 (by have := UInt8.lt_iff_toNat_lt.1 hslot; simp at this ⊢; omega), .inl rfl, hcd, random_length hnonce, hso, by simp, ?_⟩
    unfold Cc.SigOk; rw [has]; simp
  have hsl64 : sum.length ≤ 64 := by
    unfold OptOk at hso
    split at hso
    · exact hashSize_le hso
    · rw [hso]; simp
  have hsopt : optWire c11.cc.needSummary sum = sum := by
    unfold OptOk at hso; unfold optWire
    split
    · rfl
    · rename_i hw; rw [if_neg hw] at hso; exact hso.symm
  have hbody : c11.neg.version.get :: 0x03 :: ChallengeAuth.wire c11.cc ⟨m.slot, 0, 1, certHash, nonce, sum, [], List.replicate asym 0xbb⟩ =
      challengeBody c1.neg.version.get m.slot certHash nonce sum ++ List.replicate asym 0xbb := by
    have hz : opaqueWire [] = [0, 0] := by decide
    simp [ChallengeAuth.wire, challengeBody, hsopt, hz, hneg]
  refine (does_encode (p := .challengeAuth _) (ChallengeAuth.encode_writes hwf) ?_).bind ?_
  · have h1 := hashSize_le hcd
    have h2 := asymSize_le has
    have h3 := random_length hnonce
    have hz : (opaqueWire []).length = 2 := by decide
    simp only [ChallengeAuth.wire, hsopt, List.length_append, List.length_cons, List.length_nil, List.length_replicate, msgSize, h3, hz]
    omega
  rintro rsp c12 ⟨rfl, rfl⟩
  have h03 : ReqRespCode.rspChallengeAuth.get = 0x03 := rfl
  rw [h03, hbody]
  generalize hbd : challengeBody c1.neg.version.get m.slot certHash nonce sum = body at *
  refine (does_liftH _ _ _).bind ?_
  rintro body' c13 ⟨hdt, rfl⟩
  obtain rfl : body' = body := by rw [(dropTail_ok hdt).2]; exact take_front asym _ _ (by simp)
  refine (does_appended _ _ _ (appendM1M2_some _ _ _ hm12)).bind ?_
  rintro _ c14 ⟨_, rfl⟩
  have hcc : addB body' c13 = challengeCtx c1 m req body' := by unfold challengeCtx; rw [hc]
  rw [hcc]
  unfold finishChallenge
  refine (does_get _).bind ?_
  rintro _ c15 ⟨rfl, rfl⟩
  cases hsig : challengeSig e (challengeCtx c1 m req body') with
  | panic => exact trivial
  | err st =>
    dsimp only
    refine (does_sendError _ _).bind ?_
    intro _ c' h
    refine (does_pure _ _).mono ?_
    rintro _ _ ⟨rfl, rfl⟩
    refine ⟨m, req, sum, certHash, nonce, asym, hvalid, ?_⟩
    rw [hbd]
    exact .inr ⟨st, hsig, rfl, h⟩
  | ok sig =>
    dsimp only
    refine (does_liftH _ _ _).bind ?_
    rintro out c16 ⟨hp, rfl⟩
    obtain ⟨_, hlen, rfl⟩ := patchTail_ok hp
    refine (does_modify _ _).bind ?_
    rintro _ c17 rfl
    refine (does_pure _ _).mono ?_
    rintro _ _ ⟨rfl, rfl⟩
    refine ⟨m, req, sum, certHash, nonce, asym, hvalid, ?_⟩
    rw [hbd]
    refine .inl ⟨sig, hsig, hlen, ?_, rfl⟩
    rw [take_front asym _ _ (by simp)]

/-! ### GET_DIGESTS and GET_CERTIFICATE outside a session -/

theorem appendB_second (b : Bytes) (c : Ctx) (h : c.rt.m1m2.isSome = true) : appendBPlain e none b c = .ok () (addB b c) := appendM1M2_some _ _ _ h

theorem noParams_read {t : Bytes} {u : Unit} {r' : Reader} (h : rdNoParams ⟨t, 2⟩ = .ok u r') : ∃ p1 p2 t', t = p1 :: p2 :: t' ∧ r' = ⟨t', 4⟩ := by
  unfold rdNoParams at h
  obtain ⟨p1, r1, h1, h2⟩ := M.bind_ok.1 h
  obtain ⟨p2, r2, h3, h4⟩ := M.bind_ok.1 h2
  cases h4
  rw [rdU8_ok] at h1 h3
  obtain ⟨k1, k2⟩ := h1.trans h3
  obtain ⟨rest, used⟩ := r'
  simp at k1 k2
  exact ⟨p1, p2, rest, k1, by simp [k2]⟩

theorem patchDigests_congr {c c' : Ctx} (h1 : c'.prov = c.prov) (h2 : c'.neg = c.neg) : ∀ (is : List (Fin 8)) (b : Bytes), patchDigests e c' is b = patchDigests e c is b
  | [], b => rfl
  | i :: is, b => by
    unfold patchDigests
    rw [h1, h2]
    cases c.prov.chain i with
    | none => exact patchDigests_congr h1 h2 is b
    | some ch => simp only [patchDigests_congr h1 h2 is]

/-- the DIGESTS message before the digests are filled in. -/
def digestFrame (version : UInt8) (p : Provision) (hs : Nat) : Bytes :=
  [version, 0x01, 0, slotMask p] ++ List.replicate (slotCount (slotMask p) * hs) 0xff

theorem digest_does (bytes : Bytes) (c : Ctx) : Does (digestRsp e none bytes) c (fun b c' =>
    ConnState.negotiated.code ≤ c.rt.state.code ∧ ∃ v k p1 p2 t hs, bytes = v :: k :: p1 :: p2 :: t ∧ SpdmVersion.ofCode v = c.neg.version ∧
      c.cc.hashSize? = some hs ∧ patchDigests e c (List.finRange 8) (digestFrame v c.prov hs) = .ok b ∧
      c' = addB b (addB [v, k, p1, p2] (Ctx.resetBuffers .reqGetDigests none c))) := by
  unfold digestRsp
  refine (does_ready c).bind ?_
  rintro _ _ ⟨rfl, hready⟩
  refine (does_version bytes _).bind ?_
  rintro r c1 ⟨rfl, v, k, t, rfl, hv, rfl⟩
  refine (does_modify _ _).bind ?_
  rintro _ c2 rfl
  obtain ⟨q1, q2, q3, q4, q5⟩ := reset_fields .reqGetDigests c1
  refine (does_read _ _ _ _).bind ?_
  rintro ⟨m, req⟩ c3 ⟨rfl, r', hr, hreq⟩
  obtain ⟨p1, p2, t, rfl, rfl⟩ := noParams_read hr
  have hreq : req = [v, k, p1, p2] := hreq
  subst hreq
  dsimp only
  refine (does_orUnspecified (Q := fun _ c' => c' = addB [v, k, p1, p2] (Ctx.resetBuffers .reqGetDigests none c1)) _ _ (fun _ _ h => appendM1M2_ok h)).bind ?_
  rintro _ c4 rfl
  refine (does_get _).bind ?_
  rintro _ c5 ⟨rfl, rfl⟩
  refine (does_unwrap _ _).bind ?_
  rintro hs c6 ⟨hhs, rfl⟩
  generalize hc : addB [v, k, p1, p2] (Ctx.resetBuffers .reqGetDigests none c1) = c7 at *
  have hneg : c7.neg = c1.neg := by rw [← hc]; exact q5
  have hprov : c7.prov = c1.prov := by rw [← hc]; exact q3
  have hm12 : c7.rt.m1m2.isSome = true := by rw [← hc]; rfl
  have hhs1 : c1.cc.hashSize? = some hs := by rw [← hhs]; unfold Cc.hashSize? Ctx.cc; rw [hneg]
  have hvg : c7.neg.version.get = v := by rw [hneg, ← hv]; simp
  have hcount : slotCount (slotMask c7.prov) ≤ 8 := by
    have key : ∀ n : Fin 256, slotCount (UInt8.ofNat n.val) ≤ 8 := by set_option maxRecDepth 20000 in decide
    have := key ⟨(slotMask c7.prov).toNat, (slotMask c7.prov).toNat_lt⟩
    simpa using this
  have hw : Writes (Digests.encode c7.cc ⟨slotMask c7.prov, List.replicate 8 (List.replicate hs 0xff)⟩)
      ([0] ++ [slotMask c7.prov] ++ List.replicate (slotCount (slotMask c7.prov) * hs) 0xff) := by
    have hd : Writes (encN (encDigest c7.cc) ((List.replicate 8 (List.replicate hs (0xff : UInt8))).take (slotCount (slotMask c7.prov))))
        (((List.replicate 8 (List.replicate hs (0xff : UInt8))).take (slotCount (slotMask c7.prov))).flatMap id) :=
      Writes.repeat _ fun d hd => encDigest_writes (by
        have := List.eq_of_mem_replicate (List.mem_of_mem_take hd)
        unfold Cc.DigestOk; rw [hhs, this]; simp)
    unfold Digests.encode
    apply Writes.cast
    · wr
    simp only [List.take_replicate, Nat.min_eq_left hcount]
    have : ∀ n, (List.replicate n (List.replicate hs (0xff : UInt8))).flatMap id = List.replicate (n * hs) 0xff := by
      intro n
      induction n with
      | zero => simp
      | succ n ih => rw [List.replicate_succ, List.flatMap_cons, ih, Nat.succ_mul, Nat.add_comm, ← List.replicate_append_replicate]; rfl
    simp [this]
  refine (does_encode (p := .digests _) hw ?_).bind ?_
  · have := hashSize_le hhs
    have := Nat.mul_le_mul hcount this
    simp [msgSize]; omega
  rintro rsp c8 ⟨rfl, rfl⟩
  refine (does_liftH _ _ _).bind ?_
  rintro b c9 ⟨hp, rfl⟩
  refine (does_appended _ _ _ (appendB_second b _ hm12)).bind ?_
  rintro _ c10 ⟨_, rfl⟩
  refine (does_pure _ _).mono ?_
  rintro _ _ ⟨rfl, rfl⟩
  refine ⟨hready, v, k, p1, p2, t, hs, rfl, hv, hhs1, ?_, by rw [hc]⟩
  rw [patchDigests_congr hprov hneg] at hp
  rw [← hp]
  congr 1
  have h01 : ReqRespCode.rspDigests.get = 0x01 := rfl
  simp [digestFrame, hvg, hprov, h01]

theorem certificate_does (bytes : Bytes) (c : Ctx) (hsz : ∀ i ch, c.prov.chain i = some ch → ch.length < 65536) : Does (certificateRsp e none bytes) c (fun b c' =>
    ConnState.negotiated.code ≤ c.rt.state.code ∧ ∃ v k p off len t chain, bytes = [v, k, 0, p] ++ putU16 off ++ putU16 len ++ t ∧
      SpdmVersion.ofCode v = c.neg.version ∧ c.prov.chain 0 = some chain ∧ off.toNat ≤ chain.length ∧ b = Props.certMessage v chain off.toNat len.toNat ∧
      c' = addB b (addB ([v, k, 0, p] ++ putU16 off ++ putU16 len) (Ctx.resetBuffers .reqGetCertificate none c))) := by
  unfold certificateRsp
  refine (does_ready c).bind ?_
  rintro _ _ ⟨rfl, hready⟩
  refine (does_version bytes _).bind ?_
  rintro r c1 ⟨rfl, v, k, t, rfl, hv, rfl⟩
  refine (does_modify _ _).bind ?_
  rintro _ c2 rfl
  obtain ⟨q1, q2, q3, q4, q5⟩ := reset_fields .reqGetCertificate c1
  refine (does_read _ _ _ _).bind ?_
  rintro ⟨m, req⟩ c3 ⟨rfl, r', hr, hreq⟩
  dsimp only at hr hreq ⊢
  by_cases hslot : m.slot ≠ 0
  · rw [if_pos hslot]; exact rfl
  rw [if_neg hslot]
  have hslot : m.slot = 0 := Decidable.not_not.1 hslot
  obtain ⟨p, ht, hu⟩ : ∃ p, t = [0, p] ++ putU16 m.offset ++ putU16 m.length ++ r'.rest ∧ r'.used = 8 := by
    unfold GetCert.read at hr
    obtain ⟨slot, r1, h1, h2⟩ := M.bind_ok.1 hr
    obtain ⟨p, r2, h3, h4⟩ := M.bind_ok.1 h2
    obtain ⟨off, r3, h5, h6⟩ := M.bind_ok.1 h4
    obtain ⟨len, r4, h7, h8⟩ := M.bind_ok.1 h6
    cases h8
    rw [rdU8_ok] at h1 h3
    rw [rdU16_ok] at h5 h7
    obtain ⟨k1, k2⟩ := ((h1.trans h3).trans h5).trans h7
    dsimp only at hslot
    subst hslot
    refine ⟨p, by simpa using k1, ?_⟩
    simpa [putU16] using k2
  obtain ⟨slot, off, len⟩ := m
  dsimp only at hslot ht
  subst hslot ht
  have hreq : req = [v, k, 0, p] ++ putU16 off ++ putU16 len := by rw [hreq, hu]; simp [putU16]
  subst hreq
  refine (does_orUnspecified (Q := fun _ c' => c' = addB _ (Ctx.resetBuffers .reqGetCertificate none c1)) _ _ (fun _ _ h => appendM1M2_ok h)).bind ?_
  rintro _ c4 rfl
  refine (does_get _).bind ?_
  rintro _ c5 ⟨rfl, rfl⟩
  refine (does_ofOption _ _ _ _).bind ?_
  rintro chain c6 ⟨hch0, rfl⟩
  have hch : c1.prov.chain 0 = some chain := by
    have : localChain (addB ([v, k, 0, p] ++ putU16 off ++ putU16 len) (Ctx.resetBuffers .reqGetCertificate none c1)) 0 = c1.prov.chain 0 := by
      unfold localChain Ctx.slot?
      simp only [addB]
      rw [q3]; rfl
    rw [← this]; exact hch0
  refine (does_ofOption _ _ _ _).bind ?_
  rintro ⟨portion, remainder⟩ c7 ⟨hp, rfl⟩
  generalize hc : addB ([v, k, 0, p] ++ putU16 off ++ putU16 len) (Ctx.resetBuffers .reqGetCertificate none c1) = c8 at *
  have hneg : c8.neg = c1.neg := by rw [← hc]; exact q5
  have hm12 : c8.rt.m1m2.isSome = true := by rw [← hc]; rfl
  have hvg : c8.neg.version.get = v := by rw [hneg, ← hv]; simp
  have hlen := hsz 0 chain hch
  have hszc : (chain.length.toUInt16).toNat = chain.length := UInt16.toNat_ofNat_of_lt' hlen
  rw [Props.certPortion_spec, hszc] at hp
  by_cases hoff : chain.length < off.toNat
  · rw [if_pos hoff] at hp; cases hp
  rw [if_neg hoff] at hp
  have hp := Option.some.inj hp
  obtain ⟨rfl, rfl⟩ := Prod.mk.inj hp
  have hlt : Props.portionLen chain.length off.toNat len.toNat ≤ 512 ∧ Props.portionLen chain.length off.toNat len.toNat ≤ chain.length - off.toNat := by
    unfold Props.portionLen; omega
  have hpn : (UInt16.ofNat (Props.portionLen chain.length off.toNat len.toNat)).toNat = Props.portionLen chain.length off.toNat len.toNat :=
    UInt16.toNat_ofNat_of_lt' (by show _ < 65536; omega)
  have hwf : CertRsp.WF ⟨0, UInt16.ofNat (Props.portionLen chain.length off.toNat len.toNat),
      UInt16.ofNat (chain.length - off.toNat - Props.portionLen chain.length off.toNat len.toNat),
      (chain.drop off.toNat).take (UInt16.ofNat (Props.portionLen chain.length off.toNat len.toNat)).toNat⟩ := by
    constructor
    · simp only [hpn, List.length_take, List.length_drop]; omega
    · simp only [hpn, List.length_take, List.length_drop]; omega
  refine (does_eq (Props.cert_written _ _ hwf)).bind ?_
  rintro rsp c9 ⟨rfl, rfl⟩
  have hb : c9.neg.version.get :: 0x02 :: CertRsp.wire ⟨0, UInt16.ofNat (Props.portionLen chain.length off.toNat len.toNat),
      UInt16.ofNat (chain.length - off.toNat - Props.portionLen chain.length off.toNat len.toNat),
      (chain.drop off.toNat).take (UInt16.ofNat (Props.portionLen chain.length off.toNat len.toNat)).toNat⟩ = Props.certMessage v chain off.toNat len.toNat := by
    rw [hvg, hpn]; simp [CertRsp.wire, Props.certMessage]
  rw [hb]
  refine (does_appended _ _ _ (appendB_second _ _ hm12)).bind ?_
  rintro _ c10 ⟨_, rfl⟩
  refine (does_pure _ _).mono ?_
  rintro _ _ ⟨rfl, rfl⟩
  exact ⟨hready, v, k, p, off, len, r'.rest, chain, by simp, hv, hch, by omega, rfl, by rw [hc]⟩

/-! ### GET_MEASUREMENTS -/

/-- the measurement transcript after `msg` was added. -/
def nextM (c : Ctx) (sid : Option UInt32) (msg : Bytes) : HashCtx :=
  match l1l2? c sid with
  | some x => ⟨x.algo, x.data ++ msg⟩
  | none => ⟨c.neg.baseHash, (if c.cc.ge12 then c.rt.messageA else []) ++ msg⟩

/-- the context after `msg` was added to the measurement transcript. -/
def addM (sid : Option UInt32) (msg : Bytes) (c : Ctx) : Ctx :=
  match sid with
  | none => { c with rt := { c.rt with l1l2 := some (nextM c none msg) } }
  | some i => c.updSession i fun s => { s with l1l2 := some (nextM c (some i) msg) }

theorem startL1L2_ok {c : Ctx} {x : HashCtx} (h : Ctx.startL1L2 e c = some x) : x = ⟨c.neg.baseHash, if c.cc.ge12 then c.rt.messageA else []⟩ := by
  unfold Ctx.startL1L2 Ctx.hashInit at h
  cases hh : e.crypto.hash c.neg.baseHash [] with
  | none => simp [hh] at h
  | some d =>
    simp only [hh, Option.map_some, Option.some.injEq] at h
    rw [← h]
    split <;> simp [Ctx.hashUpdate]

theorem appendM_ok {sid : Option UInt32} {msg : Bytes} {c c' : Ctx} {u : Unit} (h : Ctx.appendM e sid msg c = .ok u c') :
    c' = addM sid msg c ∧ (∀ i, sid = some i → (c.session? i).isSome = true) := by
  unfold Ctx.appendM at h
  simp only [M.bind_apply, M.get_apply] at h
  cases sid with
  | none =>
    refine ⟨?_, fun i h => by cases h⟩
    cases hx : c.rt.l1l2 with
    | some x =>
      simp only [hx, M.set_apply] at h
      cases h
      simp [addM, nextM, l1l2?, hx, Ctx.hashUpdate]
    | none =>
      simp only [hx] at h
      cases hs : Ctx.startL1L2 e c with
      | none => simp [hs] at h
      | some x =>
        have hx' := startL1L2_ok hs
        simp only [hs, M.set_apply] at h
        cases h
        simp [addM, nextM, l1l2?, hx, hx', Ctx.hashUpdate]
  | some i =>
    dsimp only at h
    cases hse : c.session? i with
    | none => simp [hse] at h
    | some s =>
      refine ⟨?_, fun j hj => by cases hj; rw [hse]; rfl⟩
      simp only [hse] at h
      cases hx : s.l1l2 with
      | some x =>
        simp only [hx, M.set_apply] at h
        cases h
        simp [addM, nextM, l1l2?, hse, hx, Ctx.hashUpdate]
      | none =>
        simp only [hx] at h
        cases hs : Ctx.startL1L2 e c with
        | none => simp [hs] at h
        | some x =>
          have hx' := startL1L2_ok hs
          simp only [hs, M.set_apply] at h
          cases h
          simp [addM, nextM, l1l2?, hse, hx, hx', Ctx.hashUpdate]

theorem l1l2_addM {sid : Option UInt32} {msg : Bytes} {c : Ctx} (h : ∀ i, sid = some i → (c.session? i).isSome = true) :
    l1l2? (addM sid msg c) sid = some (nextM c sid msg) ∧ (∀ i, sid = some i → ((addM sid msg c).session? i).isSome = true) := by
  cases sid with
  | none => exact ⟨rfl, fun i h => by cases h⟩
  | some i =>
    have := h i rfl
    cases hs : c.session? i with
    | none => rw [hs] at this; cases this
    | some s =>
      have hid := session?_id hs
      have hu := session?_upd (f := fun s => { s with l1l2 := some (nextM c (some i) msg) }) hs hid
      refine ⟨?_, fun j hj => ?_⟩
      · unfold l1l2? addM; dsimp only; rw [hu]; rfl
      · cases hj; unfold addM; rw [hu]; rfl

/-- once the transcript has started adding to it cannot fail. -/
theorem appendM_some {sid : Option UInt32} {msg : Bytes} {c : Ctx} {x : HashCtx} (h : l1l2? c sid = some x) : Ctx.appendM e sid msg c = .ok () (addM sid msg c) := by
  unfold Ctx.appendM
  rw [M.bind_apply, M.get_apply]
  cases sid with
  | none =>
    have hx : c.rt.l1l2 = some x := h
    simp [hx, addM, nextM, l1l2?, Ctx.hashUpdate]
  | some i =>
    unfold l1l2? at h
    dsimp only at h
    cases hs : c.session? i with
    | none => rw [hs] at h; cases h
    | some s =>
      have hx : s.l1l2 = some x := by rw [hs] at h; exact h
      simp [hs, hx, addM, nextM, l1l2?, Ctx.hashUpdate]

theorem addM_fields (sid : Option UInt32) (msg : Bytes) (c : Ctx) : (addM sid msg c).neg = c.neg ∧ (addM sid msg c).config = c.config ∧ (addM sid msg c).prov = c.prov ∧
    (addM sid msg c).cc = c.cc ∧ (addM sid msg c).rt.messageA = c.rt.messageA ∧ (addM sid msg c).rt.m1m2 = c.rt.m1m2 ∧ (addM sid msg c).rt.state = c.rt.state ∧ (addM sid msg c).sent = c.sent ∧
    (addM sid msg c).rt.contentChanged = c.rt.contentChanged := by
  cases sid <;> exact ⟨rfl, rfl, rfl, rfl, rfl, rfl, rfl, rfl, rfl⟩

/-- number of blocks and record returned for a request: all blocks, only their number, or the block asked for. -/
def MeasuredAs (e : Env) (c : Ctx) (op : MeasOperation) (number : UInt8) (record : MeasRecord) : Prop :=
  ∃ total, e.measure c.neg.version c.neg.measSpec c.neg.measHash 0 = some total ∧
    match op with
    | .requestAll => number = total.blocks ∧ e.measure c.neg.version c.neg.measSpec c.neg.measHash 0xFF = some record
    | .queryTotalNumber => number = total.blocks ∧ record = ⟨0, []⟩
    | .unknown i => number = 1 ∧ i ≤ total.blocks ∧ e.measure c.neg.version c.neg.measSpec c.neg.measHash i.toNat = some record

theorem does_measure (c0 : Ctx) (op : MeasOperation) (c : Ctx) : Does (measureBlocks e c0 op) c (fun p c' => c' = c ∧ MeasuredAs e c0 op p.1 p.2) := by
  unfold measureBlocks
  refine (does_unwrap _ _).bind ?_
  rintro total c1 ⟨ht, rfl⟩
  cases op with
  | requestAll =>
    refine (does_unwrap _ _).bind ?_
    rintro r c2 ⟨hr, rfl⟩
    refine (does_pure _ _).mono ?_
    rintro _ _ ⟨rfl, rfl⟩
    exact ⟨rfl, total, ht, rfl, hr⟩
  | queryTotalNumber =>
    refine (does_pure _ _).mono ?_
    rintro _ _ ⟨rfl, rfl⟩
    exact ⟨rfl, total, ht, rfl, rfl⟩
  | unknown i =>
    dsimp only
    by_cases hi : i > total.blocks
    · rw [if_pos hi]; exact rfl
    · rw [if_neg hi]
      refine (does_unwrap _ _).bind ?_
      rintro r c2 ⟨hr, rfl⟩
      refine (does_pure _ _).mono ?_
      rintro _ _ ⟨rfl, rfl⟩
      refine ⟨rfl, total, ht, rfl, ?_, hr⟩
      simpa using hi

/-- the records of the measurement provider leave room for the rest of the message. -/
def RecordLaw (e : Env) : Prop := ∀ v s h i r, e.measure v s h i = some r → r.data.length ≤ 3500

/-- everything a GET_MEASUREMENTS needs. -/
structure MeasurementValid (e : Env) (c : Ctx) (bytes : Bytes) (m : GetMeas) (req : Bytes) (number : UInt8) (record : MeasRecord) (nonce : Bytes) (asym : Nat) : Prop where
  ready : ConnState.negotiated.code ≤ c.rt.state.code
  wire : ∃ v k t r', bytes = v :: k :: t ∧ SpdmVersion.ofCode v = c.neg.version ∧ GetMeas.read c.cc ⟨t, 2⟩ = .ok m r' ∧ req = bytes.take r'.used
  slot : if m.signed then (localChain c m.slot).isSome = true else m.slot = 0
  measured : MeasuredAs e c m.op number record
  nonce : Ctx.random e 32 = some nonce
  asym : c.cc.asymSize? = some asym

/-- what the response says about changed measurements. -/
def contentChanged (c : Ctx) : UInt8 := if c.config.contentChange ∧ c.cc.ge12 then c.rt.contentChanged else 0

/-- the second parameter: the slot and, from 1.2 on, whether the content changed, in a signed response only. -/
def measParam2 (c : Ctx) (signed : Bool) (slot : UInt8) : UInt8 :=
  if signed = false then 0 else if c.cc.ge12 then slot ||| contentChanged c else if c.cc.ge11 then slot else 0

/-- MEASUREMENTS up to the signature. -/
def measBody (version number param2 : UInt8) (record : MeasRecord) (nonce : Bytes) : Bytes :=
  [version, 0x60, if number = 1 then 0 else number, param2] ++ ([record.blocks] ++ putU24 record.data.length.toUInt32 ++ record.data) ++ nonce ++ [0, 0]

/-- the context before anything is added. -/
def measStart (sid : Option UInt32) (c : Ctx) (signed : Bool) : Ctx :=
  { Ctx.resetBuffers .reqGetMeasurements sid c with rt := { (Ctx.resetBuffers .reqGetMeasurements sid c).rt with needSig := signed } }

theorem resetMeas_fields (sid : Option UInt32) (c : Ctx) : Ctx.resetBuffers .reqGetMeasurements sid c =
    { c with rt := { c.rt with m1m2 := if c.rt.state.code < 5 then none else c.rt.m1m2 } } := by
  unfold Ctx.resetBuffers
  simp only [ne_eq, not_true, if_false]
  split <;> rfl

theorem measurement_does (hrl : RecordLaw e) (sid : Option UInt32) (bytes : Bytes) (c : Ctx) : Does (measurementRsp e sid bytes) c (fun b c' =>
    ∃ m req number record nonce asym, MeasurementValid e c bytes m req number record nonce asym ∧ (∀ i, sid = some i → (c.session? i).isSome = true) ∧
      let body := measBody c.neg.version.get number (measParam2 c m.signed m.slot) record nonce
      let c2 := addM sid body (addM sid req (measStart sid c m.signed))
      if m.signed then
        (∃ sig, measurementSig e sid c2 = .ok sig ∧ sig.length = asym ∧ b = body ++ sig ∧ c' = Ctx.resetM sid c2) ∨
        (∃ st, measurementSig e sid c2 = .err st ∧ b = body ++ List.replicate asym 0x60 ∧ (sendError e .unspecified : H Unit) c2 = .ok () c')
      else b = body ∧ c' = c2) := by
  unfold measurementRsp
  refine (does_ready c).bind ?_
  rintro _ _ ⟨rfl, hready⟩
  refine (does_version bytes _).bind ?_
  rintro r c1 ⟨rfl, v, k, t, rfl, hv, rfl⟩
  refine (does_modify _ _).bind ?_
  rintro _ c2 rfl
  have hcc : (Ctx.resetBuffers .reqGetMeasurements sid c1).cc = c1.cc := by rw [resetMeas_fields]; rfl
  have hneg : (Ctx.resetBuffers .reqGetMeasurements sid c1).neg = c1.neg := by rw [resetMeas_fields]
  have hprov : (Ctx.resetBuffers .reqGetMeasurements sid c1).prov = c1.prov := by rw [resetMeas_fields]
  have hcfg : (Ctx.resetBuffers .reqGetMeasurements sid c1).config = c1.config := by rw [resetMeas_fields]
  have hchg : (Ctx.resetBuffers .reqGetMeasurements sid c1).rt.contentChanged = c1.rt.contentChanged := by rw [resetMeas_fields]
  refine (does_read _ _ _ _).bind ?_
  rintro ⟨m, req⟩ c3 ⟨rfl, r', hr, hreq⟩
  rw [hcc] at hr
  dsimp only at hr hreq ⊢
  refine (does_get _).bind ?_
  rintro _ c4 ⟨rfl, rfl⟩
  refine (does_unwrap _ _).bind ?_
  rintro asym c5 ⟨hasym, rfl⟩
  rw [hcc] at hasym
  have hslot : Does (measurementSlot m) (Ctx.resetBuffers .reqGetMeasurements sid c1) (fun _ c' => c' = measStart sid c1 m.signed ∧
      if m.signed then (localChain c1 m.slot).isSome = true else m.slot = 0) := by
    unfold measurementSlot
    refine (does_modify _ _).bind ?_
    rintro _ c2 rfl
    refine (does_get _).bind ?_
    rintro _ c3 ⟨rfl, rfl⟩
    cases hsg : m.signed with
    | true =>
      simp only [if_true]
      refine (does_ofOption _ _ _ _).bind ?_
      rintro ch c4 ⟨h, rfl⟩
      refine (does_pure _ _).mono ?_
      rintro _ _ ⟨_, rfl⟩
      refine ⟨rfl, ?_⟩
      unfold localChain at h ⊢
      dsimp only at h
      rw [hprov] at h
      rw [h]; rfl
    | false =>
      simp only [Bool.false_eq_true, if_false]
      by_cases h0 : m.slot ≠ 0
      · rw [if_pos h0]; exact rfl
      · rw [if_neg h0]
        refine (does_pure _ _).mono ?_
        rintro _ _ ⟨_, rfl⟩
        exact ⟨rfl, Decidable.not_not.1 h0⟩
  refine hslot.bind ?_
  rintro _ c6 ⟨rfl, hsl⟩
  refine (does_orUnspecified (Q := fun _ c' => c' = addM sid req (measStart sid c1 m.signed) ∧
    ∀ i, sid = some i → ((measStart sid c1 m.signed).session? i).isSome = true) _ _ (fun _ _ h => appendM_ok h)).bind ?_
  rintro _ c7 ⟨rfl, hsess⟩
  obtain ⟨hl1, hsess2⟩ := l1l2_addM (msg := req) hsess
  have hsess1 : ∀ i, sid = some i → (c1.session? i).isSome = true := by
    intro i hi
    have := hsess i hi
    unfold measStart at this
    rw [resetMeas_fields] at this
    exact this
  obtain ⟨g1, g2, g3, g4, g5, g6, g7, g8, g9⟩ := addM_fields sid req (measStart sid c1 m.signed)
  have hcc1 : (addM sid req (measStart sid c1 m.signed)).cc = ⟨c1.neg, c1.rt.needSummary, m.signed⟩ := by
    rw [g4]; unfold measStart; rw [resetMeas_fields]; rfl
  have hneg1 : (addM sid req (measStart sid c1 m.signed)).neg = c1.neg := by
    rw [g1]; unfold measStart; rw [resetMeas_fields]
  generalize hc8 : addM sid req (measStart sid c1 m.signed) = c8 at *
  refine (does_measure _ _ _).bind ?_
  rintro ⟨number, record⟩ c9 ⟨rfl, hme⟩
  have hme : MeasuredAs e c1 m.op number record := by unfold MeasuredAs at hme ⊢; rw [hneg] at hme; exact hme
  have hrec : record.data.length ≤ 3500 := by
    obtain ⟨total, h0, hm⟩ := hme
    cases hop : m.op with
    | requestAll => rw [hop] at hm; exact hrl _ _ _ _ _ hm.2
    | queryTotalNumber => rw [hop] at hm; rw [hm.2]; simp
    | unknown i => rw [hop] at hm; exact hrl _ _ _ _ _ hm.2.2
  dsimp only
  refine (does_ofOption _ _ _ _).bind ?_
  rintro nonce c10 ⟨hnonce, rfl⟩
  have hvalid : MeasurementValid e c1 (v :: k :: t) m req number record nonce asym :=
    ⟨hready, ⟨v, k, t, r', rfl, hv, hr, hreq⟩, hsl, hme, hnonce, hasym⟩
  have hch : (if (Ctx.resetBuffers .reqGetMeasurements sid c1).config.contentChange = true ∧ (Ctx.resetBuffers .reqGetMeasurements sid c1).cc.ge12 = true then
      (Ctx.resetBuffers .reqGetMeasurements sid c1).rt.contentChanged else 0) = contentChanged c1 := by rw [hcfg, hcc, hchg]; rfl
  rw [hch]
  have has : (Cc.mk c1.neg c1.rt.needSummary m.signed).asymSize? = some asym := hasym
  have hwr : Writes (Meas.encode c10.cc ⟨number, contentChanged c1, m.slot, record, nonce, [], List.replicate asym 0x60⟩)
      (Meas.wire c10.cc ⟨number, contentChanged c1, m.slot, record, nonce, [], List.replicate asym 0x60⟩) := by
    have a1 := MeasRecord.encode_writes record
    have a2 := encOpaque_writes []
    have a3 : Writes (encOpt c10.cc.needSig (encSignature c10.cc (List.replicate asym 0x60))) (optWire c10.cc.needSig (List.replicate asym 0x60)) :=
      encOpt_writes fun _ => encSignature_writes (by unfold Cc.SigOk; rw [hcc1, has]; simp)
    unfold Meas.encode
    apply Writes.cast
    · wr
    simp [Meas.wire]
  have hp2 : Meas.param2 c10.cc ⟨number, contentChanged c1, m.slot, record, nonce, [], List.replicate asym 0x60⟩ = measParam2 c1 m.signed m.slot := by
    unfold Meas.param2 measParam2
    rw [hcc1]
    have e12 : (Cc.mk c1.neg c1.rt.needSummary m.signed).ge12 = c1.cc.ge12 := rfl
    have e11 : (Cc.mk c1.neg c1.rt.needSummary m.signed).ge11 = c1.cc.ge11 := rfl
    rw [e12, e11]
    dsimp only
    cases m.signed <;> cases c1.cc.ge12 <;> cases c1.cc.ge11 <;> simp
  have hbody : c10.neg.version.get :: 0x60 :: Meas.wire c10.cc ⟨number, contentChanged c1, m.slot, record, nonce, [], List.replicate asym 0x60⟩ =
      measBody c1.neg.version.get number (measParam2 c1 m.signed m.slot) record nonce ++ optWire m.signed (List.replicate asym 0x60) := by
    have hz : opaqueWire [] = [0, 0] := by decide
    have hns : c10.cc.needSig = m.signed := by rw [hcc1]
    simp [Meas.wire, measBody, hz, hneg1, hns, hp2, MeasRecord.wire]
  refine (does_encode (p := .meas _) hwr ?_).bind ?_
  · have h2 := asymSize_le has
    have h3 := random_length hnonce
    have hz : (opaqueWire []).length = 2 := by decide
    have ho : (optWire c10.cc.needSig (List.replicate asym (0x60 : UInt8))).length ≤ asym := by unfold optWire; split <;> simp
    simp only [Meas.wire, MeasRecord.wire, List.length_append, List.length_cons, List.length_nil, msgSize, h3, hz]
    have : (putU24 record.data.length.toUInt32).length = 3 := by simp [putU24]
    omega
  rintro rsp c11 ⟨rfl, rfl⟩
  have h60 : ReqRespCode.rspMeasurements.get = 0x60 := rfl
  rw [h60, hbody]
  generalize hbd : measBody c1.neg.version.get number (measParam2 c1 m.signed m.slot) record nonce = body at *
  unfold finishMeasurement
  cases hsg : m.signed with
  | false =>
    simp only [Bool.false_eq_true, if_false, optWire, List.append_nil]
    refine (does_appended _ _ _ (appendM_some hl1)).bind ?_
    rintro _ c12 ⟨_, rfl⟩
    refine (does_pure _ _).mono ?_
    rintro _ _ ⟨rfl, rfl⟩
    refine ⟨m, req, number, record, nonce, asym, hvalid, hsess1, ?_⟩
    rw [hbd, hc8]
    simp [hsg]
  | true =>
    simp only [if_true, optWire]
    refine (does_liftH _ _ _).bind ?_
    rintro body' c12 ⟨hdt, rfl⟩
    obtain rfl : body' = body := by rw [(dropTail_ok hdt).2]; exact take_front asym _ _ (by simp)
    refine (does_appended _ _ _ (appendM_some hl1)).bind ?_
    rintro _ c13 ⟨_, rfl⟩
    refine (does_get _).bind ?_
    rintro _ c14 ⟨rfl, rfl⟩
    cases hsig : measurementSig e sid (addM sid body' c12) with
    | panic => exact trivial
    | err st =>
      dsimp only
      refine (does_sendError _ _).bind ?_
      intro _ c' h
      refine (does_pure _ _).mono ?_
      rintro _ _ ⟨rfl, rfl⟩
      refine ⟨m, req, number, record, nonce, asym, hvalid, hsess1, ?_⟩
      rw [hbd, hc8, if_pos hsg]
      exact .inr ⟨st, hsig, rfl, h⟩
    | ok sig =>
      dsimp only
      refine (does_liftH _ _ _).bind ?_
      rintro out c16 ⟨hp, rfl⟩
      obtain ⟨_, hlen, rfl⟩ := patchTail_ok hp
      refine (does_modify _ _).bind ?_
      rintro _ c17 rfl
      refine (does_pure _ _).mono ?_
      rintro _ _ ⟨rfl, rfl⟩
      refine ⟨m, req, number, record, nonce, asym, hvalid, hsess1, ?_⟩
      rw [hbd, hc8, if_pos hsg]
      refine .inl ⟨sig, hsig, hlen, ?_, rfl⟩
      rw [take_front asym _ _ (by simp)]

end Rsp
end Verif
