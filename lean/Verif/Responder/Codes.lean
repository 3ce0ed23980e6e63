/-
Which code a response writer's message carries: its own response code, or ERROR.
-/
import Verif.Responder.Writers

namespace Verif

theorem M.wp.bind {ε σ α β : Type} {x : M ε σ α} {f : α → M ε σ β} {s : σ} {P : α → σ → Prop} {Q : β → σ → Prop} {E : ε → σ → Prop}
    (hx : x.wp s P E) (hf : ∀ a t, P a t → (f a).wp t Q E) : (x >>= f).wp s Q E :=
  M.wp_bind.2 (hx.mono hf fun _ _ h => h)

namespace Rsp
variable {e : Env}

/-- the hash provider returns digests of the size of the algorithm. -/
def HashLaw (e : Env) : Prop := ∀ a d h, e.crypto.hash a d = some h → BaseHash.size? a = some h.length

/-- failing, the writer holds nothing or a message with code `k`. -/
def Clean (k : UInt8) (r : Reply) : Prop := r.pre = [] ∨ Starts k r.pre

theorem Clean.nil {k : UInt8} {code : ErrorCode} {data : UInt8} : Clean k { code := code, data := data } := .inl rfl
theorem Clean.of {k : UInt8} {b : Bytes} {code : ErrorCode} {data : UInt8} (h : Starts k b) : Clean k { pre := b, code := code, data := data } := .inr h

/-- a writer whose values satisfy `Q` and whose failures are `Clean`. -/
def Codes {α : Type} (k : UInt8) (Q : α → Prop) (x : H α) : Prop := ∀ c, x.wp c (fun a _ => Q a) (fun r _ => Clean k r)

namespace Codes
variable {α β : Type} {k : UInt8} {Q : α → Prop} {P : β → Prop}

theorem bind {x : H α} {f : α → H β} (hx : Codes k Q x) (hf : ∀ a, Q a → Codes k P (f a)) : Codes k P (x >>= f) :=
  fun c => (hx c).bind fun a t h => hf a h t
theorem mono {Q' : α → Prop} {x : H α} (hx : Codes k Q x) (h : ∀ a, Q a → Q' a) : Codes k Q' x :=
  fun c => (hx c).mono (fun a _ g => h a g) fun _ _ g => g
theorem pure {a : α} (h : Q a) : Codes k Q (Pure.pure a : H α) := fun _ => h
theorem fail {r : Reply} (h : Clean k r) : Codes k Q (M.fail r : H α) := fun _ => h
theorem panic : Codes k Q (M.panic : H α) := fun _ => trivial
theorem get : Codes k (fun _ => True) (M.get : H Ctx) := fun _ => trivial
theorem modify (f : Ctx → Ctx) : Codes k (fun _ => True) (M.modify f : H Unit) := fun _ => trivial
theorem unwrap (o : Option α) : Codes k (fun a => o = some a) (M.unwrap o : H α) := fun _ => M.wp_unwrap.2 fun _ h => h
theorem ofOption {r : Reply} (h : Clean k r) (o : Option α) : Codes k (fun a => o = some a) (M.ofOption r o : H α) :=
  fun _ => M.wp_ofOption.2 ⟨fun _ h => h, fun _ => h⟩
theorem ite {p : Prop} [Decidable p] {x y : H α} (hx : p → Codes k Q x) (hy : ¬ p → Codes k Q y) :
    Codes k Q (if p then x else y) := fun c => M.wp_ite.2 ⟨fun h => hx h c, fun h => hy h c⟩
theorem mapErr {x : M Status Ctx α} {r : Reply} (h : Clean k r) : Codes k (fun _ => True) (x.mapErr r) := fun c => by
  rw [M.wp_mapErr]
  unfold M.wp
  cases x c <;> simp [h]
theorem header (bytes : Bytes) : Codes k (fun _ => True) (Rsp.header bytes) := fun c => by
  unfold Rsp.header M.wp
  cases Header.read (Reader.init bytes) <;> first | exact .inl rfl | trivial
theorem checkVersion (bytes : Bytes) : Codes k (fun _ => True) (Rsp.checkVersion bytes) :=
  bind (header bytes) fun _ _ => bind get fun _ _ => ite (fun _ => fail (.inl rfl)) fun _ => pure trivial
theorem readReq (x : Cc → Rd α) (bytes : Bytes) (r : Reader) : Codes k (fun _ => True) (Rsp.readReq x bytes r) := fun c => by
  unfold Rsp.readReq
  rw [M.wp_bind, M.wp_get]
  cases x c.cc r <;> first | exact .inl rfl | trivial
theorem orUnspecified (x : M Status Ctx α) : Codes k (fun _ => True) (Rsp.orUnspecified x) := mapErr (.inl rfl)
theorem orAppended {b : Bytes} (hb : Starts k b) (x : M Status Ctx α) : Codes k (fun _ => True) (Rsp.orAppended b x) :=
  mapErr (.inr hb)
theorem summaryHash (t : SummaryHashType) : Codes k (fun _ => True) (Rsp.summaryHash e t) := fun c => by
  unfold Rsp.summaryHash
  rw [M.wp_ite]
  refine ⟨fun _ => ?_, fun _ => trivial⟩
  rw [M.wp_bind, M.wp_modify, M.wp_bind, M.wp_get]
  split
  · trivial
  · split <;> trivial
theorem afterNegotiation : Codes k (fun _ => True) Rsp.afterNegotiation :=
  bind get fun _ _ => ite (fun _ => fail (.inl rfl)) fun _ => pure trivial
theorem encode {r : ReqRespCode} (p : Payload) (h : r.get = k) : Codes k (Starts k) (encodeRsp r p) := fun c => by
  refine (encodeRsp_wp r p c).mono ?_ ?_
  · rintro b _ ⟨_, t, rfl⟩; rw [h]; exact ⟨_, _, rfl⟩
  · rintro b _ ⟨_, _, _, t, ht⟩; exact .inr ⟨_, t, by rw [← ht, h]; rfl⟩
theorem liftH {r : Reply} (h : Clean k r) (x : Res α) : Codes k (fun a => x = .ok a) (Rsp.liftH r x) := fun c => by
  unfold Rsp.liftH
  rw [M.wp_mapErr]
  cases x
  · exact rfl
  · exact h
  · trivial
theorem sendError (code : ErrorCode) : Codes k (fun _ => True) (Rsp.sendError e code : H Unit) := fun c => by
  unfold Rsp.sendError
  rw [M.wp_bind, M.wp_get, M.wp_bind, writeError_nil _ _ rfl, M.wp_unwrap]
  intro a _
  unfold M.wp quiet
  cases h : Rsp.sendMessage e a c <;> simp only [h]
/-- the encoded message carries `k` and the bytes the payload's encoder emits. -/
theorem encode_exact {r : ReqRespCode} {p : Payload} {w : Cc → Bytes} (h : r.get = k) (hp : ∀ c, Emits (p.encode c) (w c)) (c : Ctx) :
    (encodeRsp r p).wp c (fun b c' => c' = c ∧ b = c.neg.version.get :: k :: w c.cc) (fun r _ => Clean k r) := by
  have h1 := (encodeRsp_wp r p c)
  have h2 := encode (k := k) p h c
  rw [M.wp_def] at *
  refine ⟨fun b c' hb => ⟨(h1.1 b c' hb).1, ?_⟩, h2.2⟩
  unfold encodeRsp at hb
  cases hm : Msg.encode c.cc ⟨⟨c.neg.version, r⟩, p⟩ (Writer.init msgSize) with
  | ok n w' =>
    rw [hm] at hb
    cases hb
    have := Emits.msg (h := ⟨c.neg.version, r⟩) (hp c.cc) _ _ _ hm
    rw [this]
    simp [Writer.init, Header.wire, h]
  | err a w' => rw [hm] at hb; simp at hb
  | panic => rw [hm] at hb; simp at hb

end Codes

/-- follow the structure of a writer; leaves remain. -/
macro "codes" : tactic => `(tactic|
  repeat' (with_reducible first
      | exact Codes.get | exact Codes.modify _ | exact Codes.panic | exact Codes.header _ | exact Codes.checkVersion _
      | exact Codes.readReq _ _ _ | exact Codes.orUnspecified _ | exact Codes.summaryHash _ | exact Codes.afterNegotiation
      | exact Codes.fail Clean.nil | exact Codes.ofOption Clean.nil _ | exact Codes.unwrap _ | exact Codes.sendError _
      | exact Codes.encode _ rfl | exact Codes.orAppended (by assumption) _ | exact Codes.mapErr Clean.nil
      | apply Codes.ite | apply Codes.bind | intro _))

theorem dropTail_ok {n : Nat} {b r : Bytes} (h : dropTail n b = .ok r) : n ≤ b.length ∧ r = b.take (b.length - n) := by
  unfold dropTail at h
  split at h
  · cases h; exact ⟨by assumption, rfl⟩
  · simp at h
theorem patchTail_ok {n : Nat} {new b r : Bytes} (h : patchTail n new b = .ok r) :
    n ≤ b.length ∧ new.length = n ∧ r = b.take (b.length - n) ++ new := by
  unfold patchTail at h
  split at h
  · rename_i hn; cases h; exact ⟨hn.1, hn.2, rfl⟩
  · simp at h

/-- patching a tail that lies after the first two bytes keeps the code. -/
theorem Starts.patch {k : UInt8} {n : Nat} {new b r : Bytes} (hb : Starts k b) (hn : n + 2 ≤ b.length) (h : patchTail n new b = .ok r) :
    Starts k r ∧ r.length = b.length := by
  obtain ⟨h1, h2, rfl⟩ := patchTail_ok h
  refine ⟨(hb.take (n := b.length - n) (by omega)).of_prefix (List.prefix_append _ _), ?_⟩
  simp only [List.length_append, List.length_take, h2]
  omega

theorem codes_capabilityRsp (bytes : Bytes) : Codes 0x61 (Starts 0x61) (capabilityRsp bytes) := by
  unfold capabilityRsp
  codes
  exact Codes.pure (by assumption)
theorem codes_algorithmRsp (bytes : Bytes) : Codes 0x63 (Starts 0x63) (algorithmRsp e bytes) := by
  unfold algorithmRsp
  codes
  exact Codes.pure (by assumption)
theorem codes_certificateRsp (sid : Option UInt32) (bytes : Bytes) : Codes 0x02 (Starts 0x02) (certificateRsp e sid bytes) := by
  unfold certificateRsp
  codes
  exact Codes.pure (by assumption)
theorem codes_heartbeatRsp (sid : UInt32) (bytes : Bytes) : Codes 0x68 (Starts 0x68) (heartbeatRsp sid bytes) := by
  unfold heartbeatRsp
  codes
theorem codes_keyUpdateRsp (sid : UInt32) (bytes : Bytes) : Codes 0x69 (Starts 0x69) (keyUpdateRsp e sid bytes) := by
  unfold keyUpdateRsp
  codes
theorem codes_endSessionRsp (sid : UInt32) (bytes : Bytes) : Codes 0x6C (Starts 0x6C) (endSessionRsp sid bytes) := by
  unfold endSessionRsp
  codes
theorem codes_vendorRsp (sid : Option UInt32) (bytes : Bytes) : Codes 0x7E (Starts 0x7E) (vendorRsp e sid bytes) := by
  unfold vendorRsp
  codes
theorem codes_errorResponse (code : ErrorCode) (bytes : Bytes) : Codes 0x7F (fun _ => False) (errorResponse code bytes) := by
  intro c
  unfold errorResponse
  rw [M.wp_bind, M.wp_get]
  split
  · trivial
  · exact Clean.nil
  · split <;> exact Clean.nil

theorem encode_challengeAuth (m : ChallengeAuth) (c : Ctx) : (encodeRsp .rspChallengeAuth (.challengeAuth m)).wp c
    (fun b c' => c' = c ∧ b = c.neg.version.get :: 0x03 :: m.wire c.cc) (fun r _ => Clean 0x03 r) :=
  Codes.encode_exact (p := .challengeAuth m) (w := fun cc => m.wire cc) rfl (fun cc => Emits.challengeAuth cc m) c
theorem encode_meas (m : Meas) (c : Ctx) : (encodeRsp .rspMeasurements (.meas m)).wp c
    (fun b c' => c' = c ∧ b = c.neg.version.get :: 0x60 :: m.wire c.cc) (fun r _ => Clean 0x60 r) :=
  Codes.encode_exact (p := .meas m) (w := fun cc => m.wire cc) rfl (fun cc => Emits.meas cc m) c
theorem encode_digests (m : Digests) (c : Ctx) : (encodeRsp .rspDigests (.digests m)).wp c
    (fun b c' => c' = c ∧ b = c.neg.version.get :: 0x01 :: ([0] ++ [m.slotMask] ++ (m.digests.take (slotCount m.slotMask)).flatMap id))
    (fun r _ => Clean 0x01 r) :=
  Codes.encode_exact (p := .digests m) (w := fun _ => [0] ++ [m.slotMask] ++ (m.digests.take (slotCount m.slotMask)).flatMap id) rfl (fun cc => Emits.digests cc m) c
theorem encode_keyExRsp (m : KeyExRsp) (c : Ctx) : (encodeRsp .rspKeyExchangeRsp (.keyExRsp m)).wp c
    (fun b c' => c' = c ∧ b = c.neg.version.get :: 0x64 :: m.wire c.cc) (fun r _ => Clean 0x64 r) :=
  Codes.encode_exact (p := .keyExRsp m) (w := fun cc => m.wire cc) rfl (fun cc => Emits.keyExRsp cc m) c

/-! ### CHALLENGE -/

theorem codes_finishChallenge {asym : Nat} {rsp : Bytes} (hs : Starts 0x03 rsp) (hl : asym + 2 ≤ rsp.length) :
    Codes 0x03 (Starts 0x03) (finishChallenge e asym rsp) := by
  unfold finishChallenge
  refine Codes.bind Codes.get fun c _ => ?_
  split
  · exact Codes.panic
  · exact Codes.bind (Codes.sendError _) fun _ _ => Codes.pure hs
  · exact Codes.bind (Codes.liftH Clean.nil _) fun r hr => Codes.bind (Codes.modify _) fun _ _ => Codes.pure (hs.patch hl hr).1

theorem codes_challengeRsp (bytes : Bytes) : Codes 0x03 (Starts 0x03) (challengeRsp e bytes) := by
  unfold challengeRsp
  refine Codes.bind Codes.afterNegotiation fun _ _ => Codes.bind (Codes.checkVersion _) fun r _ => Codes.bind (Codes.modify _) fun _ _ =>
    Codes.bind (Codes.readReq _ _ _) fun mr _ => Codes.bind (Codes.summaryHash _) fun sm _ => Codes.bind (Codes.ofOption Clean.nil _) fun su _ =>
    Codes.bind Codes.get fun c0 _ => Codes.bind (Codes.ofOption Clean.nil _) fun chain _ => Codes.bind (Codes.orUnspecified _) fun _ _ =>
    Codes.bind (Codes.unwrap _) fun ch _ => Codes.bind (Codes.ofOption Clean.nil _) fun nonce _ => Codes.bind (Codes.unwrap _) fun asym _ => ?_
  refine Codes.bind (Q := fun b => Starts 0x03 b ∧ asym + 2 ≤ b.length) ?_ ?_
  · intro c
    refine (encode_challengeAuth _ c).mono ?_ fun _ _ h => h
    rintro b c' ⟨_, rfl⟩
    refine ⟨⟨_, _, rfl⟩, ?_⟩
    simp [ChallengeAuth.wire]
    omega
  · rintro b ⟨hb, hl⟩
    refine Codes.bind (Codes.liftH Clean.nil _) fun body _ => Codes.bind (Codes.orAppended hb _) fun _ _ => codes_finishChallenge hb hl

/-! ### GET_MEASUREMENTS -/

/-- negotiated parameters and codec switches are kept. -/
def KeepCc (c c' : Ctx) : Prop := c'.cc = c.cc
instance : M.Pre KeepCc where
  refl _ := rfl
  trans h h' := h'.trans h

theorem keepCc_appendM (sid : Option UInt32) (msg : Bytes) : M.Rel KeepCc (Ctx.appendM e sid msg) := by
  intro c
  unfold Ctx.appendM
  simp only [M.wp_bind, M.wp_get]
  cases sid with
  | none =>
    simp only
    split
    · rfl
    · split <;> rfl
  | some i =>
    simp only
    split
    · rfl
    · split
      · rfl
      · split <;> rfl

theorem keepCc_measureBlocks (c : Ctx) (op : MeasOperation) : M.Rel KeepCc (measureBlocks e c op) := by
  unfold measureBlocks
  refine M.Rel.bind (M.Rel.unwrap _) fun t => ?_
  split <;> rel

theorem codes_measureBlocks {k : UInt8} (c : Ctx) (op : MeasOperation) : Codes k (fun _ => True) (measureBlocks e c op) := by
  unfold measureBlocks
  refine Codes.bind (Codes.unwrap _) fun t _ => ?_
  split
  · exact Codes.bind (Codes.unwrap _) fun _ _ => Codes.pure trivial
  · exact Codes.pure trivial
  · refine Codes.ite (fun _ => Codes.fail Clean.nil) fun _ => Codes.bind (Codes.unwrap _) fun _ _ => Codes.pure trivial

theorem codes_finishMeasurement {sid : Option UInt32} {signed : Bool} {asym : Nat} {rsp : Bytes} (hs : Starts 0x60 rsp)
    (hl : signed = true → asym + 2 ≤ rsp.length) : Codes 0x60 (Starts 0x60) (finishMeasurement e sid signed asym rsp) := by
  unfold finishMeasurement
  apply Codes.ite <;> intro h
  · refine Codes.bind (Codes.liftH Clean.nil _) fun body _ => Codes.bind (Codes.orAppended hs _) fun _ _ => ?_
    refine Codes.bind Codes.get fun c _ => ?_
    split
    · exact Codes.panic
    · exact Codes.bind (Codes.sendError _) fun _ _ => Codes.pure hs
    · exact Codes.bind (Codes.liftH Clean.nil _) fun r hr => Codes.bind (Codes.modify _) fun _ _ => Codes.pure (hs.patch (hl h) hr).1
  · exact Codes.bind (Codes.orAppended hs _) fun _ _ => Codes.pure hs

theorem measurementSlot_wp (m : GetMeas) (c : Ctx) :
    (measurementSlot m).wp c (fun _ c' => c'.cc.needSig = m.signed) (fun r _ => Clean 0x60 r) := by
  unfold measurementSlot
  rw [M.wp_bind, M.wp_modify, M.wp_bind, M.wp_get, M.wp_ite]
  refine ⟨fun _ => ?_, fun _ => ?_⟩
  · rw [M.wp_bind, M.wp_ofOption]
    exact ⟨fun _ _ => rfl, fun _ => Clean.nil⟩
  · rw [M.wp_ite]
    exact ⟨fun _ => Clean.nil, fun _ => rfl⟩

theorem codes_measurementRsp (sid : Option UInt32) (bytes : Bytes) : Codes 0x60 (Starts 0x60) (measurementRsp e sid bytes) := by
  unfold measurementRsp
  refine Codes.bind Codes.afterNegotiation fun _ _ => Codes.bind (Codes.checkVersion _) fun r _ => Codes.bind (Codes.modify _) fun _ _ =>
    Codes.bind (Codes.readReq _ _ _) fun mr _ => Codes.bind Codes.get fun c0 _ => Codes.bind (Codes.unwrap _) fun asym _ => ?_
  intro c
  refine (measurementSlot_wp mr.1 c).bind fun _ c1 h1 => ?_
  refine M.wp.bind (P := fun _ c2 => c2.cc.needSig = mr.1.signed) ?_ fun _ c2 h2 => ?_
  · refine M.wp_mapErr.2 (((keepCc_appendM sid mr.2 c1)).mono ?_ ?_)
    · intro _ c2 h; rw [show c2.cc = c1.cc from h]; exact h1
    · intro _ _ _; exact Clean.nil
  refine M.wp.bind (P := fun _ c2 => c2.cc.needSig = mr.1.signed) ?_ fun nr c3 h3 => ?_
  · refine (M.wp.and (keepCc_measureBlocks c0 mr.1.op c2) (codes_measureBlocks (k := 0x60) c0 mr.1.op c2)).mono ?_ (fun _ _ h => h.2)
    intro _ c3 h; rw [show c3.cc = c2.cc from h.1]; exact h2
  refine M.wp.bind (P := fun _ c2 => c2.cc.needSig = mr.1.signed) ?_ fun nonce c4 h4 => ?_
  · exact M.wp_ofOption.2 ⟨fun _ _ => h3, fun _ => Clean.nil⟩
  refine (encode_meas _ c4).bind fun b c5 hb => ?_
  obtain ⟨rfl, rfl⟩ := hb
  refine codes_finishMeasurement ⟨_, _, rfl⟩ ?_ c5
  intro hsig
  rw [hsig] at h4
  simp [Meas.wire, optWire, h4]
  omega

/-! ### GET_DIGESTS -/

theorem slotMask_ne (p : Provision) (i : Fin 8) (h : (p.chain i).isSome = true) : slotCount (slotMask p) ≠ 0 := by
  have key : ∀ f : Fin 8 → Bool, f i = true →
      slotCount ((List.finRange 8).foldl (fun m i => if f i = true then m ||| ((1 : UInt8) <<< (UInt8.ofNat i.val)) else m) 0) ≠ 0 := by
    intro f hf
    have e8 : List.finRange 8 = [0, 1, 2, 3, 4, 5, 6, 7] := by decide
    rw [e8]
    have hb : ∀ b0 b1 b2 b3 b4 b5 b6 b7 : Bool, [b0, b1, b2, b3, b4, b5, b6, b7][i.val]? = some true →
        slotCount ([(b0, (0 : Fin 8)), (b1, 1), (b2, 2), (b3, 3), (b4, 4), (b5, 5), (b6, 6), (b7, 7)].foldl
          (fun m x => if x.1 = true then m ||| ((1 : UInt8) <<< (UInt8.ofNat x.2.val)) else m) 0) ≠ 0 := by
      have : ∀ i : Fin 8, ∀ b0 b1 b2 b3 b4 b5 b6 b7 : Bool, [b0, b1, b2, b3, b4, b5, b6, b7][i.val]? = some true →
        slotCount ([(b0, (0 : Fin 8)), (b1, 1), (b2, 2), (b3, 3), (b4, 4), (b5, 5), (b6, 6), (b7, 7)].foldl
          (fun m x => if x.1 = true then m ||| ((1 : UInt8) <<< (UInt8.ofNat x.2.val)) else m) 0) ≠ 0 := by decide +kernel
      exact this i
    exact hb (f 0) (f 1) (f 2) (f 3) (f 4) (f 5) (f 6) (f 7) (by
      have : ∀ i : Fin 8, f i = true → [f 0, f 1, f 2, f 3, f 4, f 5, f 6, f 7][i.val]? = some true := by
        intro i hi
        rw [← hi]
        match i with
        | 0 => rfl
        | 1 => rfl
        | 2 => rfl
        | 3 => rfl
        | 4 => rfl
        | 5 => rfl
        | 6 => rfl
        | 7 => rfl
      exact this i hf)
  exact key (fun i => (p.chain i).isSome) h

theorem patchDigests_starts {c : Ctx} {k : UInt8} {hs : Nat} (hl : HashLaw e) (hhs : c.cc.hashSize? = some hs) :
    ∀ (is : List (Fin 8)) (b r : Bytes), Starts k b → ((∃ i ∈ is, (c.prov.chain i).isSome = true) → hs + 2 ≤ b.length) →
      patchDigests e c is b = .ok r → Starts k r ∧ r.length = b.length
  | [], b, r, hb, _, h => by cases h; exact ⟨hb, rfl⟩
  | i :: is, b, r, hb, hlen, h => by
    unfold patchDigests at h
    split at h
    · exact patchDigests_starts hl hhs is b r hb (fun ⟨j, hj, hc⟩ => hlen ⟨j, List.mem_cons_of_mem _ hj, hc⟩) h
    · rename_i ch hch
      simp only [Res.bind_ok, Res.unwrap_ok] at h
      obtain ⟨d, hd, b', hb', h⟩ := h
      have hsz : d.length = hs := by
        have := hl _ _ _ hd
        unfold Cc.hashSize? at hhs
        rw [show c.cc.neg = c.neg from rfl, this] at hhs
        exact Option.some.inj hhs
      have hb2 := hlen ⟨i, List.mem_cons_self, by simp [hch]⟩
      obtain ⟨h1, h2⟩ := hb.patch (by omega) hb'
      obtain ⟨h3, h4⟩ := patchDigests_starts hl hhs is b' r h1 (fun _ => by omega) h
      exact ⟨h3, by omega⟩

theorem codes_digestRsp (hl : HashLaw e) (sid : Option UInt32) (bytes : Bytes) : Codes 0x01 (Starts 0x01) (digestRsp e sid bytes) := by
  unfold digestRsp
  refine Codes.bind Codes.afterNegotiation fun _ _ => Codes.bind (Codes.checkVersion _) fun r _ => Codes.bind (Codes.modify _) fun _ _ =>
    Codes.bind (Codes.readReq _ _ _) fun mr _ => Codes.bind (Codes.orUnspecified _) fun _ _ => Codes.bind Codes.get fun c _ =>
    Codes.bind (Codes.unwrap _) fun hs hhs => ?_
  refine Codes.bind (Q := fun b => Starts 0x01 b ∧ b.length = 4 + min (slotCount (slotMask c.prov)) 8 * hs) ?_ ?_
  · intro c'
    refine (encode_digests _ c').mono ?_ fun _ _ h => h
    rintro b c'' ⟨_, rfl⟩
    refine ⟨⟨_, _, rfl⟩, ?_⟩
    have hf : ∀ (n m : Nat), ((List.replicate n (List.replicate m (0xff : UInt8))).flatMap id).length = n * m := by
      intro n m
      induction n with
      | zero => simp
      | succ n ih => rw [List.replicate_succ, List.flatMap_cons, List.length_append, ih, Nat.succ_mul]; simp; omega
    have : ∀ (l : Bytes) (a b c d : UInt8), (a :: b :: ([c] ++ [d] ++ l)).length = 4 + l.length := by intros; simp; omega
    rw [this, List.take_replicate, hf]
  · rintro b ⟨hb, hlen⟩
    refine Codes.bind (Codes.liftH Clean.nil _) fun r hr => ?_
    have := patchDigests_starts hl hhs _ _ _ hb ?_ hr
    · exact Codes.bind (Codes.orAppended this.1 _) fun _ _ => Codes.pure this.1
    · rintro ⟨i, _, hi⟩
      have := slotMask_ne c.prov i hi
      rw [hlen]
      have h1 : 1 ≤ min (slotCount (slotMask c.prov)) 8 := by omega
      have : 1 * hs ≤ min (slotCount (slotMask c.prov)) 8 * hs := Nat.mul_le_mul_right _ h1
      omega

/-! ### The session handshakes: only successful results are sent -/

/-- the value, if there is one, satisfies `Q`. -/
def Post {ε α : Type} (Q : α → Prop) (x : M ε Ctx α) : Prop := ∀ c, x.wp c (fun a _ => Q a) (fun _ _ => True)

namespace Post
variable {ε α β : Type} {Q : α → Prop} {P : β → Prop}
theorem bind {x : M ε Ctx α} {f : α → M ε Ctx β} (hx : Post Q x) (hf : ∀ a, Q a → Post P (f a)) : Post P (x >>= f) :=
  fun c => (hx c).bind fun a t h => hf a h t
theorem any (x : M ε Ctx α) : Post (fun _ => True) x := fun c => by unfold M.wp; cases x c <;> trivial
theorem after {x : M ε Ctx α} {f : α → M ε Ctx β} (hf : ∀ a, Post P (f a)) : Post P (x >>= f) := bind (any x) fun a _ => hf a
theorem pure {a : α} (h : Q a) : Post Q (Pure.pure a : M ε Ctx α) := fun _ => h
theorem fail (e : ε) : Post Q (M.fail e : M ε Ctx α) := fun _ => trivial
theorem ite {p : Prop} [Decidable p] {x y : M ε Ctx α} (hx : p → Post Q x) (hy : ¬ p → Post Q y) : Post Q (if p then x else y) :=
  fun c => M.wp_ite.2 ⟨fun h => hx h c, fun h => hy h c⟩
theorem lift {x : Res α} (h : ∀ a, x = .ok a → Q a) : Post Q (x.lift : M Status Ctx α) := fun c => by
  cases x
  · exact h _ rfl
  · trivial
  · trivial
theorem ofCodes {k : UInt8} {x : H α} {e' : ε} (h : Codes k Q x) : Post Q (x.mapErr e') := fun c =>
  M.wp_mapErr.2 ((h c).mono (fun _ _ h => h) fun _ _ _ => trivial)
end Post

theorem post_keyExchangeBody (m : KeyEx) (req : Bytes) (sid : UInt32) (rspId : UInt16) (exchange sum opaq : Bytes) :
    Post (Starts 0x64) (keyExchangeBody e m req sid rspId exchange sum opaq) := by
  unfold keyExchangeBody
  refine Post.after fun random => ?_
  intro c
  rw [M.wp_bind, M.wp_get, M.wp_bind, M.wp_unwrap]
  intro asym _
  rw [M.wp_bind, M.wp_unwrap]
  intro hs _
  refine M.wp.bind (P := fun b _ => Starts 0x64 b ∧ (c.cc.inClear = false → asym + hs + 2 ≤ b.length)) ?_ ?_
  · refine M.wp_mapErr.2 ((encode_keyExRsp _ c).mono ?_ fun _ _ _ => trivial)
    rintro b _ ⟨_, rfl⟩
    refine ⟨⟨_, _, rfl⟩, fun hc => ?_⟩
    simp [KeyExRsp.wire, optWire, hc]
    omega
  rintro b c1 ⟨hb, hlen⟩
  refine (?_ : Post (Starts 0x64) _) c1
  refine Post.after fun body => Post.after fun _ => Post.after fun _ => Post.after fun sig => Post.after fun _ => Post.after fun th1 =>
    Post.after fun _ => Post.bind (Q := Starts 0x64) ?_ fun r hr => Post.after fun _ => ?_
  · unfold keyExchangePatch
    refine Post.ite (fun _ => Post.pure hb) fun hn => Post.after fun mac => ?_
    have hl := hlen (by simpa using hn)
    refine Post.bind (Q := fun r => Starts 0x64 r ∧ r.length = b.length) (Post.lift fun r hr => hb.patch (by omega) hr) fun r hr => ?_
    exact Post.lift fun r' hr' => (hr.1.patch (by omega) hr').1
  · exact Post.after fun _ => Post.pure hr

theorem post_keyExchangeRsp (bytes : Bytes) : Post (Starts 0x64) (keyExchangeRsp e bytes) := by
  unfold keyExchangeRsp
  iterate 14 refine Post.after fun _ => ?_
  simp only
  refine Post.after fun _ => ?_
  exact post_keyExchangeBody _ _ _ _ _ _ _

theorem encode_pskExRsp_len (m : PskExRsp) (c : Ctx) : (encodeRsp .rspPskExchangeRsp (.pskExRsp m)).wp c
    (fun b c' => c' = c ∧ Starts 0x66 b ∧ m.verify.length + 2 ≤ b.length) (fun r _ => Clean 0x66 r) := by
  refine (Codes.encode_exact (p := .pskExRsp m) (k := 0x66) rfl (fun cc => Emits.pskExRsp cc m) c).mono ?_ fun _ _ h => h
  rintro b _ ⟨rfl, rfl⟩
  refine ⟨rfl, ⟨_, _, rfl⟩, ?_⟩
  simp
  omega

theorem post_pskExchangeBody (req : Bytes) (sid : UInt32) (rspId : UInt16) (context sum opaq : Bytes) :
    Post (Starts 0x66) (pskExchangeBody e req sid rspId context sum opaq) := by
  unfold pskExchangeBody
  refine Post.after fun c => Post.after fun hs => ?_
  refine Post.bind (Q := fun b => Starts 0x66 b ∧ hs + 2 ≤ b.length) ?_ ?_
  · intro c
    refine M.wp_mapErr.2 ((encode_pskExRsp_len _ c).mono ?_ fun _ _ _ => trivial)
    rintro b _ ⟨_, h1, h2⟩
    exact ⟨h1, by simpa using h2⟩
  rintro b ⟨hb, hl⟩
  refine Post.after fun body => Post.after fun _ => Post.after fun _ => Post.after fun th => Post.after fun _ => Post.after fun mac => ?_
  refine Post.bind (Q := Starts 0x66) (Post.lift fun r hr => (hb.patch hl hr).1) fun r hr => ?_
  exact Post.after fun _ => Post.after fun _ => Post.after fun _ => Post.pure hr

theorem post_pskExchangeRsp (bytes : Bytes) : Post (Starts 0x66) (pskExchangeRsp e bytes) := by
  unfold pskExchangeRsp
  iterate 9 refine Post.after fun _ => ?_
  simp only
  refine Post.after fun _ => ?_
  exact post_pskExchangeBody _ _ _ _ _ _

theorem encode_finishRsp (v : Bytes) (c : Ctx) : (encodeRsp .rspFinishRsp (.finishRsp v)).wp c
    (fun b c' => c' = c ∧ b = c.neg.version.get :: 0x65 :: ([0] ++ [0] ++ optWire c.cc.inClear v)) (fun r _ => Clean 0x65 r) :=
  Codes.encode_exact (p := .finishRsp v) (w := fun cc => [0] ++ [0] ++ optWire cc.inClear v) rfl (fun cc => Emits.finishRsp cc v) c

theorem post_finishAnswer (sid : UInt32) : Post (Starts 0x65) (finishAnswer e sid) := by
  unfold finishAnswer
  intro c
  rw [M.wp_bind, M.wp_get, M.wp_bind, M.wp_unwrap]
  intro hs _
  refine M.wp.bind (P := fun b _ => Starts 0x65 b ∧ (c.cc.inClear = true → hs + 2 ≤ b.length)) ?_ ?_
  · refine M.wp_mapErr.2 ((encode_finishRsp _ c).mono ?_ fun _ _ _ => trivial)
    rintro b _ ⟨_, rfl⟩
    refine ⟨⟨_, _, rfl⟩, fun hc => ?_⟩
    simp [optWire, hc]
  rintro b c1 ⟨hb, hlen⟩
  refine (?_ : Post (Starts 0x65) _) c1
  refine Post.ite (fun hc => ?_) fun _ => Post.after fun _ => Post.pure hb
  repeat' (first | (refine Post.after fun _ => ?_))
  exact Post.lift fun r hr => (hb.patch (hlen hc) hr).1

theorem post_finishRsp (sid : UInt32) (bytes : Bytes) : Post (Starts 0x65) (finishRsp e sid bytes) := by
  unfold finishRsp
  refine Post.after fun _ => Post.after fun _ => Post.after fun _ => Post.after fun _ => Post.after fun _ => Post.after fun _ =>
    Post.after fun _ => Post.after fun _ => Post.ite (fun _ => Post.fail _) fun _ => Post.after fun _ => ?_
  exact Post.bind (post_finishAnswer sid) fun r hr => Post.after fun _ => Post.pure hr

theorem post_pskFinishRsp (sid : UInt32) (bytes : Bytes) : Post (Starts 0x67) (pskFinishRsp e sid bytes) := by
  unfold pskFinishRsp
  refine Post.after fun _ => Post.after fun _ => Post.after fun _ => Post.after fun _ => Post.after fun _ => Post.after fun _ =>
    Post.after fun _ => Post.ite (fun _ => Post.fail _) fun _ => Post.after fun _ => Post.after fun _ => ?_
  exact Post.bind (Post.ofCodes (Codes.encode _ rfl)) fun r hr => Post.after fun _ => Post.after fun _ => Post.pure hr

/-- the message a writer leaves in the send buffer: its own response, or exactly one ERROR message. -/
theorem reply_wp {k : UInt8} {x : H Bytes} (h : Codes k (Starts k) x) (c : Ctx) :
    (reply x).wp c (fun b c' => Starts k b ∨ ∃ code data, b = errorBytes c'.neg.version code data) (fun _ _ => False) := by
  have hc := h c
  unfold M.wp at *
  unfold reply
  cases hx : x c with
  | ok b c' => rw [hx] at hc; exact .inl hc
  | err r c' =>
    rw [hx] at hc
    simp only at hc ⊢
    cases hw : writeError c' r with
    | none => trivial
    | some b =>
      rcases hc with hp | hp
      · rw [writeError_nil _ _ hp] at hw
        cases hw
        exact .inr ⟨_, _, rfl⟩
      · exact .inl (hp.of_prefix (writeError_pre hw))
  | panic => trivial

end Rsp
end Verif
