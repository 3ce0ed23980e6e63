/-
Response writers do not panic: negotiated algorithms have sizes and the sessions in use are armed.
-/
import Verif.Responder.Total
import Verif.Responder.Table
import Verif.Responder.VendorDoes
import Verif.Props.Signing

namespace Verif
open M Res

/-- every selection of the negotiation has a size. -/
structure Sized (n : Neg) : Prop where
  hash : (BaseHash.size? n.baseHash).isSome = true
  asym : (BaseAsym.size? n.baseAsym).isSome = true
  dhe : (Dhe.size? n.dhe).isSome = true
  aead : KeySched.Single n.baseHash n.aead

namespace Rsp
open Session

variable {e : Env}

/-- the negotiation and the core of every session are as in `c0`. -/
structure Loose (c0 c : Ctx) : Prop where
  neg : ∃ p, c.neg = { c0.neg with terminationPolicy := p }
  sessions : All2 Core c0.sessions c.sessions

theorem Loose.refl (c : Ctx) : Loose c c := ⟨⟨c.neg.terminationPolicy, rfl⟩, All2.refl Core.refl _⟩
theorem Loose.trans {a b c : Ctx} (h : Loose a b) (h' : Loose b c) : Loose a c := by
  obtain ⟨p, hp⟩ := h.neg
  obtain ⟨q, hq⟩ := h'.neg
  refine ⟨⟨q, ?_⟩, All2.trans (R := Core) (fun _ _ _ g g' => Core.trans g g') h.sessions h'.sessions⟩
  rw [hq, hp]
theorem Loose.of {c0 c c' : Ctx} (h : Loose c0 c) (hn : c'.neg = c.neg) (hs : c'.sessions = c.sessions) : Loose c0 c' :=
  h.trans ⟨⟨c.neg.terminationPolicy, hn⟩, by rw [hs]; exact All2.refl Core.refl _⟩

theorem all2_upd {p : Session → Bool} {f : Session → Session} (l : List Session) (h : ∀ s, l.find? p = some s → Core s (f s)) :
    All2 Core l (Ctx.updFirst p f l) := by
  induction l with
  | nil => exact .nil
  | cons a l ih =>
    unfold Ctx.updFirst
    by_cases hp : p a = true
    · simp only [hp, if_true]
      exact .cons (h a (by simp [hp])) (All2.refl Core.refl _)
    · simp only [hp]
      exact .cons (Core.refl a) (ih fun s hs => h s (by simp [hp, hs]))

theorem Loose.upd {c0 c : Ctx} (h : Loose c0 c) (sid : UInt32) {f : Session → Session} (hf : ∀ s, c.session? sid = some s → Core s (f s)) :
    Loose c0 (c.updSession sid f) :=
  h.trans ⟨⟨c.neg.terminationPolicy, rfl⟩, all2_upd _ hf⟩

theorem all2_find {sid : UInt32} : ∀ {l m : List Session}, All2 Core l m → ∀ {s}, l.find? (·.id = sid) = some s → ∃ t, m.find? (·.id = sid) = some t ∧ Core s t
  | _, _, .nil, _, h => by cases h
  | _, _, .cons (a := a) (b := b) hab hr, s, h => by
    rw [List.find?_cons] at h ⊢
    by_cases hp : a.id = sid
    · have hb : b.id = sid := hab.1.trans hp
      simp only [hp, hb, decide_true] at h ⊢
      cases h
      exact ⟨b, rfl, hab⟩
    · have hb : ¬ b.id = sid := fun h => hp (hab.1.symm.trans h)
      simp only [hp, hb, decide_false] at h ⊢
      exact all2_find hr h

theorem Loose.session {c0 c : Ctx} (h : Loose c0 c) {sid : UInt32} {s : Session} (hs : c0.session? sid = some s) : ∃ t, c.session? sid = some t ∧ Core s t :=
  all2_find h.sessions hs

/-- a session in use fits the negotiation. -/
structure Good (n : Neg) (s : Session) : Prop where
  alone : s.mutAuth = 0
  hash : s.hash = n.baseHash
  armed : Armed s

theorem Good.core {n : Neg} {s t : Session} (h : Good n s) (hc : Core s t) : Good n t :=
  ⟨hc.2.2.2.2.2.trans h.alone, hc.2.1.trans h.hash, h.armed.core hc⟩

theorem Sized.cc {c0 c : Ctx} (h : Sized c0.neg) (hs : Loose c0 c) : (c.cc.hashSize?).isSome = true ∧ (c.cc.asymSize?).isSome = true ∧ (c.cc.dheSize?).isSome = true := by
  obtain ⟨p, hp⟩ := hs.neg
  unfold Cc.hashSize? Cc.asymSize? Cc.dheSize? Ctx.cc
  dsimp only
  rw [hp]
  exact ⟨h.hash, h.asym, h.dhe⟩
theorem Loose.sized {c0 c : Ctx} (hs : Loose c0 c) (h : Sized c0.neg) : Sized c.neg := by
  obtain ⟨p, hp⟩ := hs.neg
  rw [hp]
  exact ⟨h.hash, h.asym, h.dhe, h.aead⟩
theorem Loose.hash {c0 c : Ctx} (hs : Loose c0 c) : c.neg.baseHash = c0.neg.baseHash := by obtain ⟨p, hp⟩ := hs.neg; rw [hp]
theorem Loose.asym {c0 c : Ctx} (hs : Loose c0 c) : c.neg.baseAsym = c0.neg.baseAsym := by obtain ⟨p, hp⟩ := hs.neg; rw [hp]
theorem Loose.version {c0 c : Ctx} (hs : Loose c0 c) : c.neg.version = c0.neg.version := by obtain ⟨p, hp⟩ := hs.neg; rw [hp]
theorem Loose.dts {c0 c : Ctx} (hs : Loose c0 c) : c.neg.reqDts = c0.neg.reqDts := by obtain ⟨p, hp⟩ := hs.neg; rw [hp]

/-- so are the two flags the decoders use. -/
structure Same (c0 c : Ctx) : Prop extends Loose c0 c where
  summary : c.rt.needSummary = c0.rt.needSummary
  sig : c.rt.needSig = c0.rt.needSig

theorem Same.refl (c : Ctx) : Same c c := ⟨Loose.refl c, rfl, rfl⟩
theorem Same.trans {a b c : Ctx} (h : Same a b) (h' : Same b c) : Same a c := ⟨h.toLoose.trans h'.toLoose, h'.summary.trans h.summary, h'.sig.trans h.sig⟩
theorem Same.of {c0 c c' : Ctx} (h : Same c0 c) (hn : c'.neg = c.neg) (hs : c'.sessions = c.sessions) (h1 : c'.rt.needSummary = c.rt.needSummary)
    (h2 : c'.rt.needSig = c.rt.needSig) : Same c0 c' := ⟨h.toLoose.of hn hs, h1.trans h.summary, h2.trans h.sig⟩
theorem Same.upd {c0 c : Ctx} (h : Same c0 c) (sid : UInt32) {f : Session → Session} (hf : ∀ s, c.session? sid = some s → Core s (f s)) :
    Same c0 (c.updSession sid f) := ⟨h.toLoose.upd sid hf, h.summary, h.sig⟩

/-! ### `Snd`: no panic and the same skeleton -/

/-- what is left in the writer fits its buffer. -/
def Short (r : Reply) : Prop := r.pre.length ≤ msgSize

abbrev SndS {α : Type} (c0 : Ctx) (x : M Status Ctx α) : Prop := ∀ c, Same c0 c → x.Tot c (fun _ c' => Same c0 c') (fun _ c' => Same c0 c')
abbrev SndH {α : Type} (c0 : Ctx) (x : H α) : Prop := ∀ c, Same c0 c → x.Tot c (fun _ c' => Same c0 c') (fun r c' => Same c0 c' ∧ Short r)

variable {α β : Type} {c0 : Ctx}

theorem short_nil {code : ErrorCode} {data : UInt8} : Short { code := code, data := data } := by simp [Short]

theorem SndH.bind {x : H α} {f : α → H β} (hx : SndH c0 x) (hf : ∀ a, SndH c0 (f a)) : SndH c0 (x >>= f) := fun c hc => (hx c hc).bind fun a t ht => hf a t ht
theorem SndS.bind {x : M Status Ctx α} {f : α → M Status Ctx β} (hx : SndS c0 x) (hf : ∀ a, SndS c0 (f a)) : SndS c0 (x >>= f) := fun c hc => (hx c hc).bind fun a t ht => hf a t ht
theorem SndH.pure (a : α) : SndH c0 (pure a) := fun _ hc => tot_pure hc
theorem SndS.pure (a : α) : SndS c0 (pure a) := fun _ hc => tot_pure hc
theorem SndH.fail {r : Reply} (h : Short r) : SndH c0 (M.fail r : H α) := fun _ hc => tot_fail ⟨hc, h⟩
theorem SndS.fail {r : Status} : SndS c0 (M.fail r : M Status Ctx α) := fun _ hc => tot_fail hc
theorem SndH.modify {f : Ctx → Ctx} (h : ∀ c, Same c (f c)) : SndH c0 (M.modify f) := fun c hc => tot_modify (hc.trans (h c))
theorem SndS.modify {f : Ctx → Ctx} (h : ∀ c, Same c (f c)) : SndS c0 (M.modify f) := fun c hc => tot_modify (hc.trans (h c))
theorem SndH.ite {p : Prop} [Decidable p] {x y : H α} (hx : p → SndH c0 x) (hy : ¬ p → SndH c0 y) : SndH c0 (if p then x else y) := fun c hc =>
  tot_ite (fun h => hx h c hc) fun h => hy h c hc
theorem SndS.ite {p : Prop} [Decidable p] {x y : M Status Ctx α} (hx : p → SndS c0 x) (hy : ¬ p → SndS c0 y) : SndS c0 (if p then x else y) := fun c hc =>
  tot_ite (fun h => hx h c hc) fun h => hy h c hc
theorem SndH.ofOption {r : Reply} (h : Short r) (o : Option α) : SndH c0 (M.ofOption r o : H α) := fun _ hc => tot_ofOption (fun _ _ => hc) fun _ => ⟨hc, h⟩
theorem SndS.ofOption {r : Status} (o : Option α) : SndS c0 (M.ofOption r o : M Status Ctx α) := fun _ hc => tot_ofOption (fun _ _ => hc) fun _ => hc
theorem SndH.get {f : Ctx → H α} (h : ∀ c, Same c0 c → SndH c0 (f c)) : SndH c0 (M.get >>= f) := fun c hc =>
  (tot_get (Q := fun a t => a = c ∧ t = c) ⟨rfl, rfl⟩ : Tot M.get c _ _).bind (by rintro _ _ ⟨rfl, rfl⟩; exact h _ hc _ hc)
theorem SndS.get {f : Ctx → M Status Ctx α} (h : ∀ c, Same c0 c → SndS c0 (f c)) : SndS c0 (M.get >>= f) := fun c hc =>
  (tot_get (Q := fun a t => a = c ∧ t = c) ⟨rfl, rfl⟩ : Tot M.get c _ _).bind (by rintro _ _ ⟨rfl, rfl⟩; exact h _ hc _ hc)
theorem SndH.unwrap {o : Option α} (h : o.isSome = true) : SndH c0 (M.unwrap o : H α) := fun _ hc => tot_unwrap h fun _ _ => hc
theorem SndS.unwrap {o : Option α} (h : o.isSome = true) : SndS c0 (M.unwrap o : M Status Ctx α) := fun _ hc => tot_unwrap h fun _ _ => hc
theorem SndS.lift {x : Res α} (h : Safe x) : SndS c0 (x.lift : M Status Ctx α) := fun _ hc => h.lift (fun _ _ => hc) fun _ => hc
theorem SndS.mapErr {x : M Status Ctx α} {st : Status} (h : SndS c0 x) : SndS c0 (x.mapErr st) := fun c hc => Tot.mapErr ((h c hc).mono (fun _ _ h => h) fun _ _ h => h)
theorem SndH.mapErr {x : M Status Ctx α} {r : Reply} (hr : Short r) (h : SndS c0 x) : SndH c0 (x.mapErr r) := fun c hc =>
  Tot.mapErr ((h c hc).mono (fun _ _ h => h) fun _ _ h => ⟨h, hr⟩)
theorem SndH.liftH {x : Res α} {r : Reply} (hr : Short r) (h : Safe x) : SndH c0 (Rsp.liftH r x) := SndH.mapErr hr (SndS.lift h)

/-- a state-free step whose value is known. -/
theorem SndH.bindQ {x : H α} {f : α → H β} {Q : α → Prop} (hx : ∀ c, Same c0 c → x.Tot c (fun a c' => Same c0 c' ∧ Q a) (fun r c' => Same c0 c' ∧ Short r))
    (hf : ∀ a, Q a → SndH c0 (f a)) : SndH c0 (x >>= f) := fun c hc => (hx c hc).bind fun a t ht => hf a ht.2 t ht.1
theorem SndS.bindQ {x : M Status Ctx α} {f : α → M Status Ctx β} {Q : α → Prop} (hx : ∀ c, Same c0 c → x.Tot c (fun a c' => Same c0 c' ∧ Q a) (fun _ c' => Same c0 c'))
    (hf : ∀ a, Q a → SndS c0 (f a)) : SndS c0 (x >>= f) := fun c hc => (hx c hc).bind fun a t ht => hf a ht.2 t ht.1
theorem SndH.bindU {o : Option α} {f : α → H β} (h : o.isSome = true) (hf : ∀ a, o = some a → SndH c0 (f a)) : SndH c0 (M.unwrap o >>= f) :=
  SndH.bindQ (Q := fun a => o = some a) (fun _ hc => tot_unwrap h fun _ ha => ⟨hc, ha⟩) hf
theorem SndS.bindU {o : Option α} {f : α → M Status Ctx β} (h : o.isSome = true) (hf : ∀ a, o = some a → SndS c0 (f a)) : SndS c0 (M.unwrap o >>= f) :=
  SndS.bindQ (Q := fun a => o = some a) (fun _ hc => tot_unwrap h fun _ ha => ⟨hc, ha⟩) hf
theorem SndH.bindO {o : Option α} {r : Reply} {f : α → H β} (h : Short r) (hf : ∀ a, o = some a → SndH c0 (f a)) : SndH c0 (M.ofOption r o >>= f) :=
  SndH.bindQ (Q := fun a => o = some a) (fun _ hc => tot_ofOption (fun _ ha => ⟨hc, ha⟩) fun _ => ⟨hc, h⟩) hf
theorem SndS.bindO {o : Option α} {r : Status} {f : α → M Status Ctx β} (hf : ∀ a, o = some a → SndS c0 (f a)) : SndS c0 (M.ofOption r o >>= f) :=
  SndS.bindQ (Q := fun a => o = some a) (fun _ hc => tot_ofOption (fun _ ha => ⟨hc, ha⟩) fun _ => hc) hf
theorem SndH.bindL {x : Res α} {r : Reply} {f : α → H β} (hr : Short r) (h : Safe x) (hf : ∀ a, x = .ok a → SndH c0 (f a)) : SndH c0 (Rsp.liftH r x >>= f) :=
  SndH.bindQ (Q := fun a => x = .ok a) (fun _ hc => Tot.mapErr (h.lift (fun _ ha => ⟨hc, ha⟩) fun _ => ⟨hc, hr⟩)) hf
theorem SndS.bindL {x : Res α} {f : α → M Status Ctx β} (h : Safe x) (hf : ∀ a, x = .ok a → SndS c0 (f a)) : SndS c0 (x.lift >>= f) :=
  SndS.bindQ (Q := fun a => x = .ok a) (fun _ hc => h.lift (fun _ ha => ⟨hc, ha⟩) fun _ => hc) hf

/-! ### the pieces of the writers -/

theorem same_resetM (sid : Option UInt32) (c : Ctx) : Same c (Ctx.resetM sid c) := by
  unfold Ctx.resetM
  cases sid with
  | none => exact (Same.refl c).of rfl rfl rfl rfl
  | some i => exact (Same.refl c).upd i fun s _ => ⟨rfl, rfl, rfl, rfl, rfl, rfl⟩

theorem same_reset (k : ReqRespCode) (sid : Option UInt32) (c : Ctx) : Same c (Ctx.resetBuffers k sid c) := by
  unfold Ctx.resetBuffers
  have h1 : Same c (if k ≠ .reqGetMeasurements then Ctx.resetM sid c else c) := by
    split
    · exact same_resetM sid c
    · exact Same.refl c
  have h2 : ∀ c1, Same c c1 → Same c (Ctx.resetM1M2 c1) := fun c1 h => h.of rfl rfl rfl rfl
  have h3 : ∀ c1, Same c c1 → Same c (if c1.rt.state.code < 5 then c1.resetM1M2 else c1) := fun c1 h => by
    split
    · exact h2 _ h
    · exact h
  dsimp only
  split <;> first | exact h3 _ h1 | exact h2 _ h1 | exact h1

theorem snd_afterNegotiation : SndH c0 afterNegotiation := by
  unfold afterNegotiation
  exact SndH.get fun c _ => SndH.ite (fun _ => SndH.fail short_nil) fun _ => SndH.pure _

theorem header_tot (bytes : Bytes) : SndH c0 (header bytes) := by
  intro c hc
  unfold header
  have := Header.read_good.ne_panic (Reader.init bytes)
  cases h : Header.read (Reader.init bytes) with
  | ok a r => exact tot_pure hc
  | err a r => exact tot_fail ⟨hc, short_nil⟩
  | panic => exact absurd h this

theorem snd_checkVersion (bytes : Bytes) : SndH c0 (checkVersion bytes) := by
  unfold checkVersion
  exact (header_tot bytes).bind fun _ => SndH.get fun c _ => SndH.ite (fun _ => SndH.fail short_nil) fun _ => SndH.pure _

theorem snd_readReq {x : Cc → Rd α} (hx : ∀ c, Same c0 c → (x c.cc).Good) (bytes : Bytes) (r : Reader) : SndH c0 (readReq x bytes r) := by
  unfold readReq
  refine SndH.get fun c hc => ?_
  have := (hx c hc).ne_panic r
  intro c1 hc1
  cases h : x c.cc r with
  | ok a r => exact tot_pure hc1
  | err a r => exact tot_fail ⟨hc1, short_nil⟩
  | panic => exact absurd h this

theorem encodeRsp_tot {k : ReqRespCode} {p : Payload} {c : Ctx} {w : Bytes} (hw : Writes (p.encode c.cc) w) :
    (encodeRsp k p).Tot c (fun b c' => c' = c ∧ b = c.neg.version.get :: k.get :: w ∧ b.length ≤ msgSize) (fun r c' => c' = c ∧ Short r) := by
  have hw : Writes (Msg.encode c.cc ⟨⟨c.neg.version, k⟩, p⟩) (c.neg.version.get :: k.get :: w) :=
    (Writes.seq_cons (Header.encode_writes _) (Writes.seq_cons hw Writes.seq_nil)).cast (by simp [Header.wire])
  have h := hw (Writer.init msgSize) (by simp [Writer.WF, Writer.init])
  have key : encodeRsp k p c = match Msg.encode c.cc ⟨⟨c.neg.version, k⟩, p⟩ (Writer.init msgSize) with
      | .ok _ w => .ok w.out c
      | .err _ w => .err { pre := w.out, code := .unspecified } c
      | .panic => .panic := rfl
  by_cases hl : (c.neg.version.get :: k.get :: w).length ≤ msgSize
  · rw [h.1 (by simpa [Writer.init] using hl)] at key
    exact Tot.ok key ⟨rfl, by simp [Writer.init], by simpa [Writer.init] using hl⟩
  · obtain ⟨p, h1, h2, h3⟩ := h.2 (by simpa [Writer.init] using Nat.lt_of_not_le hl)
    rw [h3] at key
    exact Tot.err key ⟨rfl, by unfold Short; simpa [Writer.init] using h2⟩

theorem snd_encode {k : ReqRespCode} {p : Payload} {w : Ctx → Bytes} (hw : ∀ c, Same c0 c → Writes (p.encode c.cc) (w c)) {f : Bytes → H β}
    (hf : ∀ c b, Same c0 c → b = c.neg.version.get :: k.get :: w c → b.length ≤ msgSize → SndH c0 (f b)) : SndH c0 (encodeRsp k p >>= f) := fun c hc =>
  Tot.bind ((encodeRsp_tot (hw c hc)).mono (fun _ _ h => h) (by rintro r _ ⟨rfl, h⟩; exact ⟨hc, h⟩)) fun b t h => by
    obtain ⟨rfl, h2, h3⟩ := h
    exact hf t b hc h2 h3 t hc
theorem snd_encode' {k : ReqRespCode} {p : Payload} {w : Ctx → Bytes} (hw : ∀ c, Same c0 c → Writes (p.encode c.cc) (w c)) : SndH c0 (encodeRsp k p) := fun c hc =>
  (encodeRsp_tot (hw c hc)).mono (by rintro _ _ ⟨rfl, _⟩; exact hc) (by rintro r _ ⟨rfl, h⟩; exact ⟨hc, h⟩)

/-! ### what the platform guarantees -/

/-- the callbacks behave: digests, signatures and MACs have the size of their algorithm, supported hashes are computed, the DHE
provider knows the negotiated groups, the measurement provider always answers, the first certificate of a provisioned chain is found. -/
structure Honest (e : Env) : Prop where
  hash : HashLaw e
  hashes : ∀ h d, (BaseHash.size? h).isSome = true → (e.crypto.hash h d).isSome = true
  summary : SummaryLaw e
  measures : ∀ v s h i, (e.measure v s h i).isSome = true
  signs : ∀ h a m sig, e.sign h a m = some sig → BaseAsym.size? a = some sig.length
  macs : ∀ h k d m, e.crypto.hmac h k d = some m → BaseHash.size? h = some m.length
  groups : ∀ g, (Dhe.size? g).isSome = true → (e.dheGen g).isSome = true

/-! ### transcripts -/

theorem snd_appendA (msg : Bytes) : SndS c0 (Ctx.appendA msg) := by
  unfold Ctx.appendA
  refine SndS.get fun c hc => SndS.ite (fun _ => ?_) fun _ => SndS.fail
  intro c1 _
  exact tot_set (hc.of rfl rfl rfl rfl)

theorem snd_appendM1M2 (st : Status) (msg : Bytes) : SndS c0 (Ctx.appendM1M2 e st msg) := by
  unfold Ctx.appendM1M2
  refine SndS.get fun c hc => ?_
  intro c1 h1
  cases c.rt.m1m2 with
  | some x => exact tot_set (hc.of rfl rfl rfl rfl)
  | none =>
    cases Ctx.hashInit e c.neg.baseHash with
    | none => exact tot_fail h1
    | some x => exact tot_set (hc.of rfl rfl rfl rfl)

theorem snd_appendB (sid : Option UInt32) (msg : Bytes) : SndS c0 (appendBPlain e sid msg) := by
  unfold appendBPlain
  cases sid with
  | none => exact snd_appendM1M2 _ _
  | some i => exact SndS.pure _

theorem snd_appendM (sid : Option UInt32) (msg : Bytes) : SndS c0 (Ctx.appendM e sid msg) := by
  unfold Ctx.appendM
  refine SndS.get fun c hc => ?_
  intro c1 h1
  cases sid with
  | none =>
    dsimp only
    cases c.rt.l1l2 with
    | some x => exact tot_set (hc.of rfl rfl rfl rfl)
    | none =>
      dsimp only
      cases Ctx.startL1L2 e c with
      | none => exact tot_fail h1
      | some x => exact tot_set (hc.of rfl rfl rfl rfl)
  | some i =>
    dsimp only
    cases c.session? i with
    | none => exact tot_fail h1
    | some s =>
      dsimp only
      cases s.l1l2 with
      | some x => exact tot_set (hc.upd i fun _ _ => ⟨rfl, rfl, rfl, rfl, rfl, rfl⟩)
      | none =>
        dsimp only
        cases Ctx.startL1L2 e c with
        | none => exact tot_fail h1
        | some x => exact tot_set (hc.upd i fun _ _ => ⟨rfl, rfl, rfl, rfl, rfl, rfl⟩)

/-! ### the writers -/

/-- the whole writer: no panic, the negotiation and the sessions as before. -/
abbrev TotH {α : Type} (c : Ctx) (x : H α) : Prop := x.Tot c (fun _ c' => Loose c c') (fun r c' => Loose c c' ∧ Short r)

theorem SndH.tot {x : H α} (h : SndH c0 x) : TotH c0 x := (h c0 (Same.refl c0)).mono (fun _ _ h => h.toLoose) fun _ _ h => ⟨h.1.toLoose, h.2⟩

theorem snd_appended {rsp : Bytes} (h : rsp.length ≤ msgSize) {x : M Status Ctx Unit} (hx : SndS c0 x) : SndH c0 (orAppended rsp x) := SndH.mapErr h hx
theorem snd_or {x : M Status Ctx α} (hx : SndS c0 x) : SndH c0 (orUnspecified x) := SndH.mapErr short_nil hx

theorem vendor_encodes (m : Vendor) : Writes m.encode ([0] ++ [0] ++ putU16 m.standard.get ++ [m.vendorId.length.toUInt8] ++ m.vendorId ++
    putU16 m.length ++ m.data.take (min m.length.toNat 4087)) := by
  have a1 := RegistryId.writes m.standard
  unfold Vendor.encode
  apply Writes.cast
  · wr
  simp

theorem snd_vendorRsp (c : Ctx) (sid : Option UInt32) (bytes : Bytes) : TotH c (vendorRsp e sid bytes) := by
  refine SndH.tot ?_
  unfold vendorRsp
  exact (snd_checkVersion bytes).bind fun r => (SndH.modify (same_reset _ _)).bind fun _ => (snd_readReq (fun _ _ => Vendor.read_good) _ _).bind fun m =>
    (SndH.ofOption short_nil _).bind fun p => snd_encode' (p := .vendorRsp _) fun _ _ => vendor_encodes _

theorem snd_errorResponse (c : Ctx) (code : ErrorCode) (bytes : Bytes) : TotH c (errorResponse code bytes) := by
  refine SndH.tot ?_
  unfold errorResponse
  refine SndH.get fun c hc => ?_
  intro c1 hc1
  have := Header.read_good.ne_panic (Reader.init bytes)
  cases h : Header.read (Reader.init bytes) with
  | ok a r => exact SndH.ite (fun _ => SndH.fail short_nil) (fun _ => SndH.fail short_nil) c1 hc1
  | err a r => exact tot_fail ⟨hc1, short_nil⟩
  | panic => exact absurd h this

theorem snd_heartbeatRsp (c : Ctx) (sid : UInt32) (bytes : Bytes) : TotH c (heartbeatRsp sid bytes) := by
  refine SndH.tot ?_
  unfold heartbeatRsp
  exact (snd_checkVersion bytes).bind fun r => (SndH.modify (same_reset _ _)).bind fun _ => (snd_readReq (fun _ _ => rdNoParams_good) _ _).bind fun m =>
    snd_encode' (p := .heartbeatAck) fun c _ => Payload.encode_writes (c := c.cc) (p := .heartbeatAck) trivial

theorem snd_endSessionRsp (c : Ctx) (sid : UInt32) (bytes : Bytes) : TotH c (endSessionRsp sid bytes) := by
  refine SndH.tot ?_
  unfold endSessionRsp
  exact (snd_checkVersion bytes).bind fun r => (snd_readReq (fun _ _ => rdEndSession_good) _ _).bind fun m => (SndH.modify (same_reset _ _)).bind fun _ =>
    snd_encode' (p := .endSessionAck) fun c _ => Payload.encode_writes (c := c.cc) (p := .endSessionAck) trivial

/-- an operation on a session that is there. -/
theorem snd_onSession {sid : UInt32} {s0 : Session} (h0 : c0.session? sid = some s0) {missing : M Status Ctx α} {x : M Status Session α} (hx : Keeps s0 x) :
    SndS c0 (Ctx.onSession sid missing x) := by
  unfold Ctx.onSession
  refine SndS.get fun c hc => ?_
  intro c1 _
  obtain ⟨s, hs, hcore⟩ := hc.session h0
  rw [hs]
  dsimp only
  have := hx s hcore
  have hu : ∀ t, Core s0 t → Same c0 (c.updSession sid fun _ => t) := fun t ht => hc.upd sid fun s' hs' => by
    rw [hs] at hs'; cases hs'
    obtain ⟨a1, a2, a3, a4, a5, a6⟩ := hcore
    obtain ⟨b1, b2, b3, b4, b5, b6⟩ := ht
    exact ⟨b1.trans a1.symm, b2.trans a2.symm, b3.trans a3.symm, b4.trans a4.symm, b5.trans a5.symm, b6.trans a6.symm⟩
  cases hr : x s with
  | ok a t => exact hu t (this.of_ok hr)
  | err r t => exact hu t (this.of_err hr)
  | panic => exact absurd hr this.ne

theorem snd_keyUpdateRsp {c : Ctx} {sid : UInt32} {s : Session} (hs : c.session? sid = some s) (ha : Armed s) (bytes : Bytes) : TotH c (keyUpdateRsp e sid bytes) := by
  refine SndH.tot ?_
  unfold keyUpdateRsp
  exact (snd_checkVersion bytes).bind fun r => (SndH.modify (same_reset _ _)).bind fun _ => (snd_readReq (fun _ _ => KeyUpd.read_good) _ _).bind fun m =>
    SndH.get fun c1 _ => (SndH.mapErr short_nil (snd_onSession hs (keeps_keyUpdateOps e _ ha _))).bind fun known =>
    SndH.ite (fun _ => SndH.fail short_nil) fun _ => snd_encode' (p := .keyUpdateAck _) fun c _ => KeyUpd.encode_writes _

theorem cert_encodes (m : CertRsp) : Writes m.encode ([m.slot] ++ [0] ++ putU16 m.portion ++ putU16 m.remainder ++ m.data.take (min m.portion.toNat 512)) := by
  unfold CertRsp.encode
  apply Writes.cast
  · wr
  simp

theorem snd_certificateRsp (c : Ctx) (sid : Option UInt32) (bytes : Bytes) : TotH c (certificateRsp e sid bytes) := by
  refine SndH.tot ?_
  unfold certificateRsp
  exact snd_afterNegotiation.bind fun _ => (snd_checkVersion bytes).bind fun r => (SndH.modify (same_reset _ _)).bind fun _ =>
    (snd_readReq (fun _ _ => GetCert.read_good) _ _).bind fun m => SndH.ite (fun _ => SndH.fail short_nil) fun _ => (snd_or (snd_appendB _ _)).bind fun _ =>
    SndH.get fun c1 _ => (SndH.ofOption short_nil _).bind fun chain => (SndH.ofOption short_nil _).bind fun p =>
    snd_encode (p := .cert _) (fun _ _ => cert_encodes _) fun c b _ _ hb => (snd_appended hb (snd_appendB _ _)).bind fun _ => SndH.pure _

theorem safe_patchDigests (hh : Honest e) (c : Ctx) {hs : Nat} (hhs : BaseHash.size? c.neg.baseHash = some hs) :
    ∀ (is : List (Fin 8)) (b : Bytes), ((∃ i ∈ is, (c.prov.chain i).isSome = true) → hs ≤ b.length) → Safe (patchDigests e c is b) ∧
      ∀ r, patchDigests e c is b = .ok r → r.length = b.length
  | [], b, _ => ⟨safe_ok _, fun r h => by cases h; rfl⟩
  | i :: is, b, hb => by
    unfold patchDigests
    cases hc : c.prov.chain i with
    | none => exact safe_patchDigests hh c hhs is b fun ⟨j, hj, hp⟩ => hb ⟨j, List.mem_cons_of_mem _ hj, hp⟩
    | some ch =>
      dsimp only
      have hlen := hb ⟨i, by simp, by rw [hc]; rfl⟩
      have hsome := hh.hashes c.neg.baseHash ch (by rw [hhs]; rfl)
      cases hd : e.crypto.hash c.neg.baseHash ch with
      | none => rw [hd] at hsome; cases hsome
      | some d =>
        have hdl : d.length = hs := by
          have := hh.hash _ _ _ hd
          rw [hhs] at this; cases this; rfl
        have hp : patchTail d.length d b = .ok (b.take (b.length - d.length) ++ d) := by
          unfold patchTail; rw [if_pos ⟨by omega, rfl⟩]
        have hl : (b.take (b.length - d.length) ++ d).length = b.length := by simp; omega
        have ih := safe_patchDigests hh c hhs is (b.take (b.length - d.length) ++ d) (fun _ => by rw [hl]; omega)
        simp only [Res.unwrap, Res.ok_bind, hp]
        exact ⟨ih.1, fun r hr => (ih.2 r hr).trans hl⟩

theorem digests_write {cc : Cc} {hs : Nat} (hhs : cc.hashSize? = some hs) (mask : UInt8) :
    Writes (Digests.encode cc ⟨mask, List.replicate 8 (List.replicate hs 0xff)⟩) ([0] ++ [mask] ++ ((List.replicate 8 (List.replicate hs (0xff : UInt8))).take (slotCount mask)).flatMap id) := by
  have hd : Writes (encN (encDigest cc) ((List.replicate 8 (List.replicate hs (0xff : UInt8))).take (slotCount mask)))
      (((List.replicate 8 (List.replicate hs (0xff : UInt8))).take (slotCount mask)).flatMap id) :=
    Writes.repeat _ fun d hd => encDigest_writes (by
      have := List.eq_of_mem_replicate (List.mem_of_mem_take hd)
      unfold Cc.DigestOk; rw [hhs, this]; simp)
  unfold Digests.encode
  apply Writes.cast
  · wr
  simp

theorem snd_digestRsp (hh : Honest e) {c : Ctx} (hz : Sized c.neg) (sid : Option UInt32) (bytes : Bytes) : TotH c (digestRsp e sid bytes) := by
  refine SndH.tot ?_
  unfold digestRsp
  refine snd_afterNegotiation.bind fun _ => (snd_checkVersion bytes).bind fun r => (SndH.modify (same_reset _ _)).bind fun _ =>
    (snd_readReq (fun _ _ => rdNoParams_good) _ _).bind fun m => (snd_or (snd_appendB _ _)).bind fun _ => SndH.get fun c1 h1 => ?_
  refine SndH.bindU (Sized.cc hz h1.toLoose).1 fun hs hhs => ?_
  have hsz : BaseHash.size? c1.neg.baseHash = some hs := hhs
  have hsame : ∀ c2, Same c c2 → c2.cc.hashSize? = some hs := fun c2 h2 => by
    rw [← hhs]; show BaseHash.size? c2.neg.baseHash = BaseHash.size? c1.neg.baseHash
    rw [h2.hash, h1.hash]
  refine snd_encode (p := .digests _) (fun c2 h2 => digests_write (hsame c2 h2) _) fun c2 b h2 hb hlen => ?_
  obtain ⟨g1, g2⟩ := safe_patchDigests hh c1 hsz (List.finRange 8) b (by
    rintro ⟨i, _, hi⟩
    have := slotMask_ne c1.prov i hi
    have h1 : 1 ≤ min (slotCount (slotMask c1.prov)) 8 := by omega
    have hf : ∀ (n m : Nat), ((List.replicate n (List.replicate m (0xff : UInt8))).flatMap id).length = n * m := by
      intro n m
      induction n with
      | zero => simp
      | succ n ih => rw [List.replicate_succ, List.flatMap_cons, List.length_append, ih, Nat.succ_mul]; simp; omega
    have : ∀ (l : Bytes) (a b c d : UInt8), (a :: b :: ([c] ++ [d] ++ l)).length = 4 + l.length := by intros; simp; omega
    rw [hb, this, List.take_replicate, hf]
    have : 1 * hs ≤ min (slotCount (slotMask c1.prov)) 8 * hs := Nat.mul_le_mul_right _ h1
    omega)
  refine SndH.bindL short_nil g1 fun rsp hr => ?_
  exact (snd_appended (by rw [g2 _ hr]; exact hlen) (snd_appendB _ _)).bind fun _ => SndH.pure _

/-! ### sending -/

/-- the transport never overruns a buffer for what the library gives it; unpacking is safe up to `lim` bytes. -/
structure Roomy (tr : Transport) (lim : Nat) : Prop where
  encap : ∀ msg sec, msg.length ≤ 4160 → Safe (Ctx.intoBuf (tr.encap msg sec) 4160)
  decap : ∀ rx, rx.length ≤ 4160 → Safe (Ctx.intoBuf2 (tr.decap rx) 4160)
  encapApp : ∀ msg a, msg.length ≤ 4096 → Safe (Ctx.intoBuf (tr.encapApp msg a) 4160) ∧ ∀ b, Ctx.intoBuf (tr.encapApp msg a) 4160 = .ok b → b.length ≤ 4097
  decapApp : ∀ app, app.length ≤ lim → app.length ≤ 4160 → Safe (Ctx.intoBuf2 (tr.decapApp app) msgSize)

variable {lim : Nat}

theorem tot_devSend (pkt : Bytes) (c : Ctx) : (Ctx.devSend e pkt).Tot c (fun _ c' => c' = withSent pkt c) (fun _ c' => c' = withSent pkt c) := by
  unfold Ctx.devSend
  refine tot_get_bind ?_
  refine tot_set_bind ?_
  cases e.send _ pkt with
  | none => exact tot_pure rfl
  | some st => exact tot_fail rfl

theorem error_fits {c : Ctx} (hd : DtsOk c.neg) (code : ErrorCode) (data : UInt8) : tooLarge c (errorBytes c.neg.version code data) = false := by
  unfold tooLarge
  unfold DtsOk at hd
  have : (errorBytes c.neg.version code data).length = 4 := rfl
  rw [this]
  rcases hd with h | h
  · rw [h]; rfl
  · have : ¬ c.neg.reqDts.toNat < 4 := by omega
    simp [this]

theorem starts_get {k : UInt8} {b : Bytes} (h : Starts k b) : b[1]? = some k := by
  obtain ⟨v, t, rfl⟩ := h
  rfl

theorem sendPlain_calm (hr : Roomy e.tr lim) {k : UInt8} {b : Bytes} (hb : Starts k b) (hl : b.length ≤ 4160) (c : Ctx)
    (hf : k = 0x65 → ∃ sid s, c.rt.lastSession = some sid ∧ c.session? sid = some s) : sendPlain e b c ≠ .panic := by
  refine Tot.ne (Q := fun _ _ => True) (E := fun _ _ => True) ?_
  unfold sendPlain
  refine Tot.bind (Safe.lift (Q := fun _ t => c = t) (hr.encap b false hl) (fun _ _ => rfl) fun _ => trivial) ?_
  rintro pkt _ rfl
  refine Tot.bind ((tot_devSend pkt _).mono (fun _ _ h => h) fun _ _ _ => trivial) ?_
  rintro _ _ rfl
  refine tot_unwrap_bind (starts_get hb) ?_
  by_cases hk : k = 0x65
  · obtain ⟨sid, s, h1, h2⟩ := hf hk
    subst hk
    unfold afterSend
    simp only [ReqRespCode.get]
    have h2' : (withSent pkt c).session? sid = some s := h2
    refine tot_get_bind ?_
    refine tot_unwrap_bind (a := sid) h1 ?_
    refine Tot.bind (P := fun _ _ => True) ?_ fun _ _ _ => tot_modify trivial
    unfold Ctx.onSession
    refine tot_get_bind ?_
    rw [h2']
    exact trivial
  · refine tot_true ?_
    rw [afterSend_eq _ hk]
    intro h; cases h

theorem sendMessage_calm (hr : Roomy e.tr lim) {k : UInt8} {b : Bytes} (hb : Starts k b) (hl : b.length ≤ 4160) {c : Ctx} (hd : DtsOk c.neg)
    (hf : k = 0x65 → ∃ sid s, c.rt.lastSession = some sid ∧ c.session? sid = some s) : sendMessage e b c ≠ .panic := by
  refine Tot.ne (Q := fun _ _ => True) (E := fun _ _ => True) ?_
  unfold sendMessage
  refine tot_get_bind ?_
  refine tot_ite (fun _ => ?_) fun _ => ?_
  · refine tot_unwrap_bind (writeError_nil _ _ rfl) ?_
    rw [error_fits hd]
    refine tot_ite (fun h => by cases h) fun _ => tot_true (sendPlain_calm hr (k := 0x7F) ⟨_, _, rfl⟩ (by simp [errorBytes]) _ fun h => by cases h)
  · exact tot_true (sendPlain_calm hr hb hl _ hf)

theorem snd_sendError (hr : Roomy e.tr lim) (hd : DtsOk c0.neg) (code : ErrorCode) : SndH c0 (sendError e code) := by
  unfold sendError
  refine SndH.get fun c hc => ?_
  intro c1 h1
  refine tot_unwrap_bind (writeError_nil _ _ rfl) ?_
  have hs : Starts 0x7F (errorBytes c.neg.version code 0) := ⟨_, _, rfl⟩
  have hd1 : DtsOk c1.neg := by unfold DtsOk; rw [h1.dts]; exact hd
  have h := sendMessage_calm hr hs (by simp [errorBytes]) hd1 (fun h => by cases h)
  have hw := sendMessage_wp (e := e) hs (by decide) c1
  have key : ∀ pkt, Same c0 (withSent pkt c1) := fun pkt => h1.of rfl rfl rfl rfl
  unfold quiet Tot
  dsimp only
  cases hx : sendMessage e (errorBytes c.neg.version code 0) c1 with
  | ok a t' =>
    obtain ⟨pkt, _, _, rfl⟩ := hw.ok hx
    exact h1.of rfl rfl rfl rfl
  | err a t' =>
    rcases hw.err hx with rfl | ⟨pkt, _, rfl⟩
    · exact h1
    · exact key pkt
  | panic => exact absurd hx h

/-! ### the signing writers -/

theorem summary_tot (hh : Honest e) {ε : Type} (t : SummaryHashType) (c : Ctx) : (summaryHash e t : M ε Ctx (Option Bytes)).Tot c
    (fun o c' => Loose c c' ∧ ∀ s, o = some s → OptOk c'.cc.needSummary c'.cc.DigestOk s) (fun _ _ => False) := by
  unfold summaryHash
  refine tot_ite (fun _ => ?_) fun _ => ?_
  · refine tot_modify_bind (tot_get_bind ?_)
    dsimp only
    have hl : Loose c { c with rt := { c.rt with needSummary := true } } := (Loose.refl c).of rfl rfl
    cases hs : e.summary c.neg.version c.neg.baseHash c.neg.measSpec c.neg.measHash t with
    | none => exact tot_pure ⟨hl, fun s h => by cases h⟩
    | some d =>
      refine tot_ite (fun _ => tot_pure ⟨hl, fun s h => by cases h⟩) fun _ => tot_pure ⟨hl, fun s h => ?_⟩
      cases h
      exact hh.summary _ _ _ _ _ _ hs
  · refine tot_modify_bind (tot_pure ⟨(Loose.refl c).of rfl rfl, fun s h => ?_⟩)
    cases h
    rfl

theorem challengeAuth_writes {cc : Cc} {slot : UInt8} (hslot : slot < 8) {ch nonce sum : Bytes} {asym : Nat} (hc : cc.DigestOk ch) (hn : nonce.length = 32)
    (hs : OptOk cc.needSummary cc.DigestOk sum) (ha : cc.asymSize? = some asym) :
    Writes (ChallengeAuth.encode cc ⟨slot, 0, 1, ch, nonce, sum, [], List.replicate asym 0xbb⟩)
      (ChallengeAuth.wire cc ⟨slot, 0, 1, ch, nonce, sum, [], List.replicate asym 0xbb⟩) := by
  refine ChallengeAuth.encode_writes ⟨UInt8.lt_iff_toNat_lt.2 (by have := UInt8.lt_iff_toNat_lt.1 hslot; simp at this ⊢; omega), .inl rfl, hc, hn, hs, by simp, ?_⟩
  unfold Cc.SigOk; rw [ha]; simp

theorem safe_dropTail {n : Nat} {b : Bytes} (h : n ≤ b.length) : Safe (dropTail n b) := by
  unfold dropTail; rw [if_pos h]; exact safe_ok _
theorem safe_patchTail {n : Nat} {new b : Bytes} (h : n ≤ b.length) (hn : new.length = n) : Safe (patchTail n new b) := by
  unfold patchTail; rw [if_pos ⟨h, hn⟩]; exact safe_ok _

theorem safe_challengeMsg (cc : Cc) (h : Bytes) : Safe (Sign.challengeAuthMsg cc h) := Props.C40_never_panics cc .challengeAuth h
theorem safe_measurementsMsg (cc : Cc) (h : Bytes) : Safe (Sign.measurementsMsg cc h) := Props.C40_never_panics cc .measurements h
theorem safe_keyExchangeMsg (cc : Cc) (h : Bytes) : Safe (Sign.keyExchangeRspMsg cc h) := Props.C40_never_panics cc .keyExchangeRsp h

theorem safe_challengeSig {c : Ctx} (h : c.rt.m1m2.isSome = true) : Safe (challengeSig e c) := by
  unfold challengeSig
  exact (safe_unwrap h).bind fun _ _ => (safe_ofOption _ _).bind fun _ _ => (safe_challengeMsg _ _).bind fun _ _ => safe_ofOption _ _

theorem challengeSig_length (hh : Honest e) {c : Ctx} {sig : Bytes} (h : challengeSig e c = .ok sig) : BaseAsym.size? c.neg.baseAsym = some sig.length := by
  unfold challengeSig at h
  simp only [Res.bind_ok] at h
  obtain ⟨_, _, _, _, m, _, h⟩ := h
  exact hh.signs _ _ _ _ (Res.ofOption_ok.1 h)

theorem tot_finishChallenge (hh : Honest e) (hr : Roomy e.tr lim) {c0 c : Ctx} (h0 : Same c0 c) (hd : DtsOk c.neg) (hm : c.rt.m1m2.isSome = true) {asym : Nat} (ha : c.cc.asymSize? = some asym)
    {rsp : Bytes} (hl : asym ≤ rsp.length) : (finishChallenge e asym rsp).Tot c (fun _ c' => Same c0 c') (fun r c' => Same c0 c' ∧ Short r) := by
  unfold finishChallenge
  refine tot_get_bind ?_
  have hsafe := safe_challengeSig (e := e) hm
  cases hs : challengeSig e c with
  | panic => exact absurd hs hsafe
  | err st => exact ((snd_sendError hr hd .unspecified).bind fun _ => SndH.pure _) c (Same.refl c) |>.mono (fun _ _ h => h0.trans h) fun _ _ h => ⟨h0.trans h.1, h.2⟩
  | ok sig =>
    have := challengeSig_length hh hs
    rw [show BaseAsym.size? c.neg.baseAsym = some asym from ha] at this
    exact (SndH.bindL short_nil (safe_patchTail hl (by cases this; rfl)) fun _ _ => (SndH.modify (f := Ctx.resetM1M2) fun c => (Same.refl c).of rfl rfl rfl rfl).bind fun _ => SndH.pure _) c h0

/-- start over from a later state. -/
theorem TotH.rebase {x : H α} {f : α → H β} {c : Ctx} {P : α → Ctx → Prop} (hx : x.Tot c (fun a c' => Loose c c' ∧ P a c') (fun r c' => Loose c c' ∧ Short r))
    (hf : ∀ a c', Loose c c' → P a c' → TotH c' (f a)) : TotH c (x >>= f) :=
  Tot.bind hx fun a t ht => (hf a t ht.1 ht.2).mono (fun _ _ h => ht.1.trans h) fun _ _ h => ⟨ht.1.trans h.1, h.2⟩

theorem TotH.after {x : H α} {f : α → H β} {c : Ctx} (hx : TotH c x) (hf : ∀ a c', Loose c c' → TotH c' (f a)) : TotH c (x >>= f) :=
  TotH.rebase (P := fun _ _ => True) (hx.mono (fun _ _ h => ⟨h, trivial⟩) fun _ _ h => h) fun a c' h _ => hf a c' h

theorem Loose.dtsOk {c c' : Ctx} (h : Loose c c') (hd : DtsOk c.neg) : DtsOk c'.neg := by unfold DtsOk; rw [h.dts]; exact hd

theorem appendM1M2_tot (c : Ctx) (st : Status) (msg : Bytes) : (Ctx.appendM1M2 e st msg).Tot c (fun _ c' => Same c c' ∧ c'.rt.m1m2.isSome = true) (fun _ c' => Same c c') := by
  unfold Ctx.appendM1M2
  refine tot_get_bind ?_
  cases c.rt.m1m2 with
  | some x => exact tot_set ⟨(Same.refl c).of rfl rfl rfl rfl, rfl⟩
  | none =>
    dsimp only
    cases Ctx.hashInit e c.neg.baseHash with
    | none => exact tot_fail (Same.refl c)
    | some x => exact tot_set ⟨(Same.refl c).of rfl rfl rfl rfl, rfl⟩

theorem snd_challengeRsp (hh : Honest e) (hr : Roomy e.tr lim) {c : Ctx} (hd : DtsOk c.neg) (hz : Sized c.neg) (bytes : Bytes) : TotH c (challengeRsp e bytes) := by
  unfold challengeRsp
  refine TotH.after (SndH.tot snd_afterNegotiation) fun _ c1 h1 => TotH.after (SndH.tot (snd_checkVersion _)) fun r c2 h2 =>
    TotH.after (SndH.tot (SndH.modify (same_reset _ _))) fun _ c3 h3 => TotH.after (SndH.tot (snd_readReq (fun _ _ => Challenge.read_good _) _ _)) fun m c4 h4 => ?_
  have h4 := ((h1.trans h2).trans h3).trans h4
  refine TotH.rebase ((summary_tot hh _ _).mono (fun _ _ h => h) fun _ _ h => h.elim) fun o c5 h5 ho => ?_
  have h5 := h4.trans h5
  refine SndH.tot (SndH.bindO short_nil fun sum hsum => SndH.get fun c6 h6 => SndH.bindO short_nil fun chain hch => (snd_or (snd_appendM1M2 _ _)).bind fun _ => ?_)
  have hz5 := h5.sized hz
  have hz6 := h6.sized hz5
  refine SndH.bindU (hh.hashes _ _ hz6.hash) fun ch hhash => SndH.bindO short_nil fun nonce hnonce => SndH.bindU (Sized.cc hz5 h6.toLoose).2.1 fun asym hasym => ?_
  have hslot : m.1.slot < 8 := by
    unfold localChain Ctx.slot? at hch
    split at hch
    · rename_i h; exact UInt8.lt_iff_toNat_lt.2 h
    · cases hch
  have hasym' : ∀ c7, Same c5 c7 → c7.cc.asymSize? = some asym := fun c7 h7 => by
    rw [← hasym]; show BaseAsym.size? c7.neg.baseAsym = BaseAsym.size? c6.neg.baseAsym; rw [h7.asym, h6.asym]
  have hdig : ∀ (c7 : Ctx), Same c5 c7 → ∀ d, c7.cc.DigestOk d ↔ c5.cc.DigestOk d := fun c7 h7 d => by
    show BaseHash.size? c7.neg.baseHash = some d.length ↔ BaseHash.size? c5.neg.baseHash = some d.length
    rw [h7.hash]
  refine snd_encode (p := .challengeAuth _) (fun c7 h7 => challengeAuth_writes hslot ?_ (random_length hnonce) ?_ (hasym' c7 h7)) fun c7 b h7 hb hlen => ?_
  · have := hh.hash _ _ _ hhash
    show BaseHash.size? c7.neg.baseHash = _
    rw [h7.hash, ← h6.hash]; exact this
  · have h := ho sum hsum
    have hns : c7.cc.needSummary = c5.cc.needSummary := h7.summary
    unfold OptOk at h ⊢
    rw [hns]
    split
    · rename_i hw; rw [if_pos hw] at h; exact (hdig c7 h7 _).2 h
    · rename_i hw; rw [if_neg hw] at h; exact h
  have hlb : asym ≤ b.length := by rw [hb]; simp [ChallengeAuth.wire]; omega
  refine SndH.bindL short_nil (safe_dropTail hlb) fun body _ => ?_
  intro c8 h8
  refine Tot.bind (Tot.mapErr ((appendM1M2_tot (e := e) c8 _ _).mono (fun _ _ h => h) fun r t h => ⟨h8.trans h, hlen⟩)) ?_
  rintro _ c9 ⟨h9, hm⟩
  have h9 := h8.trans h9
  exact tot_finishChallenge hh hr h9 ((h5.trans h9.toLoose).dtsOk hd) hm (hasym' c9 h9) hlb

/-! ### MEASUREMENTS -/

theorem meas_writes {c : Cc} {m : Meas} (h : c.needSig = true → c.SigOk m.signature) : Writes (m.encode c) (m.wire c) := by
  have a1 := MeasRecord.encode_writes m.record
  have a2 := encOpaque_writes m.opaq
  have a3 : Writes (encOpt c.needSig (encSignature c m.signature)) (optWire c.needSig m.signature) := encOpt_writes fun hb => encSignature_writes (h hb)
  unfold Meas.encode
  apply Writes.cast
  · wr
  simp [Meas.wire]

theorem appendM_tot (c : Ctx) (sid : Option UInt32) (msg : Bytes) : (Ctx.appendM e sid msg).Tot c (fun _ c' => Same c c' ∧ (l1l2? c' sid).isSome = true) (fun _ c' => Same c c') := by
  have h := snd_appendM (c0 := c) (e := e) sid msg c (Same.refl c)
  cases hx : Ctx.appendM e sid msg c with
  | panic => exact absurd hx h.ne
  | err r t => exact Tot.err hx (h.of_err hx)
  | ok a t =>
    refine Tot.ok hx ⟨h.of_ok hx, ?_⟩
    have hk := hx
    unfold Ctx.appendM at hk
    simp only [M.bind_apply, M.get_apply] at hk
    cases sid with
    | none =>
      dsimp only at hk
      cases hl : c.rt.l1l2 with
      | some x => simp only [hl, M.set_apply] at hk; cases hk; rfl
      | none =>
        simp only [hl] at hk
        cases hs : Ctx.startL1L2 e c with
        | none => simp only [hs] at hk; cases hk
        | some x => simp only [hs, M.set_apply] at hk; cases hk; rfl
    | some i =>
      dsimp only at hk
      cases hs0 : c.session? i with
      | none => simp only [hs0] at hk; cases hk
      | some s =>
        simp only [hs0] at hk
        have key : ∀ x, (l1l2? (c.updSession i fun s => { s with l1l2 := some x }) (some i)).isSome = true := fun x => by
          unfold l1l2?
          dsimp only
          rw [session?_upd (f := fun s => { s with l1l2 := some x }) hs0 (by simpa using List.find?_some hs0)]
          rfl
        cases hl : s.l1l2 with
        | some x => simp only [hl, M.set_apply] at hk; cases hk; exact key _
        | none =>
          simp only [hl] at hk
          cases hs : Ctx.startL1L2 e c with
          | none => simp only [hs] at hk; cases hk
          | some x => simp only [hs, M.set_apply] at hk; cases hk; exact key _

theorem safe_measurementSig {c : Ctx} {sid : Option UInt32} (h : (l1l2? c sid).isSome = true) : Safe (measurementSig e sid c) := by
  unfold measurementSig
  exact (safe_unwrap h).bind fun _ _ => (safe_ofOption _ _).bind fun _ _ => (safe_measurementsMsg _ _).bind fun _ _ => safe_ofOption _ _

theorem measurementSig_length (hh : Honest e) {c : Ctx} {sid : Option UInt32} {sig : Bytes} (h : measurementSig e sid c = .ok sig) :
    BaseAsym.size? c.neg.baseAsym = some sig.length := by
  unfold measurementSig at h
  simp only [Res.bind_ok] at h
  obtain ⟨_, _, _, _, m, _, h⟩ := h
  exact hh.signs _ _ _ _ (Res.ofOption_ok.1 h)

theorem snd_finishMeasurement (hh : Honest e) (hr : Roomy e.tr lim) {c0 : Ctx} (hd : DtsOk c0.neg) (sid : Option UInt32) {signed : Bool} {asym : Nat} (ha : c0.cc.asymSize? = some asym)
    {rsp : Bytes} (hl : signed = true → asym ≤ rsp.length) (hs : rsp.length ≤ msgSize) : SndH c0 (finishMeasurement e sid signed asym rsp) := by
  unfold finishMeasurement
  refine SndH.ite (fun h => ?_) fun _ => (snd_appended hs (snd_appendM _ _)).bind fun _ => SndH.pure _
  refine SndH.bindL short_nil (safe_dropTail (hl h)) fun body _ => ?_
  intro c1 h1
  refine Tot.bind (Tot.mapErr ((appendM_tot (e := e) c1 _ _).mono (fun _ _ h => h) fun r t h => ⟨h1.trans h, hs⟩)) ?_
  rintro _ c2 ⟨h2, hm⟩
  have h2 := h1.trans h2
  refine tot_get_bind ?_
  have hsafe := safe_measurementSig (e := e) hm
  cases hx : measurementSig e sid c2 with
  | panic => exact absurd hx hsafe
  | err st => exact ((snd_sendError hr hd .unspecified).bind fun _ => SndH.pure _) c2 h2
  | ok sig =>
    have hlen := measurementSig_length hh hx
    have : BaseAsym.size? c2.neg.baseAsym = some asym := by rw [h2.asym]; exact ha
    rw [this] at hlen
    exact (SndH.bindL short_nil (safe_patchTail (hl h) (by cases hlen; rfl)) fun _ _ => (SndH.modify (f := Ctx.resetM sid) fun c => same_resetM _ _).bind fun _ => SndH.pure _) c2 h2

theorem snd_measureBlocks (hh : Honest e) (c : Ctx) (op : MeasOperation) : SndH c0 (measureBlocks e c op) := by
  unfold measureBlocks
  refine SndH.bindU (hh.measures _ _ _ _) fun total _ => ?_
  cases op with
  | requestAll => exact SndH.bindU (hh.measures _ _ _ _) fun r _ => SndH.pure _
  | queryTotalNumber => exact SndH.pure _
  | unknown i => exact SndH.ite (fun _ => SndH.fail short_nil) fun _ => SndH.bindU (hh.measures _ _ _ _) fun r _ => SndH.pure _

theorem slot_tot (m : GetMeas) (c : Ctx) : (measurementSlot m).Tot c (fun _ c' => Loose c c' ∧ c'.rt.needSig = m.signed) (fun r c' => Loose c c' ∧ Short r) := by
  unfold measurementSlot
  refine tot_modify_bind (tot_get_bind ?_)
  have hl : Loose c { c with rt := { c.rt with needSig := m.signed } } := (Loose.refl c).of rfl rfl
  refine tot_ite (fun _ => ?_) fun _ => tot_ite (fun _ => tot_fail ⟨hl, short_nil⟩) fun _ => tot_pure ⟨hl, rfl⟩
  exact Tot.bind (P := fun _ c' => Loose c c' ∧ c'.rt.needSig = m.signed) (tot_ofOption (fun _ _ => ⟨hl, rfl⟩) fun _ => ⟨hl, short_nil⟩) fun _ t ht => tot_pure ht

theorem snd_measurementRsp (hh : Honest e) (hr : Roomy e.tr lim) {c : Ctx} (hd : DtsOk c.neg) (hz : Sized c.neg) (sid : Option UInt32) (bytes : Bytes) :
    TotH c (measurementRsp e sid bytes) := by
  unfold measurementRsp
  refine TotH.after (SndH.tot snd_afterNegotiation) fun _ c1 h1 => TotH.after (SndH.tot (snd_checkVersion _)) fun r c2 h2 =>
    TotH.after (SndH.tot (SndH.modify (same_reset _ _))) fun _ c3 h3 => TotH.after (SndH.tot (snd_readReq (fun _ _ => GetMeas.read_good _) _ _)) fun m c4 h4 => ?_
  have h4 := ((h1.trans h2).trans h3).trans h4
  refine tot_get_bind ?_
  obtain ⟨asym, hasym⟩ := Option.isSome_iff_exists.1 (Sized.cc hz h4).2.1
  refine tot_unwrap_bind hasym ?_
  refine TotH.rebase (slot_tot m.1 c4) fun _ c5 h5 hsig => ?_
  have h45 := h4.trans h5
  have ha : ∀ c6, Same c5 c6 → c6.cc.asymSize? = some asym := fun c6 h6 => by
    rw [← hasym]; show BaseAsym.size? c6.neg.baseAsym = BaseAsym.size? c4.neg.baseAsym; rw [h6.asym, h5.asym]
  refine SndH.tot ((snd_or (snd_appendM _ _)).bind fun _ => (snd_measureBlocks hh _ _).bind fun p => SndH.bindO short_nil fun nonce hn => ?_)
  refine snd_encode (p := .meas _) (fun c6 h6 => meas_writes fun _ => ?_) fun c6 b h6 hb hlen => ?_
  · unfold Cc.SigOk; rw [ha c6 h6]; simp
  · refine snd_finishMeasurement hh hr (h45.dtsOk hd) sid (ha _ (Same.refl _)) (fun hm => ?_) hlen
    have : c6.cc.needSig = true := by
      show c6.rt.needSig = true
      rw [h6.sig, hsig, hm]
    rw [hb]
    simp [Meas.wire, optWire, this]
    omega

end Rsp
end Verif
