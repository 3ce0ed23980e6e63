/-
Starting a session never panics: KEY_EXCHANGE and PSK_EXCHANGE, for a connection whose algorithms have known sizes.
-/
import Verif.Requester.CalmSess
import Verif.Requester.Table
import Verif.Requester.LinkedStep

namespace Verif
open M Res
namespace Req
open Rsp (joinId)

variable {e : REnv} {n : Neg} {lim : Nat}

/-- a connection whose algorithms for sessions have known sizes as well. -/
structure KnownAll (n : Neg) : Prop extends Known n where
  key : (Aead.keySize? n.aead).isSome = true
  iv : (Aead.ivSize? n.aead).isSome = true
  tag : (Aead.tagSize? n.aead).isSome = true
  dhe : (Dhe.size? n.dhe).isSome = true

/-- between requests: sessions in use are usable, and the table is in order. -/
def TableOrdered (c : Ctx) : Prop := c.sessions.length < 0xFFFD ∧ ReqTable 0 c.sessions

/-- in the middle of a request, with the sessions it started with. -/
def Mid (n : Neg) (c0 c : Ctx) : Prop := In n c ∧ Same c0 c

theorem Tot.and_wp {ε σ α : Type} {x : M ε σ α} {s : σ} {Q Q' : α → σ → Prop} {E E' : ε → σ → Prop} (h : x.Tot s Q E) (h' : x.wp s Q' E') :
    x.Tot s (fun a t => Q a t ∧ Q' a t) (fun a t => E a t ∧ E' a t) := by
  unfold M.Tot M.wp at *
  cases hx : x s with
  | ok a t => rw [hx] at h h'; exact ⟨h, h'⟩
  | err a t => rw [hx] at h h'; exact ⟨h, h'⟩
  | panic => rw [hx] at h; exact h

/-- reaching a session by a calm operation that leaves the table alone. -/
theorem mid_bind {α β : Type} {x : M Status Ctx α} {f : α → M Status Ctx β} {c c0 : Ctx} {P : α → Prop} {Q : β → Ctx → Prop} (h : Mid n c0 c) (hx : Calm (In n) x P) (hs : M.Rel Same x)
    (hf : ∀ a c1, Mid n c0 c1 → P a → (f a).Tot c1 Q (fun _ c' => In n c')) : (x >>= f).Tot c Q (fun _ c' => In n c') :=
  Tot.bind (P := fun a c1 => Mid n c0 c1 ∧ P a) ((Tot.and_wp (hx c h.1) (hs c)).mono (fun _ _ h' => ⟨⟨h'.1.1, Eq.trans h'.2 h.2⟩, h'.1.2⟩) fun _ _ h' => h'.1) fun a c1 h' => hf a c1 h'.1 h'.2

/-- a state with the session of the handshake in place. -/
def At (n : Neg) (sid : UInt32) (c : Ctx) : Prop := In n c ∧ Here n sid c

/-- total with the session in place; it stays in place unless there is an error. -/
abbrev Hand {α : Type} (n : Neg) (sid : UInt32) (x : M Status Ctx α) (Q : α → Prop) : Prop :=
  ∀ c, At n sid c → x.Tot c (fun a c' => At n sid c' ∧ Q a) (fun _ c' => In n c')

variable {sid : UInt32} {α β : Type}

theorem Hand.bind {x : M Status Ctx α} {f : α → M Status Ctx β} {P : α → Prop} {Q : β → Prop} (hx : Hand n sid x P) (hf : ∀ a, P a → Hand n sid (f a) Q) :
    Hand n sid (x >>= f) Q := fun c hc => (hx c hc).bind fun a c' h => hf a h.2 c' h.1
theorem Hand.pure {a : α} {Q : α → Prop} (h : Q a) : Hand n sid (pure a : M Status Ctx α) Q := fun _ hc => tot_pure ⟨hc, h⟩
theorem Hand.get {f : Ctx → M Status Ctx α} {Q : α → Prop} (h : ∀ c, At n sid c → Hand n sid (f c) Q) : Hand n sid (M.get >>= f) Q := fun c hc => tot_get_bind (h c hc c hc)
theorem Hand.ite {p : Prop} [Decidable p] {x y : M Status Ctx α} {Q : α → Prop} (hx : p → Hand n sid x Q) (hy : ¬ p → Hand n sid y Q) :
    Hand n sid (if p then x else y) Q := fun c hc => tot_ite (fun h => hx h c hc) fun h => hy h c hc
theorem Hand.fail {st : Status} {Q : α → Prop} : Hand n sid (M.fail st : M Status Ctx α) Q := fun _ hc => tot_fail hc.1
theorem Hand.unwrap {o : Option α} (h : o.isSome = true) : Hand n sid (M.unwrap o : M Status Ctx α) (fun a => o = some a) := fun _ hc => tot_unwrap h fun _ ha => ⟨hc, ha⟩
theorem Hand.lift {x : Res α} (h : Safe x) : Hand n sid (x.lift : M Status Ctx α) (fun a => x = .ok a) := fun _ hc => h.lift (fun _ ha => ⟨hc, ha⟩) fun _ => hc.1

theorem At.upd {c : Ctx} (h : At n sid c) {f : Session → Session} (hf : ∀ s, c.session? sid = some s → Session.Core s (f s)) : At n sid (c.updSession sid f) := by
  obtain ⟨hi, s, hs, ha, hg⟩ := h
  refine ⟨in_stable c _ hi rfl rfl rfl (lasting_upd c sid fun s' hs' _ _ => ?_), ?_⟩
  · rw [hs] at hs'; cases hs'
    have := hf s hs
    exact ⟨ha.core this, this.2.1.trans hg⟩
  · obtain ⟨t, ht, hc⟩ := ((Rsp.Loose.refl c).upd sid hf).session hs
    exact ⟨t, ht, ha.core hc, hc.2.1.trans hg⟩

/-- an operation on the session that keeps what it is. -/
theorem hand_onSession {missing : M Status Ctx α} {x : M Status Session α} (hx : ∀ s, Session.Armed s → x.Tot s (fun _ t => Session.Core s t) (fun _ t => Session.Core s t)) :
    Hand n sid (Ctx.onSession sid missing x) (fun _ => True) := by
  intro c hc
  obtain ⟨hi, s, hs, ha, hg⟩ := hc
  have hx := hx s ha
  unfold Ctx.onSession
  refine tot_get_bind ?_
  rw [hs]
  dsimp only
  have hu : ∀ t, Session.Core s t → At n sid (c.updSession sid fun _ => t) := fun t ht => At.upd ⟨hi, s, hs, ha, hg⟩ fun s' hs' => by rw [hs] at hs'; cases hs'; exact ht
  cases hr : x s with
  | ok a t => exact ⟨hu t (hx.of_ok hr), trivial⟩
  | err r t => exact (hu t (hx.of_err hr)).1
  | panic => exact absurd hr hx.ne

theorem hand_appendK (msg : Bytes) : Hand n sid (Ctx.appendK e.toEnv sid msg) (fun _ => True) := by
  intro c hc
  obtain ⟨s, hs, -⟩ := hc.2
  unfold Ctx.appendK
  refine tot_get_bind ?_
  rw [hs]
  dsimp only
  split
  · exact tot_set ⟨hc.upd fun _ _ => ⟨rfl, rfl, rfl, rfl, rfl, rfl⟩, trivial⟩
  · split
    · exact tot_fail hc.1
    · exact tot_set ⟨hc.upd fun _ _ => ⟨rfl, rfl, rfl, rfl, rfl, rfl⟩, trivial⟩

theorem safe_transcriptHash (s : Session) : Safe (Ctx.transcriptHash e.toEnv s) := by
  unfold Ctx.transcriptHash
  exact (safe_ofOption _ _).bind fun _ _ => safe_ofOption _ _

theorem hand_session {f : Session → M Status Ctx α} {c : Ctx} {Q : α → Prop} (hc : At n sid c) (hf : ∀ s, Hand n sid (f s) Q) :
    Hand n sid (M.unwrap (c.session? sid) >>= f) Q := by
  obtain ⟨s, hs, -⟩ := hc.2
  rw [hs]
  exact (Hand.unwrap rfl).bind fun s _ => hf s

theorem hand_thOf : Hand n sid (thOf e sid) (fun _ => True) := by
  unfold thOf
  refine Hand.get fun c hc => hand_session hc fun s => ?_
  exact fun c hc => (safe_transcriptHash s).lift (fun _ _ => ⟨hc, trivial⟩) fun _ => hc.1

theorem hand_modify {missing : M Status Ctx Unit} {f : Session → Session} (hf : ∀ s, Session.Core s (f s)) : Hand n sid (Ctx.onSession sid missing (M.modify f)) (fun _ => True) :=
  hand_onSession fun s _ => tot_modify (hf s)

theorem hand_genHandshake (v : SpdmVersion) (th : Bytes) {missing : M Status Ctx Unit} : Hand n sid (Ctx.onSession sid missing (Session.genHandshake e.crypto v th)) (fun _ => True) :=
  hand_onSession fun s ha => Session.keeps_genHandshake e.crypto v ha th s (Session.Core.refl s)

theorem hand_establish : Hand n sid (establish e sid) (fun _ => True) := by
  unfold establish
  refine hand_thOf.bind fun th _ => Hand.get fun c _ => (hand_onSession fun s ha => Session.keeps_genData e.crypto _ ha th s (Session.Core.refl s)).bind fun _ _ => ?_
  exact hand_onSession fun s _ => tot_modify ⟨rfl, rfl, rfl, rfl, rfl, rfl⟩

theorem hand_closeAnd {st : Status} {Q : α → Prop} : Hand n sid (closeAnd sid st : M Status Ctx α) Q := by
  intro c hc
  obtain ⟨hi, s, hs, ha, hg⟩ := hc
  unfold closeAnd
  refine Tot.bind (P := fun _ c' => In n c') ?_ fun _ _ h => tot_fail h
  exact (tot_onSession (Q := fun _ => True) in_stable hi hs (tot_teardown (session_id hs))).mono (fun _ _ h => h.1) fun _ _ h => h

theorem hand_responseCheck (mac : Bytes) : Hand n sid (responseCheck e sid mac) (fun _ => True) := by
  unfold responseCheck
  refine hand_thOf.bind fun th _ => Hand.get fun c hc => hand_session hc fun s => Hand.ite (fun _ => hand_closeAnd) fun _ => ?_
  intro c hc
  -- appending to the transcript leaves the session in place even when it fails
  have hk : (M.try' (Ctx.appendK e.toEnv sid mac)).Tot c (fun _ c' => At n sid c') (fun _ c' => In n c') := by
    refine Tot.try' ?_
    obtain ⟨s, hs, -⟩ := hc.2
    unfold Ctx.appendK
    refine tot_get_bind ?_
    rw [hs]
    dsimp only
    split
    · exact tot_set (hc.upd fun _ _ => ⟨rfl, rfl, rfl, rfl, rfl, rfl⟩)
    · split
      · exact tot_fail hc
      · exact tot_set (hc.upd fun _ _ => ⟨rfl, rfl, rfl, rfl, rfl, rfl⟩)
  refine hk.bind fun r c1 h1 => ?_
  cases r with
  | ok _ => exact tot_pure ⟨h1, trivial⟩
  | error _ => exact hand_closeAnd c1 h1

/-! ### PSK_EXCHANGE -/

theorem hand_pskExchangeBody (hk : Known n) (m : PskExRsp) (req rsp : Bytes) (version : UInt8) (hl : ∀ hs, BaseHash.size? n.baseHash = some hs → hs ≤ rsp.length) :
    Hand n sid (pskExchangeBody e m req rsp sid version) (fun _ => True) := by
  unfold pskExchangeBody
  refine Hand.get fun c hc => (Hand.unwrap (hc.1.hash hk)).bind fun hs hh => (Hand.lift (Rsp.safe_dropTail (hl hs (by rw [← hc.1.neg]; exact hh)))).bind fun body _ => ?_
  refine (hand_appendK req).bind fun _ _ => (hand_appendK body).bind fun _ _ => hand_thOf.bind fun th _ => (hand_genHandshake _ _).bind fun _ _ =>
    (hand_responseCheck _).bind fun _ _ => (hand_modify (by intro s; exact ⟨rfl, rfl, rfl, rfl, rfl, rfl⟩)).bind fun _ _ => Hand.bind (P := fun _ => True) ?_ fun _ _ =>
    (hand_modify (by intro s; exact ⟨rfl, rfl, rfl, rfl, rfl, rfl⟩)).bind fun _ _ => Hand.pure trivial
  unfold pskEstablish
  exact Hand.ite (fun _ => hand_establish) fun _ => Hand.pure trivial

/-! ### KEY_EXCHANGE -/

theorem hand_keyExchangeCheck (hk : Known n) {slot : UInt8} (hs : slot < 8) (sig : Bytes) : Hand n sid (keyExchangeCheck e sid slot sig) (fun _ => True) := by
  unfold keyExchangeCheck
  refine Hand.get fun c hc => ?_
  have hv : Safe (keyExchangeVerify e sid slot sig c) := by
    obtain ⟨s, hs', -⟩ := hc.2
    unfold keyExchangeVerify
    rw [hs']
    exact (safe_unwrap rfl).bind fun _ _ => (safe_transcriptHash _).bind fun _ _ => (safe_peerCerts hk hc.1.toSet hs).bind fun _ _ => (Rsp.safe_keyExchangeMsg _ _).bind fun _ _ => safe_verifyWith _ _ _ _
  cases hr : keyExchangeVerify e sid slot sig c with
  | panic => exact absurd hr hv
  | err st => exact Hand.fail
  | ok u => exact Hand.pure trivial

theorem hand_keyExchangeBody (hk : Known n) {slot : UInt8} (hs : slot < 8) (m : KeyExRsp) (req rsp : Bytes) (version : UInt8)
    (hl : ∀ a h, BaseAsym.size? n.baseAsym = some a → BaseHash.size? n.baseHash = some h → (if (Cc.mk n false false).inClear then a else a + h) ≤ rsp.length) :
    Hand n sid (keyExchangeBody e slot m req rsp sid version) (fun _ => True) := by
  unfold keyExchangeBody
  refine Hand.get fun c hc => (Hand.unwrap (hc.1.asym hk)).bind fun a ha => (Hand.unwrap (hc.1.hash hk)).bind fun h hh => (Hand.lift (Rsp.safe_dropTail ?_)).bind fun body _ => ?_
  · have h1 : BaseAsym.size? c.neg.baseAsym = some a := ha
    have h2 : BaseHash.size? c.neg.baseHash = some h := hh
    have h3 : c.cc.inClear = (Cc.mk n false false).inClear := by
      rw [← hc.1.neg]; rfl
    rw [h3]
    rw [hc.1.neg] at h1 h2
    exact hl a h h1 h2
  · refine (hand_appendK req).bind fun _ _ => (hand_appendK body).bind fun _ _ => (hand_keyExchangeCheck hk hs _).bind fun _ _ => (hand_appendK _).bind fun _ _ =>
      hand_thOf.bind fun th _ => (hand_genHandshake _ _).bind fun _ _ => Hand.bind (P := fun _ => True) ?_ fun _ _ =>
      (hand_modify (by intro s; exact ⟨rfl, rfl, rfl, rfl, rfl, rfl⟩)).bind fun _ _ => Hand.bind (P := fun _ => True) ?_ fun _ _ => Hand.pure trivial
    · unfold keyExchangeHmac
      exact Hand.ite (fun _ => Hand.pure trivial) fun _ => hand_responseCheck _
    · unfold Rsp.rememberSession
      refine Hand.ite (fun _ => ?_) fun _ => Hand.pure trivial
      exact fun c hc => tot_modify ⟨⟨in_stable c _ hc.1 rfl rfl rfl (lasting_refl _), hc.2⟩, trivial⟩

/-! ### Opening -/

/-- a new session in a free slot of a table in order is found under its id. -/
theorem tot_open {c c0 : Ctx} {r q : UInt16} {x : M Status Session Unit} (h : Mid n c0 c) (ht : TableOrdered c0) (hn : Ctx.nextHalf true 0 c0.sessions = some q)
    (hx : ∀ s : Session, s.id = 0 → x.Tot s (fun _ t => t.id = joinId r q ∧ Session.Armed t ∧ t.hash = n.baseHash) (fun _ t => Usable n.baseHash t)) :
    (Ctx.onSession 0 (M.fail .sessionNumberExceed) x).Tot c (fun _ c' => At n (joinId r q) c') (fun _ c' => In n c') := by
  obtain ⟨hi, hs⟩ := h
  have hs : c.sessions = c0.sessions := hs
  rw [← hs] at hn
  unfold TableOrdered at ht
  rw [← hs] at ht
  unfold Ctx.onSession
  refine tot_get_bind ?_
  cases h0 : c.session? 0 with
  | none => exact tot_fail hi
  | some s =>
    have hx := hx s (session_id h0)
    dsimp only
    cases hr : x s with
    | ok a t =>
      obtain ⟨h1, h2, h3⟩ := hx.of_ok hr
      refine ⟨in_stable c _ hi rfl rfl rfl (lasting_upd c 0 fun _ _ _ _ => ⟨h2, h3⟩), t, ?_, h2, h3⟩
      exact find_opened_req ht.2 (by omega) hn h1
    | err st t => exact in_stable c (c.updSession 0 fun _ => t) hi rfl rfl rfl (lasting_upd c 0 fun _ _ _ => hx.of_err hr)
    | panic => exact absurd hr hx.ne

theorem tot_setup_bind {i : UInt32} {s : Session} (h : s.id = 0) {f : Unit → M Status Session Unit} {Q : Unit → Session → Prop} {E : Status → Session → Prop}
    (hf : (f ()).Tot { s.setDefault with id := i } Q E) : (Session.setup i >>= f).Tot s Q E := by
  refine Tot.bind (P := fun _ t => t = { s.setDefault with id := i }) ?_ (by rintro _ _ rfl; exact hf)
  unfold Session.setup
  refine tot_get_bind ?_
  rw [if_pos h]
  exact tot_set rfl

theorem tot_openDhe (hk : KnownAll n) {c : Ctx} (hc : c.neg = n) (i : UInt32) (mutAuth : UInt8) (certHash final : Bytes) {s : Session} (h : s.id = 0) :
    (openDhe e c i mutAuth certHash final).Tot s (fun _ t => t.id = i ∧ Session.Armed t ∧ t.hash = n.baseHash) (fun _ t => Usable n.baseHash t) := by
  subst hc
  unfold openDhe
  refine tot_setup_bind h ?_
  refine Tot.bind (P := fun _ t => t.id = i ∧ Session.Armed t ∧ t.hash = c.neg.baseHash) (tot_modify ⟨rfl, ⟨⟨hk.hash, hk.key, hk.iv, hk.tag⟩, fun h => by cases h⟩, rfl⟩) ?_
  rintro _ t ⟨h1, h2, h3⟩
  refine Tot.bind (P := fun _ u => Session.Core t u) ((Session.keeps_setDhe e.crypto _ h2.algs.hash final t (Session.Core.refl t)).mono (fun _ _ h => h) fun _ u h _ => ⟨h2.core h, h.2.1.trans h3⟩) ?_
  intro _ u hu
  have h4 := h2.core hu
  exact tot_modify ⟨hu.1.trans h1, ⟨h4.algs, h4.hint⟩, hu.2.1.trans h3⟩

theorem tot_openPsk (hk : KnownAll n) {c : Ctx} (hc : c.neg = n) (i : UInt32) (hint : Bytes) {s : Session} (h : s.id = 0) :
    (openPsk e c i hint).Tot s (fun _ t => t.id = i ∧ Session.Armed t ∧ t.hash = n.baseHash) (fun _ t => Usable n.baseHash t) := by
  subst hc
  unfold openPsk
  refine tot_setup_bind h ?_
  exact tot_modify ⟨rfl, ⟨⟨hk.hash, hk.key, hk.iv, hk.tag⟩, fun _ => rfl⟩, rfl⟩

/-! ### The requests -/

theorem smVersion_good : Opaque.SmVersion.read.Good := by unfold Opaque.SmVersion.read; rd_good

theorem rdSelectionFirst_good (c : Cc) : (Opaque.rdSelectionFirst c).Good := by
  have h1 : Opaque.rdSelection.Good := by
    have := smVersion_good
    unfold Opaque.rdSelection; rd_good
  unfold Opaque.rdSelectionFirst Opaque.rdHeader
  have h2 : ∀ k, (rdN k Opaque.rdSelection).Good := fun k => h1.repeat k
  refine Rd.Good.bind (by rd_good) fun a => Rd.Good.bind (h2 _) fun _ => by rd_good

theorem safe_secureVersion (c : Ctx) (o : Bytes) : Safe (secureVersion c o) := by
  unfold secureVersion
  cases h : Opaque.rdSelectionFirst c.cc (Reader.init o) with
  | ok a t => exact safe_ok _
  | err a t => exact safe_ok _
  | panic => exact absurd h ((rdSelectionFirst_good c.cc).ne_panic _)

theorem in_reset (k : ReqRespCode) (c : Ctx) (h : In n c) : In n (Ctx.resetBuffers k none c) := calm_reset in_stable k none c h

theorem safe_nextHalf (c : Ctx) : Safe (c.nextHalfId true) := by
  unfold Ctx.nextHalfId
  cases Ctx.nextHalf true 0 c.sessions with
  | none => exact safe_err _
  | some q => exact safe_ok _

theorem slot_some {slot : UInt8} (h : slot < 8) : (Ctx.slot? slot).isSome = true := by
  unfold Ctx.slot?
  rw [dif_pos (by exact UInt8.lt_iff_toNat_lt.1 h)]
  rfl

/-- KEY_EXCHANGE does not panic, whatever the device answers. -/
theorem tot_keyExchange (hk : KnownAll n) (he : Carrier e) (slot : UInt8) (t : SummaryHashType) {c : Ctx} (hc : In n c) (ht : TableOrdered c) :
    (keyExchange e slot t).Tot c (fun _ c' => In n c') (fun _ c' => In n c') := by
  unfold keyExchange
  refine tot_ite (fun _ => tot_fail hc) fun hslot => tot_get_bind ?_
  have hslot := UInt8.not_le.1 hslot
  cases hn : Ctx.nextHalf true 0 c.sessions with
  | none =>
    have : c.nextHalfId true = .err .sessionNumberExceed := by unfold Ctx.nextHalfId; rw [hn]; rfl
    rw [this]
    exact Tot.err (r := Status.sessionNumberExceed) rfl hc
  | some q =>
    have : c.nextHalfId true = .ok q := by unfold Ctx.nextHalfId; rw [hn]; rfl
    rw [this]
    refine Tot.bind (P := fun a c' => a = q ∧ c' = c) (tot_pure ⟨rfl, rfl⟩) ?_
    rintro _ c' ⟨rfl, rfl⟩
    rename_i q
    have m0 : Mid n c' c' := ⟨hc, rfl⟩
    refine mid_bind m0 (Calm.modify (calm_reset in_stable _ _)) (rs_frame (k := true) (Ctx.rel_resetBuffers _)) fun _ c1 m1 _ => ?_
    refine mid_bind m1 (Calm.ofOption _) (.ofOption _ _) fun random c2 m2 _ => mid_bind m2 (Calm.ofOption _) (.ofOption _ _) fun p c3 m3 _ => ?_
    obtain ⟨exchange, final⟩ := p
    refine mid_bind m3 (Calm.ofOption _) (.ofOption _ _) fun opaq c4 m4 _ => mid_bind m4 (calm_encodeReq fun c _ => ⟨_, KeyEx.encode_writes c.cc _⟩) (rs_frame (rel_encodeReq _ _)) fun req c5 m5 hq =>
      mid_bind m5 (calm_transact in_stable he hq) (rs_frame (rel_transact _)) fun rsp c6 m6 _ => ?_
    unfold handleKeyExchange
    refine mid_bind m6 (Calm.modify (f := wantSummary t) fun c hc => in_stable c _ hc rfl rfl rfl (lasting_refl _)) (.modify fun _ => rfl) fun _ c7 m7 _ =>
      mid_bind m7 (calm_expect in_stable _ _ _) (rs_expect _ _) fun r c8 m8 hr =>
      mid_bind m8 (calm_readMsg (fun c hc => KeyExRsp.read_good (hc.hash hk.toKnown) (hc.asym hk.toKnown) (by rw [← hc.neg] at hk; exact hk.dhe)) hr) (rs_frame (rel_readMsg _ _ _)) fun p c9 m9 hp => ?_
    obtain ⟨m, b⟩ := p
    refine tot_get_bind ?_
    refine mid_bind m9 (Calm.ofOption _) (.ofOption _ _) fun fin c11 m11 _ => mid_bind m11 (Calm.lift (safe_secureVersion _ _)) (.lift _) fun v c12 m12 _ =>
      mid_bind m12 (Calm.unwrap (slot_some hslot)) (.unwrap _) fun i c13 m13 _ => mid_bind m13 (Calm.ofOption _) (.ofOption _ _) fun ch c14 m14 _ => ?_
    refine Tot.bind (P := fun _ c' => At n (joinId m.rspSession q) c') (tot_open m14 ht hn fun s hs => tot_openDhe hk m9.1.neg _ _ _ _ hs) fun _ c15 h15 => ?_
    refine (hand_keyExchangeBody hk.toKnown hslot m req b v ?_ c15 h15).mono (fun _ _ h => h.1.1) fun _ _ h => h
    intro a h ha hh
    obtain ⟨c1', r', hc1, hx, rfl⟩ := hp
    obtain ⟨g1, g2, pre, g3⟩ := KeyExRsp.read_tail hx
    dsimp only at g1 g2 g3
    have e1 : m.signature.length = a := by
      have : BaseAsym.size? c1'.neg.baseAsym = some m.signature.length := g1
      rw [hc1.neg, ha] at this
      exact (Option.some.inj this).symm
    have e3 : c1'.cc.inClear = (Cc.mk n false false).inClear := by rw [← hc1.neg]; rfl
    rw [e3] at g2
    by_cases hb : (Cc.mk n false false).inClear = true
    · rw [if_pos hb]
      rw [hb] at g2
      have g2 : m.verify = [] := g2
      rw [g2, List.append_nil] at g3
      exact tail_short hr g3 e1
    · rw [if_neg hb]
      rw [Bool.not_eq_true] at hb
      rw [hb] at g2
      have e2 : m.verify.length = h := by
        have : BaseHash.size? c1'.neg.baseHash = some m.verify.length := g2
        rw [hc1.neg, hh] at this
        exact (Option.some.inj this).symm
      rw [List.append_assoc] at g3
      exact tail_short hr g3 (by rw [List.length_append, e1, e2])

/-- PSK_EXCHANGE does not panic, whatever the device answers. -/
theorem tot_pskExchange (hk : KnownAll n) (he : Carrier e) (t : SummaryHashType) (hint : Bytes) {c : Ctx} (hc : In n c) (ht : TableOrdered c) :
    (pskExchange e t hint).Tot c (fun _ c' => In n c') (fun _ c' => In n c') := by
  unfold pskExchange
  have m0 : Mid n c c := ⟨hc, rfl⟩
  refine mid_bind m0 (Calm.modify (calm_reset in_stable _ _)) (rs_frame (k := true) (Ctx.rel_resetBuffers _)) fun _ c1 m1 _ => tot_get_bind ?_
  cases hn : Ctx.nextHalf true 0 c.sessions with
  | none =>
    have : c1.nextHalfId true = .err .sessionNumberExceed := by
      have h1 : c1.sessions = c.sessions := m1.2
      unfold Ctx.nextHalfId; rw [h1, hn]; rfl
    rw [this]
    exact Tot.err (r := Status.sessionNumberExceed) rfl m1.1
  | some q =>
    have : c1.nextHalfId true = .ok q := by
      have h1 : c1.sessions = c.sessions := m1.2
      unfold Ctx.nextHalfId; rw [h1, hn]; rfl
    rw [this]
    refine Tot.bind (P := fun a c' => a = q ∧ c' = c1) (tot_pure ⟨rfl, rfl⟩) ?_
    rintro _ c1' ⟨rfl, rfl⟩
    rename_i q
    refine mid_bind m1 (Calm.ofOption _) (.ofOption _ _) fun random c2 m2 _ => mid_bind m2 (Calm.ofOption _) (.ofOption _ _) fun opaq c3 m3 _ => mid_bind m3 (Calm.unwrap (m1.1.hash hk.toKnown)) (.unwrap _) fun hs c4 m4 _ =>
      mid_bind m4 (calm_encodeReq fun c _ => ⟨_, PskEx.encode_writes _⟩) (rs_frame (rel_encodeReq _ _)) fun req c5 m5 hq => mid_bind m5 (calm_transact in_stable he hq) (rs_frame (rel_transact _)) fun rsp c6 m6 _ => ?_
    unfold handlePskExchange
    refine mid_bind m6 (Calm.modify (f := wantSummary t) fun c hc => in_stable c _ hc rfl rfl rfl (lasting_refl _)) (.modify fun _ => rfl) fun _ c7 m7 _ =>
      mid_bind m7 (calm_expect in_stable _ _ _) (rs_expect _ _) fun r c8 m8 hr => mid_bind m8 (calm_readMsg (fun c hc => PskExRsp.read_good (hc.hash hk.toKnown)) hr) (rs_frame (rel_readMsg _ _ _)) fun p c9 m9 hp => ?_
    obtain ⟨m, b⟩ := p
    refine tot_get_bind ?_
    refine mid_bind m9 (Calm.lift (safe_secureVersion _ _)) (.lift _) fun v c12 m12 _ => ?_
    refine Tot.bind (P := fun _ c' => At n (joinId m.rspSession q) c') (tot_open m12 ht hn fun s hs => tot_openPsk hk m9.1.neg _ _ hs) fun _ c15 h15 => ?_
    refine (hand_pskExchangeBody hk.toKnown m req b v ?_ c15 h15).mono (fun _ _ h => h.1.1) fun _ _ h => h
    intro h hh
    obtain ⟨c1', r', hc1, hx, rfl⟩ := hp
    obtain ⟨g1, pre, g3⟩ := PskExRsp.read_tail hx
    dsimp only at g1 g3
    refine tail_short hr g3 ?_
    have : BaseHash.size? c1'.neg.baseHash = some m.verify.length := g1
    rw [hc1.neg, hh] at this
    exact (Option.some.inj this).symm

end Req
end Verif
