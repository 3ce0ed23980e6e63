/-
What every operation of a requester does to its transcripts.
-/
import Verif.Requester.History

namespace Verif
namespace Req
open Rsp

variable {e : REnv} {sid : Option UInt32}

theorem Follows.still {ts : Spec.Transcripts} {c c' : Ctx} (h : Follows ts c) (hs : Still c c') : Follows ts c' :=
  ⟨⟨hs.messageA.trans h.a, by rw [hs.m1m2, hs.neg]; exact h.b, by rw [hs.l1l2, hs.neg]; exact h.m⟩, h.cert, by rw [hs.state]; exact h.state⟩

/-! ### in sessions -/

theorem still_thOf (i : UInt32) : M.Rel Still (thOf e i) := .bind .get fun _ => .bind (.unwrap _) fun _ => .lift _
theorem still_closeAnd {α : Type} (i : UInt32) (st : Status) : M.Rel Still (closeAnd i st : M Status Ctx α) :=
  .bind (still_onSession _ _ _ .panic) fun _ => .fail _
theorem still_responseCheck (i : UInt32) (mac : Bytes) : M.Rel Still (responseCheck e i mac) := by
  unfold responseCheck
  refine .bind (still_thOf _) fun _ => .bind .get fun _ => .bind (.unwrap _) fun _ => .ite (fun _ => still_closeAnd _ _) fun _ => .bind (.try' (still_appendK _ _)) fun r => ?_
  cases r with
  | ok _ => exact .pure _
  | error _ => exact still_closeAnd _ _
theorem still_establish (i : UInt32) : M.Rel Still (establish e i) := by
  unfold establish
  exact .bind (still_thOf _) fun _ => .bind .get fun _ => .bind (still_onSession _ _ _ .panic) fun _ => still_onSession _ _ _ .panic
theorem still_orClose {α : Type} {i : UInt32} {x : M Status Ctx α} (h : M.Rel Still x) : M.Rel Still (orClose i x) := by
  unfold orClose
  refine .bind (.try' h) fun r => ?_
  cases r with
  | ok a => exact .pure _
  | error st => exact still_closeAnd _ _
theorem still_orCloseIf {α : Type} {i : UInt32} {x : M Status Ctx α} (h : M.Rel Still x) : M.Rel Still (orCloseIf i x) := by
  unfold orCloseIf
  refine .bind (.try' h) fun r => ?_
  cases r with
  | ok a => exact .pure _
  | error st => exact .bind (still_onSession _ _ _ (.pure _)) fun _ => .fail _

/-- prove that an operation leaves the transcripts outside sessions alone. -/
macro "still" : tactic => `(tactic|
  repeat' (first
    | with_reducible assumption
    | with_reducible first
      | exact M.Rel.pure _ | exact M.Rel.panic | exact M.Rel.fail _ | exact M.Rel.unwrap _ | exact M.Rel.ofOption _ _
      | exact M.Rel.get | exact M.Rel.lift _ | exact still_transact _ | exact still_encodeReq _ _ | exact still_readMsg _ _ _
      | exact still_expect _ _ | exact still_expectAny _ _ | exact still_appendK _ _ | exact still_appendF _ _ _ | exact still_appendM_in _ _
      | exact still_sendSecured _ _ _ | exact still_receiveSecured _ | exact still_sendMessage _ | exact still_receiveMessage
      | exact still_thOf _ | exact still_closeAnd _ _ | exact still_responseCheck _ _ | exact still_establish _
      | apply still_orClose | apply still_orCloseIf | apply still_onSession
      | apply M.Rel.mapErr | apply M.Rel.try' | apply M.Rel.ite | apply M.Rel.bind
      | intro _))

theorem still_keyExchangeBody (i : UInt32) (slot version : UInt8) (m : KeyExRsp) (req rsp : Bytes) : M.Rel Still (keyExchangeBody e slot m req rsp i version) := by
  have h1 : ∀ sig, M.Rel Still (keyExchangeCheck e i slot sig) := by
    intro sig c
    unfold keyExchangeCheck
    rw [M.wp_bind, M.wp_get]
    cases keyExchangeVerify e i slot sig c with
    | panic => trivial
    | ok u => exact M.Pre.refl (R := Still) c
    | err st => exact M.Pre.refl (R := Still) c
  have h2 : ∀ b mac, M.Rel Still (keyExchangeHmac e b i mac) := by
    intro b mac
    unfold keyExchangeHmac
    still
  have h3 : ∀ b, M.Rel Still (Rsp.rememberSession b i) := by
    intro b
    unfold Rsp.rememberSession
    exact .ite (fun _ => .modify fun c => ⟨rfl, rfl, rfl, rfl, rfl⟩) fun _ => .pure _
  unfold keyExchangeBody
  refine .bind .get fun c => .bind (.unwrap _) fun _ => .bind (.unwrap _) fun _ => .bind (.lift _) fun _ => .bind (still_appendK _ _) fun _ => .bind (still_appendK _ _) fun _ =>
    .bind (h1 _) fun _ => .bind (still_appendK _ _) fun _ => .bind (still_thOf _) fun _ => .bind (still_onSession _ _ _ .panic) fun _ => .bind (h2 _ _) fun _ =>
    .bind (still_onSession _ _ _ .panic) fun _ => .bind (h3 _) fun _ => .pure _

theorem still_handleKeyExchange (reqId : UInt16) (slot : UInt8) (req bytes : Bytes) (t : SummaryHashType) (final : Bytes → Option Bytes) :
    M.Rel Still (handleKeyExchange e reqId slot req bytes t final) := by
  unfold handleKeyExchange
  refine .bind (.modify fun c => ⟨rfl, rfl, rfl, rfl, rfl⟩) fun _ => .bind (still_expect _ _) fun _ => .bind (still_readMsg _ _ _) fun p => ?_
  obtain ⟨m, rsp⟩ := p
  exact .bind .get fun _ => .bind (.ofOption _ _) fun _ => .bind (.lift _) fun _ => .bind (.unwrap _) fun _ => .bind (.ofOption _ _) fun _ =>
    .bind (still_onSession _ _ _ (.fail _)) fun _ => still_keyExchangeBody _ _ _ _ _ _

theorem still_handlePskExchange (reqId : UInt16) (t : SummaryHashType) (hint req bytes : Bytes) : M.Rel Still (handlePskExchange e reqId t hint req bytes) := by
  unfold handlePskExchange
  refine .bind (.modify fun c => ⟨rfl, rfl, rfl, rfl, rfl⟩) fun _ => .bind (still_expect _ _) fun _ => .bind (still_readMsg _ _ _) fun p => ?_
  obtain ⟨m, rsp⟩ := p
  refine .bind .get fun _ => .bind (.lift _) fun _ => .bind (still_onSession _ _ _ (.fail _)) fun _ => ?_
  unfold pskExchangeBody pskEstablish
  still

/-- what is left after the buffers were reset for a request. -/
def Began (k : ReqRespCode) (sid : Option UInt32) (c c' : Ctx) : Prop := Still (Ctx.resetBuffers k sid c) c'

theorem began_of {k : ReqRespCode} {α : Type} {x : Unit → M Status Ctx α} (hx : M.Rel Still (x ())) (c : Ctx) :
    (M.modify (Ctx.resetBuffers k sid) >>= x).wp c (fun _ => Began k sid c) (fun _ => Began k sid c) := by
  rw [M.wp_bind, M.wp_modify]
  exact hx _

theorem Left.wp {x : M Status Ctx Unit} {c c' : Ctx} {Q : Ctx → Prop} (h : Left x c c') (hx : x.wp c (fun _ => Q) (fun _ => Q)) : Q c' := by
  rcases h with h | ⟨st, h⟩
  · exact hx.ok h
  · exact hx.err h

theorem wp_quiet {α : Type} {x : M Status Ctx α} {c : Ctx} {Q : Ctx → Prop} (hx : x.wp c (fun _ => Q) (fun _ => Q)) : (quiet x).wp c (fun _ => Q) (fun _ => Q) := by
  unfold quiet
  rw [M.wp_bind]
  exact hx.mono (fun _ _ h => h) fun _ _ h => h

theorem reset_in (k : ReqRespCode) (hk : ∀ v, k ≠ .unknown v) (i : UInt32) {ts : Spec.Transcripts} {c : Ctx} (h : Follows ts c) : Follows (ts.next (.inSession k.get)) (Ctx.resetBuffers k (some i) c) := by
  have h0 : Follows ts (Ctx.resetM (some i) c) := h.still ⟨rfl, rfl, rfl, rfl, rfl⟩
  have h1 : Follows ts (if k ≠ .reqGetMeasurements then Ctx.resetM (some i) c else c) := by split <;> assumption
  have h2 : ∀ c, Follows ts c → Follows { ts with b := none } (Ctx.resetM1M2 c) := fun c h => ⟨⟨h.a, rfl, h.m⟩, h.cert, h.state⟩
  unfold Ctx.resetBuffers Spec.Transcripts.next
  generalize (if k ≠ .reqGetMeasurements then Ctx.resetM (some i) c else c) = c1 at *
  have h3 := h2 _ h1
  have hst := h1.state
  cases k with
  | unknown v => exact absurd rfl (hk v)
  | _ => first
    | exact h1
    | exact h3
    | (dsimp only; rw [if_pos hst]; exact h3)

/-! ### outside sessions: failures -/

theorem reset_out (k : ReqRespCode) (hk : ∀ v, k ≠ .unknown v) {ts : Spec.Transcripts} {c : Ctx} (h : Follows ts c) :
    Follows (ts.next (.failed k.get false)) (Ctx.resetBuffers k none c) := by
  have h0 : Follows { ts with m := none } (Ctx.resetM none c) := ⟨⟨h.a, h.b, rfl⟩, h.cert, h.state⟩
  have h2 : ∀ ts c, Follows ts c → Follows { ts with b := none } (Ctx.resetM1M2 c) := fun ts c h => ⟨⟨h.a, rfl, h.m⟩, h.cert, h.state⟩
  have h3 := h2 _ _ h0
  have h4 := h2 _ _ h
  have hst := h.state
  have h5 : Follows { ts with b := none, m := none } (if (Ctx.resetM none c).rt.state.code < 5 then Ctx.resetM1M2 (Ctx.resetM none c) else Ctx.resetM none c) := by
    rw [if_pos (show (Ctx.resetM none c).rt.state.code < 5 from hst)]; exact h3
  have h6 : Follows { ts with b := none } (if c.rt.state.code < 5 then Ctx.resetM1M2 c else c) := by
    rw [if_pos hst]; exact h4
  cases k with
  | unknown v => exact absurd rfl (hk v)
  | _ => first
    | exact h0
    | exact h3
    | exact h5
    | exact h6

/-- if it fails, the contexts before and after are related. -/
def ErrRel {α : Type} (R : Ctx → Ctx → Prop) (x : M Status Ctx α) : Prop := ∀ c, x.wp c (fun _ _ => True) (fun _ => R c)

theorem ErrRel.of {α : Type} {R : Ctx → Ctx → Prop} {x : M Status Ctx α} (h : M.Rel R x) : ErrRel R x := fun c => (h c).mono (fun _ _ _ => trivial) fun _ _ h => h
theorem ErrRel.bind {α β : Type} {R S : Ctx → Ctx → Prop} (hRS : ∀ {a b c}, R a b → S b c → S a c) (hS : ∀ {a b}, R a b → S a b) {x : M Status Ctx α} {f : α → M Status Ctx β}
    (hx : M.Rel R x) (hf : ∀ a, ErrRel S (f a)) : ErrRel S (x >>= f) := fun c => by
  rw [M.wp_bind]
  exact (hx c).mono (fun a c1 h1 => (hf a c1).mono (fun _ _ _ => trivial) fun _ _ h2 => hRS h1 h2) fun _ _ h => hS h
theorem ErrRel.still {α β : Type} {x : M Status Ctx α} {f : α → M Status Ctx β} (hx : M.Rel Still x) (hf : ∀ a, ErrRel Still (f a)) : ErrRel Still (x >>= f) :=
  ErrRel.bind (R := Still) (S := Still) (fun h h' => M.Pre.trans (R := Still) h h') (fun h => h) hx hf

theorem addB_some (b : Bytes) (c : Ctx) : (addB b c).rt.m1m2.isSome = true := by rw [addB_m1m2]; rfl

theorem err_appendBBoth (req rsp : Bytes) : ErrRel Still (appendBBoth e none req rsp) := by
  intro c
  have hx : appendBBoth e none req rsp = (Ctx.appendB e.toEnv req >>= fun _ => Ctx.appendB e.toEnv rsp) := rfl
  rw [hx, M.wp_bind]
  have hq : Ctx.appendB e.toEnv req c = _ := appendM1M2_eq _ _ _
  unfold M.wp
  rw [hq]
  by_cases hc : c.rt.m1m2.isSome ∨ (e.toEnv.crypto.hash c.neg.baseHash []).isSome
  · rw [if_pos hc]
    dsimp only
    rw [show Ctx.appendB e.toEnv rsp (addB req c) = .ok () (addB rsp (addB req c)) from appendM1M2_some _ _ _ (addB_some _ _)]
    trivial
  · rw [if_neg hc]
    exact M.Pre.refl (R := Still) c

theorem getDigests_err {c c' : Ctx} {st : Status} (h : getDigests e none c = .err st c') : Began .reqGetDigests none c c' := by
  have hx : ErrRel Still (do let req ← encodeReq .reqGetDigests .getDigests; let rsp ← transact e none req; handleDigests e none req rsp) := by
    refine .still (still_encodeReq _ _) fun req => .still (still_transact _) fun rsp => ?_
    unfold handleDigests
    refine .still (still_expect _ _) fun r => .still (still_readMsg _ _ _) fun p => ?_
    obtain ⟨m, b⟩ := p
    exact err_appendBBoth _ _
  unfold getDigests at h
  rw [M.bind_apply, M.modify_apply] at h
  exact (hx _).err h

theorem err_certificatePartial (slot : UInt8) (total offset length : UInt16) : ErrRel Still (getCertificatePartial e none slot total offset length) := by
  unfold getCertificatePartial
  refine .still (still_encodeReq _ _) fun req => .still (still_transact _) fun rsp => ?_
  unfold handleCertificate
  refine .still (still_expect _ _) fun r => .still (still_readMsg _ _ _) fun p => ?_
  obtain ⟨m, b⟩ := p
  dsimp only
  by_cases h1 : portionRefused total offset length m = true
  · rw [if_pos h1]; exact .of (.fail _)
  rw [if_neg h1]
  by_cases h2 : m.slot ≠ slot
  · rw [if_pos h2]; exact .of (.fail _)
  rw [if_neg h2]
  intro c
  rw [M.wp_bind, M.wp_get, M.wp_bind, M.wp_ofOption]
  refine ⟨fun a _ => ?_, fun _ => M.Pre.refl (R := Still) c⟩
  rw [M.wp_bind, M.wp_set, M.wp_bind]
  have h3 := err_appendBBoth (e := e) req b { c with peer := { c.peer with temp := some (storePortion offset m a) } }
  refine h3.mono (fun _ _ _ => trivial) fun _ c1 h4 => M.Pre.trans (R := Still) ?_ h4
  exact ⟨rfl, rfl, rfl, rfl, rfl⟩

/-- a failed operation: the exchanges accepted before it failed, and the context then. -/
def Broke (e : REnv) (c : Ctx) (l : List (Bytes × Bytes)) (cm c' : Ctx) : Prop := Heard e none c l cm ∧ cm.sent <+: c'.sent ∧ Still cm c'

theorem certificateLoop_err {slot : UInt8} (fuel : Nat) {total offset length : UInt16} {c c' : Ctx} {st : Status}
    (h : certificateLoop e none slot fuel total offset length c = .err st c') :
    ∃ l cm, Broke e c l cm c' ∧ (∀ x ∈ l, x.1.getD 1 0 = 0x82) ∧ ∀ ts : Spec.Transcripts, Follows ts c → ts.m = none → Follows (ts.heardAll l) cm := by
  induction fuel generalizing total offset length c with
  | zero => cases h
  | succ fuel ih =>
    unfold certificateLoop at h
    by_cases hz : length = 0
    · rw [if_pos hz] at h; cases h
    rw [if_neg hz, M.bind_apply] at h
    cases h1 : getCertificatePartial e none slot total offset length c with
    | panic => rw [h1] at h; cases h
    | err st1 c1 =>
      rw [h1] at h
      injection h with _ h
      subst h
      refine ⟨[], c, ⟨.done rfl, (kept_getCertificatePartial (sid := none) slot total offset length).err h1 |>.sent, (err_certificatePartial _ _ _ _ c).err h1⟩, fun _ h => (by cases h), fun ts hf hm => hf⟩
    | ok p c1 =>
      rw [h1] at h
      obtain ⟨portion, remainder⟩ := p
      obtain ⟨bytes, c2, p, m, temp, k1, k2, k3, k4, k5, k6, k7, k8⟩ := getCertificatePartial_ok h1
      obtain ⟨l, cm, ⟨g1, g2, g3⟩, g5, g4⟩ := ih h
      obtain ⟨f1, f2, f3, f4, f5⟩ := k1.fields
      dsimp only at k8
      rw [if_pos rfl] at k8
      refine ⟨_ :: l, cm, ⟨.more (.refl c) k1 k2 (.quiet ?_ g1), g2, g3⟩, ?_, fun ts hf hm => ?_⟩
      · rw [k8]; exact ⟨rfl, rfl, rfl⟩
      · intro x hx
        rcases List.mem_cons.1 hx with rfl | hx
        · rfl
        · exact g5 x hx
      · obtain ⟨q1, q2⟩ := follows_b (req := certAsk c.neg.version.get slot offset length) (rsp := certHeard c.neg.version.get p m)
          (c2 := { c2 with peer := { c.peer with temp := some (storePortion offset m temp) } }) hf hm rfl f2 f1
        have k8' : c1 = addB (certHeard c.neg.version.get p m) (addB (certAsk c.neg.version.get slot offset length) { c2 with peer := { c.peer with temp := some (storePortion offset m temp) } }) := k8
        rw [← k8'] at q1
        exact g4 _ q1 q2

theorem heardAll_cert (ts : Spec.Transcripts) (l : List (Bytes × Bytes)) (hl : ∀ x ∈ l, x.1.getD 1 0 = 0x82) :
    Spec.Transcripts.heardAll { ts with m := none } l = { ts.heardAll l with m := none } := by
  induction l generalizing ts with
  | nil => rfl
  | cons x l ih =>
    obtain ⟨req, rsp⟩ := x
    have hk : req.getD 1 0 = 0x82 := hl _ List.mem_cons_self
    have ht : ∀ t : Spec.Transcripts, t.heard req rsp = { t with b := some (t.m1m2 ++ req ++ rsp), m := none, cert := false } := by
      intro t
      unfold Spec.Transcripts.heard Spec.Transcripts.after
      rw [hk]; simp
    have ih' := ih { ts with b := some (ts.m1m2 ++ req ++ rsp), m := none, cert := false } fun x hx => hl x (List.mem_cons_of_mem _ hx)
    show Spec.Transcripts.heardAll (Spec.Transcripts.heard _ req rsp) l = { Spec.Transcripts.heardAll (ts.heard req rsp) l with m := none }
    rw [ht, ht ts]
    exact ih'

theorem portions_code {v slot : UInt8} (l : List (Bytes × Bytes)) {off : Nat} (h : Portions v slot off l) : ∀ x ∈ l, x.1.getD 1 0 = 0x82 := by
  induction l generalizing off with
  | nil => intro x hx; cases hx
  | cons a l ih =>
    obtain ⟨req, rsp⟩ := a
    obtain ⟨⟨len, h1, h2, h3, h4⟩, h5⟩ := h
    intro x hx
    rcases List.mem_cons.1 hx with rfl | hx
    · show req.getD 1 0 = 0x82; rw [h2]; rfl
    · exact ih h5 x hx

theorem storeChain_err {slot : Fin 8} {total : UInt16} {c c' : Ctx} {st : Status} (h : storeChain e slot total c = .err st c') : c' = { c with peer := { c.peer with temp := none } } := by
  have : (storeChain e slot total).wp c (fun _ _ => True) (fun _ c' => c' = { c with peer := { c.peer with temp := none } }) := by
    unfold storeChain
    rw [M.wp_bind, M.wp_get]
    split
    · rw [M.wp_bind, M.wp_set, M.wp_fail]
    · cases verifyChain e c with
      | panic => trivial
      | err st =>
        show (M.set _ >>= fun _ => M.fail st : M Status Ctx Unit).wp c _ _
        rw [M.wp_bind, M.wp_set, M.wp_fail]
      | ok u => trivial
  exact this.err h

theorem getCertificate_broke {fuel : Nat} {slot : UInt8} {c c' : Ctx} {st : Status} (h : getCertificate e fuel none slot c = .err st c') :
    c' = c ∨ ∃ l cm, Heard e none c l cm ∧ (∀ x ∈ l, x.1.getD 1 0 = 0x82) ∧ cm.sent <+: c'.sent ∧ ∀ ts : Spec.Transcripts, Follows ts c → Follows ((ts.heardAll l).next (.failed 0x82 false)) c' := by
  unfold getCertificate at h
  cases hi : Ctx.slot? slot with
  | none => rw [hi] at h; cases h; exact .inl rfl
  | some i =>
    right
    rw [hi] at h
    replace h : (certificateLoop e none slot fuel 0 0 512 >>= fun total => storeChain e i total) { Ctx.resetM none c with peer := { c.peer with temp := some [] } } = .err st c' := h
    have hq : Quiet c { Ctx.resetM none c with peer := { c.peer with temp := some [] } } := ⟨rfl, rfl, rfl⟩
    have hf0 : ∀ ts, Follows ts c → Follows { ts with m := none } { Ctx.resetM none c with peer := { c.peer with temp := some [] } } :=
      fun ts hf => ⟨⟨hf.a, hf.b, rfl⟩, hf.cert, hf.state⟩
    have ht0 : ({ Ctx.resetM none c with peer := { c.peer with temp := some [] } } : Ctx).peer.temp = some [] := rfl
    generalize ({ Ctx.resetM none c with peer := { c.peer with temp := some [] } } : Ctx) = c0 at *
    rw [M.bind_apply] at h
    have hts : ∀ (ts : Spec.Transcripts) (l : List (Bytes × Bytes)), ((ts.heardAll l).next (.failed 0x82 false)) = { ts.heardAll l with m := none } := fun ts l => rfl
    cases hl : certificateLoop e none slot fuel 0 0 512 c0 with
    | panic => rw [hl] at h; cases h
    | err st1 c1 =>
      rw [hl] at h
      injection h with _ h
      subst h
      obtain ⟨l, cm, ⟨g1, g2, g3⟩, g4, g5⟩ := certificateLoop_err fuel hl
      refine ⟨l, cm, .quiet hq g1, g4, g2, fun ts hf => ?_⟩
      rw [hts, ← heardAll_cert ts l g4]
      exact (g5 _ (hf0 ts hf) rfl).still g3
    | ok total c1 =>
      rw [hl] at h
      have h' : storeChain e i total c1 = .err st c' := h
      obtain ⟨l, g1, g2, g3, g4, g5, g6, g7, g8⟩ := certificateLoop_ok (temp := []) fuel ht0 rfl (by decide) (by decide) hl
      have hc' := storeChain_err h'
      refine ⟨l, c1, .quiet hq g1, portions_code l g2, by rw [hc']; exact List.prefix_refl _, fun ts hf => ?_⟩
      rw [hts, ← heardAll_cert ts l (portions_code l g2)]
      have := g7 rfl _ (hf0 ts hf) rfl
      rw [hc']
      exact this.still ⟨rfl, rfl, rfl, rfl, rfl⟩

/-- failed with the transcripts as they were, or because a signature did not verify, after `g`. -/
def ErrOr {α : Type} (g : Ctx → Ctx) (x : M Status Ctx α) : Prop :=
  ∀ c, x.wp c (fun _ _ => True) (fun st c' => Still c c' ∨ (st = .verifFail ∧ Still (g c) c'))

theorem ErrOr.of {α : Type} {g : Ctx → Ctx} {x : M Status Ctx α} (h : ErrRel Still x) : ErrOr g x := fun c => (h c).mono (fun _ _ h => h) fun _ _ h => .inl h
theorem ErrOr.bind {α β : Type} {g : Ctx → Ctx} (hg : ∀ a b, Still a b → Still (g a) (g b)) {x : M Status Ctx α} {f : α → M Status Ctx β}
    (hx : M.Rel Still x) (hf : ∀ a, ErrOr g (f a)) : ErrOr g (x >>= f) := fun c => by
  rw [M.wp_bind]
  refine (hx c).mono (fun a c1 h1 => (hf a c1).mono (fun _ _ _ => trivial) fun _ _ h2 => ?_) fun _ _ h => .inl h
  rcases h2 with h2 | ⟨h2, h3⟩
  · exact .inl (M.Pre.trans (R := Still) h1 h2)
  · exact .inr ⟨h2, M.Pre.trans (R := Still) (hg _ _ h1) h3⟩

theorem still_resetM1M2 (a b : Ctx) (h : Still a b) : Still (Ctx.resetM1M2 a) (Ctx.resetM1M2 b) := ⟨h.neg, h.messageA, rfl, h.l1l2, h.state⟩
theorem still_resetM (a b : Ctx) (h : Still a b) : Still (Ctx.resetM none a) (Ctx.resetM none b) := ⟨h.neg, h.messageA, h.m1m2, rfl, h.state⟩

theorem challenge_err {slot : UInt8} {t : SummaryHashType} {c c' : Ctx} {st : Status} (h : challenge e slot t c = .err st c') :
    c' = c ∨ Still (Ctx.resetM none c) c' ∨ (st = .verifFail ∧ Still (Ctx.resetM1M2 (Ctx.resetM none c)) c') := by
  unfold challenge at h
  by_cases hs : slot ≥ 8
  · rw [if_pos hs] at h; cases h; exact .inl rfl
  rw [if_neg hs] at h
  right
  have hcheck : ∀ req body sig, ErrOr Ctx.resetM1M2 (Ctx.appendC e.toEnv req >>= fun _ => Ctx.appendC e.toEnv body >>= fun _ => challengeCheck e slot sig) := by
    intro req body sig c
    rw [M.wp_bind]
    have hq : Ctx.appendC e.toEnv req c = _ := appendM1M2_eq _ _ _
    unfold M.wp
    rw [hq]
    by_cases hc : c.rt.m1m2.isSome ∨ (e.toEnv.crypto.hash c.neg.baseHash []).isSome
    · rw [if_pos hc]
      show (Ctx.appendC e.toEnv body >>= fun _ => challengeCheck e slot sig).wp (addB req c) _ _
      unfold M.wp
      rw [M.bind_apply, show Ctx.appendC e.toEnv body (addB req c) = .ok () (addB body (addB req c)) from appendM1M2_some _ _ _ (addB_some _ _)]
      show (challengeCheck e slot sig).wp (addB body (addB req c)) _ _
      unfold challengeCheck
      rw [M.wp_bind, M.wp_get]
      cases challengeVerify e slot sig (addB body (addB req c)) with
      | panic => trivial
      | ok u => trivial
      | err st => exact .inr ⟨rfl, ⟨rfl, rfl, rfl, rfl, rfl⟩⟩
    · rw [if_neg hc]
      exact .inl (M.Pre.refl (R := Still) c)
  have hx : ErrOr Ctx.resetM1M2 (do let nonce ← M.ofOption .cryptoError (Ctx.random e.toEnv 32)
                                    let req ← encodeReq .reqChallenge (.challenge ⟨slot, t, nonce⟩)
                                    let rsp ← transact e none req
                                    handleChallengeAuth e 0 slot t req rsp) := by
    refine .bind still_resetM1M2 (.ofOption _ _) fun nonce => .bind still_resetM1M2 (still_encodeReq _ _) fun req => .bind still_resetM1M2 (still_transact _) fun rsp => ?_
    unfold handleChallengeAuth
    refine .bind still_resetM1M2 (.modify fun c => ⟨rfl, rfl, rfl, rfl, rfl⟩) fun _ => .bind still_resetM1M2 (still_expect _ _) fun r => .bind still_resetM1M2 (still_readMsg _ _ _) fun p => ?_
    obtain ⟨m, b⟩ := p
    exact .bind still_resetM1M2 .get fun _ => .bind still_resetM1M2 (.unwrap _) fun _ => .bind still_resetM1M2 (.lift _) fun _ => hcheck _ _ _
  rw [M.bind_apply, M.modify_apply] at h
  exact (hx _).err h

theorem err_appendM (msg : Bytes) (c : Ctx) : (Ctx.appendM e.toEnv none msg).wp c (fun _ c' => c' = addM none msg c) (fun _ => Still c) := by
  cases h : Ctx.appendM e.toEnv none msg c with
  | panic => unfold M.wp; rw [h]; trivial
  | ok u c' => unfold M.wp; rw [h]; exact (appendM_ok h).1
  | err st c' =>
    unfold M.wp; rw [h]
    have : (Ctx.appendM e.toEnv none msg).wp c (fun _ _ => True) (fun _ c' => c' = c) := by
      unfold Ctx.appendM
      simp only [M.wp_bind, M.wp_get]
      split
      · trivial
      · split
        · rfl
        · trivial
    have hc := this.err h
    rw [hc]
    exact M.Pre.refl (R := Still) c

theorem measurements_err {slot attr : UInt8} {op : MeasOperation} {c c' : Ctx} {st : Status} (h : getMeasurements e none slot attr op c = .err st c') :
    c' = c ∨ Began .reqGetMeasurements none c c' ∨ (st = .verifFail ∧ Still (Ctx.resetM none (Ctx.resetBuffers .reqGetMeasurements none c)) c') := by
  unfold getMeasurements at h
  by_cases hs : slot ≥ 8
  · rw [if_pos hs] at h; cases h; exact .inl rfl
  rw [if_neg hs] at h
  right
  have hcheck : ∀ req body sig (out : UInt8 × MeasRecord), ErrOr (Ctx.resetM none) (Ctx.appendM e.toEnv none req >>= fun _ => Ctx.appendM e.toEnv none body >>= fun _ =>
      measurementCheckIf e (signatureRequested attr) none slot sig >>= fun _ => pure out) := by
    intro req body sig out c
    rw [M.wp_bind]
    refine (err_appendM req c).mono (fun _ c1 h1 => ?_) fun _ _ h => .inl h
    subst h1
    unfold M.wp
    rw [M.bind_apply, appendM_some (sid := none) (x := nextM c none req) rfl]
    show (measurementCheckIf e (signatureRequested attr) none slot sig >>= fun _ => pure out).wp _ _ _
    rw [M.wp_bind]
    unfold measurementCheckIf
    split
    · unfold measurementCheck
      rw [M.wp_bind, M.wp_get]
      cases measurementVerify e none slot sig (addM none body (addM none req c)) with
      | panic => trivial
      | ok u => trivial
      | err st => exact .inr ⟨rfl, ⟨rfl, rfl, rfl, rfl, rfl⟩⟩
    · trivial
  have hx : ErrOr (Ctx.resetM none) (do let nonce ← M.ofOption .cryptoError (Ctx.random e.toEnv 32)
                                        let req ← encodeReq .reqGetMeasurements (.getMeas ⟨attr, op, nonce, slot⟩)
                                        let rsp ← transact e none req
                                        handleMeasurements e none slot attr op req rsp) := by
    refine .bind still_resetM (.ofOption _ _) fun nonce => .bind still_resetM (still_encodeReq _ _) fun req => .bind still_resetM (still_transact _) fun rsp => ?_
    unfold handleMeasurements
    refine .bind still_resetM (.modify fun c => ⟨rfl, rfl, rfl, rfl, rfl⟩) fun _ => .bind still_resetM (still_expect _ _) fun r => .bind still_resetM (still_readMsg _ _ _) fun p => ?_
    obtain ⟨m, b⟩ := p
    have hnote : M.Rel Still (M.modify (noteChanged m) : M Status Ctx Unit) := .modify fun c => by
      obtain ⟨h1, h2, h3, h4, h5, h6, h7, h8, h9⟩ := noteChanged_fields m c
      exact ⟨h1, h4, h6, h5, h7⟩
    exact .bind still_resetM hnote fun _ => .bind still_resetM .get fun _ => .bind still_resetM (.unwrap _) fun _ => .bind still_resetM (.lift _) fun _ => hcheck _ _ _ _
  rw [M.bind_apply, M.modify_apply] at h
  exact (hx _).err h

theorem keyExchange_err {slot : UInt8} {t : SummaryHashType} {c c' : Ctx} {st : Status} (h : keyExchange e slot t c = .err st c') :
    c' = c ∨ Began .reqKeyExchange none c c' := by
  unfold keyExchange at h
  by_cases hs : slot ≥ 8
  · rw [if_pos hs] at h; cases h; exact .inl rfl
  rw [if_neg hs] at h
  have hx : ∀ (c0 : Ctx) (reqId : UInt16), M.Rel Still (do
      let random ← M.ofOption .cryptoError (Ctx.random e.toEnv 32)
      let (exchange, final) ← M.ofOption .cryptoError (e.dheGen c0.neg.dhe)
      let opaq ← M.ofOption .unsupportedCap (opaqueRequest c0)
      let req ← encodeReq .reqKeyExchange (.keyEx ⟨t, slot, reqId, c0.config.sessionPolicy, random, exchange, opaq⟩)
      let rsp ← transact e none req
      handleKeyExchange e reqId slot req rsp t final) := by
    intro c0 reqId
    refine .bind (.ofOption _ _) fun random => .bind (.ofOption _ _) fun p => ?_
    obtain ⟨exchange, final⟩ := p
    exact .bind (.ofOption _ _) fun _ => .bind (still_encodeReq _ _) fun _ => .bind (still_transact _) fun _ => still_handleKeyExchange _ _ _ _ _ _
  rw [M.bind_apply, M.get_apply] at h
  dsimp only at h
  rw [M.bind_apply] at h
  cases hn : (c.nextHalfId true) with
  | panic => rw [hn] at h; cases h
  | err st => rw [hn] at h; cases h; exact .inl rfl
  | ok reqId =>
    rw [hn] at h
    exact .inr ((hx c reqId _).err h)

theorem pskExchange_err {hint : Bytes} {t : SummaryHashType} {c c' : Ctx} {st : Status} (h : pskExchange e t hint c = .err st c') : Began .reqPskExchange none c c' := by
  unfold pskExchange at h
  refine (began_of (k := .reqPskExchange) (sid := none) ?_ c).err h
  refine .bind .get fun _ => .bind (.lift _) fun _ => .bind (.ofOption _ _) fun _ => .bind (.ofOption _ _) fun _ => .bind (.unwrap _) fun _ => .bind (still_encodeReq _ _) fun _ =>
    .bind (still_transact _) fun _ => still_handlePskExchange _ _ _ _ _

/-! ### in sessions -/

/-- the transcripts outside sessions after a request in a session. -/
def InSession (k : ReqRespCode) (c c' : Ctx) : Prop := ∀ ts : Spec.Transcripts, Follows ts c → Follows (ts.next (.inSession k.get)) c'

theorem Began.inSession {k : ReqRespCode} {i : UInt32} {c c' : Ctx} (hk : ∀ v, k ≠ .unknown v) (h : Began k (some i) c c') : InSession k c c' :=
  fun _ hf => (reset_in k hk i hf).still h

theorem inSession_of {k : ReqRespCode} (hk : ∀ v, k ≠ .unknown v) {α : Type} {i : UInt32} {x : Unit → M Status Ctx α} (hx : M.Rel Still (x ())) (c : Ctx) :
    (M.modify (Ctx.resetBuffers k (some i)) >>= x).wp c (fun _ => InSession k c) (fun _ => InSession k c) :=
  (began_of hx c).mono (fun _ _ h => h.inSession hk) fun _ _ h => h.inSession hk

theorem digests_in (i : UInt32) (c : Ctx) : (getDigests e (some i)).wp c (fun _ => InSession .reqGetDigests c) (fun _ => InSession .reqGetDigests c) := by
  unfold getDigests
  refine inSession_of (fun v h => by cases h) ?_ c
  unfold handleDigests appendBBoth
  refine .bind (still_encodeReq _ _) fun _ => .bind (still_transact _) fun _ => .bind (still_expect _ _) fun _ => .bind (still_readMsg _ _ _) fun p => ?_
  obtain ⟨m, b⟩ := p
  exact .pure _

theorem still_partial_in (i : UInt32) (slot : UInt8) (total offset length : UInt16) : M.Rel Still (getCertificatePartial e (some i) slot total offset length) := by
  unfold getCertificatePartial
  refine .bind (still_encodeReq _ _) fun req => .bind (still_transact _) fun rsp => ?_
  unfold handleCertificate
  refine .bind (still_expect _ _) fun r => .bind (still_readMsg _ _ _) fun p => ?_
  obtain ⟨m, b⟩ := p
  refine .ite (fun _ => .fail _) fun _ => .ite (fun _ => .fail _) fun _ c => ?_
  rw [M.wp_bind, M.wp_get, M.wp_bind, M.wp_ofOption]
  refine ⟨fun a _ => ?_, fun _ => M.Pre.refl (R := Still) c⟩
  rw [M.wp_bind, M.wp_set]
  exact ⟨rfl, rfl, rfl, rfl, rfl⟩

theorem still_loop_in (i : UInt32) (slot : UInt8) (fuel : Nat) : ∀ total offset length, M.Rel Still (certificateLoop e (some i) slot fuel total offset length) := by
  induction fuel with
  | zero => intro total offset length; exact .panic
  | succ n ih =>
    intro total offset length
    unfold certificateLoop
    refine .ite (fun _ => .pure _) fun _ => .bind (still_partial_in _ _ _ _ _) fun p => ?_
    obtain ⟨portion, remainder⟩ := p
    exact ih _ _ _

theorem still_storeChain (slot : Fin 8) (total : UInt16) : M.Rel Still (storeChain e slot total) := by
  intro c
  unfold storeChain
  rw [M.wp_bind, M.wp_get]
  split
  · exact ⟨rfl, rfl, rfl, rfl, rfl⟩
  · cases verifyChain e c with
    | panic => trivial
    | err st => exact ⟨rfl, rfl, rfl, rfl, rfl⟩
    | ok u => exact ⟨rfl, rfl, rfl, rfl, rfl⟩

theorem certificate_in (i : UInt32) (fuel : Nat) (slot : UInt8) (c : Ctx) :
    (getCertificate e fuel (some i) slot).wp c (fun _ => InSession .reqGetCertificate c) (fun _ c' => c' = c ∨ InSession .reqGetCertificate c c') := by
  unfold getCertificate
  rw [M.wp_bind, M.wp_ofOption]
  refine ⟨fun j _ => ?_, fun _ => .inl rfl⟩
  refine (inSession_of (k := .reqGetCertificate) (i := i) (fun v h => by cases h) ?_ c).mono (fun _ _ h => h) fun _ _ h => .inr h
  exact .bind (.modify fun c => ⟨rfl, rfl, rfl, rfl, rfl⟩) fun _ => .bind (still_loop_in _ _ _ _ _ _) fun _ => still_storeChain _ _

theorem measurements_in (i : UInt32) (slot attr : UInt8) (op : MeasOperation) (c : Ctx) :
    (getMeasurements e (some i) slot attr op).wp c (fun _ => InSession .reqGetMeasurements c) (fun _ c' => c' = c ∨ InSession .reqGetMeasurements c c') := by
  unfold getMeasurements
  by_cases hs : slot ≥ 8
  · rw [if_pos hs]; exact .inl rfl
  rw [if_neg hs]
  refine (inSession_of (k := .reqGetMeasurements) (i := i) (fun v h => by cases h) ?_ c).mono (fun _ _ h => h) fun _ _ h => .inr h
  refine .bind (.ofOption _ _) fun _ => .bind (still_encodeReq _ _) fun _ => .bind (still_transact _) fun _ => ?_
  unfold handleMeasurements
  refine .bind (.modify fun c => ⟨rfl, rfl, rfl, rfl, rfl⟩) fun _ => .bind (still_expect _ _) fun r => .bind (still_readMsg _ _ _) fun p => ?_
  obtain ⟨m, b⟩ := p
  have hnote : M.Rel Still (M.modify (noteChanged m) : M Status Ctx Unit) := .modify fun c => by
    obtain ⟨h1, h2, h3, h4, h5, h6, h7, h8, h9⟩ := noteChanged_fields m c
    exact ⟨h1, h4, h6, h5, h7⟩
  have hcheck : ∀ sg sig, M.Rel Still (measurementCheckIf e sg (some i) slot sig) := by
    intro sg sig c
    unfold measurementCheckIf measurementCheck
    split
    · rw [M.wp_bind, M.wp_get]
      cases measurementVerify e (some i) slot sig c with
      | panic => trivial
      | ok u => exact ⟨rfl, rfl, rfl, rfl, rfl⟩
      | err st => exact ⟨rfl, rfl, rfl, rfl, rfl⟩
    · exact M.Pre.refl (R := Still) c
  exact .bind hnote fun _ => .bind .get fun _ => .bind (.unwrap _) fun _ => .bind (.lift _) fun _ => .bind (still_appendM_in _ _) fun _ => .bind (still_appendM_in _ _) fun _ =>
    .bind (hcheck _ _) fun _ => .pure _

theorem finish_in (i : UInt32) (slot : Option UInt8) (c : Ctx) : (finish e slot i).wp c (fun _ => InSession .reqFinish c) (fun _ c' => c' = c ∨ InSession .reqFinish c c') := by
  unfold finish
  rw [M.wp_bind, M.wp_get, M.wp_bind, M.wp_ofOption]
  refine ⟨fun sl _ => ?_, fun _ => .inl rfl⟩
  rw [M.wp_bind, M.wp_ofOption]
  refine ⟨fun s _ => ?_, fun _ => .inl rfl⟩
  refine (inSession_of (k := .reqFinish) (i := i) (fun v h => by cases h) ?_ c).mono (fun _ _ h => h) fun _ _ h => .inr h
  have h1 : M.Rel Still (encodeFinish e i sl) := by
    unfold encodeFinish finishSignature requestHmac
    still
  have h2 : ∀ b x, M.Rel Still (finishSend e b i x) := by
    intro b x; unfold finishSend; still
  have h3 : ∀ b, M.Rel Still (finishReceive e b i) := by
    intro b; unfold finishReceive; still
  have h4 : ∀ b, M.Rel Still (handleFinish e i b) := by
    intro b
    have h5 : ∀ b hs mac rsp, M.Rel Still (finishTranscript e b hs i mac rsp) := by
      intro b hs mac rsp; unfold finishTranscript; still
    unfold handleFinish
    refine .bind .get fun _ => .bind (.ofOption _ _) fun _ => .bind (still_expectAny _ _) fun _ => .bind (still_readMsg _ _ _) fun p => ?_
    obtain ⟨m, b⟩ := p
    exact .bind (.unwrap _) fun _ => .bind (h5 _ _ _ _) fun _ => .bind (still_establish _) fun _ => .modify fun c => ⟨rfl, rfl, rfl, rfl, rfl⟩
  exact .bind (still_orClose h1) fun _ => .bind (still_orClose (h2 _ _)) fun _ => .bind (still_orClose (h3 _)) fun _ => still_orCloseIf (h4 _)

theorem pskFinish_in (i : UInt32) (c : Ctx) : (pskFinish e i).wp c (fun _ => InSession .reqPskFinish c) (fun _ c' => c' = c ∨ InSession .reqPskFinish c c') := by
  unfold pskFinish
  rw [M.wp_bind, M.wp_get, M.wp_bind, M.wp_ofOption]
  refine ⟨fun s _ => ?_, fun _ => .inl rfl⟩
  refine (inSession_of (k := .reqPskFinish) (i := i) (fun v h => by cases h) ?_ c).mono (fun _ _ h => h) fun _ _ h => .inr h
  have h1 : M.Rel Still (encodePskFinish e i) := by
    unfold encodePskFinish requestHmac
    still
  have h4 : ∀ b, M.Rel Still (handlePskFinish e i b) := by
    intro b
    unfold handlePskFinish
    refine .bind (still_expect _ _) fun _ => .bind (still_readMsg _ _ _) fun p => ?_
    obtain ⟨m, b⟩ := p
    exact .bind (still_appendF _ _ _) fun _ => still_establish _
  exact .bind (still_orClose h1) fun _ => .bind (still_orClose (still_sendSecured _ _ _)) fun _ => .bind (still_orClose (still_receiveSecured _)) fun _ => still_orCloseIf (h4 _)

theorem heartbeat_in (i : UInt32) (c : Ctx) : (heartbeat e i).wp c (fun _ => InSession .reqHeartbeat c) (fun _ => InSession .reqHeartbeat c) := by
  unfold heartbeat
  refine inSession_of (fun v h => by cases h) ?_ c
  unfold handleHeartbeat
  still

theorem endSession_in (i : UInt32) (c : Ctx) : (endSession e i).wp c (fun _ => InSession .reqEndSession c) (fun _ => InSession .reqEndSession c) := by
  unfold endSession
  refine inSession_of (fun v h => by cases h) ?_ c
  unfold handleEndSession
  still

theorem keyUpdateOp_in (i : UInt32) (op : KeyUpdateOp) (tag : UInt8) (c : Ctx) :
    (keyUpdateOp e i op tag).wp c (fun _ => InSession .reqKeyUpdate c) (fun _ => InSession .reqKeyUpdate c) := by
  unfold keyUpdateOp
  refine inSession_of (fun v h => by cases h) ?_ c
  refine .bind (still_encodeReq _ _) fun _ => .bind (still_sendSecured _ _ _) fun _ => .bind .get fun _ => .bind (still_onSession _ _ _ (.fail _)) fun _ =>
    .bind (still_receiveSecured _) fun b => ?_
  unfold handleKeyUpdate
  refine .bind (still_expect _ _) fun r => ?_
  have h1 : ∀ ok, M.Rel Still (keyUpdateAck i (updatesReq op) (updatesRsp op) ok) := by
    intro ok; unfold keyUpdateAck; still
  cases KeyUpd.read r with
  | panic => exact .panic
  | err _ _ => exact h1 _
  | ok _ _ => exact h1 _

theorem keyUpdate_in (i : UInt32) (op : KeyUpdateOp) (c : Ctx) :
    (keyUpdate e i op).wp c (fun _ => InSession .reqKeyUpdate c) (fun _ c' => c' = c ∨ InSession .reqKeyUpdate c c') := by
  unfold keyUpdate
  by_cases hop : op ≠ .updateAllKeys ∧ op ≠ .updateSingleKey
  · rw [if_pos hop]; exact .inl rfl
  rw [if_neg hop, M.wp_bind]
  refine (keyUpdateOp_in i op 1 c).mono (fun _ c1 h1 => ?_) fun _ _ h => .inr h
  have h2 : ∀ c2, InSession .reqKeyUpdate c1 c2 → InSession .reqKeyUpdate c c2 := fun c2 h ts hf => by
    have h3 := h _ (h1 ts hf)
    exact h3
  exact (keyUpdateOp_in i .verifyNewKey 2 c1).mono (fun _ _ h => h2 _ h) fun _ _ h => .inr (h2 _ h)

/-! ### success outside sessions -/

/-- the transcripts of the requester after it accepted the exchanges `l`. -/
def Learns (e : REnv) (k : UInt8) (c : Ctx) (l : List (Bytes × Bytes)) (c' : Ctx) : Prop := Heard e none c l c' ∧ (∀ x ∈ l, x.1.getD 1 0 = k) ∧ ∀ ts : Spec.Transcripts, Follows ts c → Follows (ts.heardAll l) c'

theorem digests_out {c c' : Ctx} {u : Unit} (h : getDigests e none c = .ok u c') :
    ∃ rsp, Learns e 0x81 c [([c.neg.version.get, 0x81, 0, 0], rsp)] c' := by
  obtain ⟨bytes, t, m, r', c1, h1, rfl, hv, h3, h4⟩ := getDigests_ok h
  rw [if_pos rfl] at h4
  obtain ⟨f1, f2, f3, f4, f5⟩ := h1.fields
  refine ⟨_, .one (quiet_reset _ _ _) h1 (took_of (f := .digests) (k := 0x01) (c := c) (fun _ => rfl) rfl hv h3) (by rw [h4]; rfl), by simp only [List.mem_singleton]; rintro _ rfl; rfl, fun ts hf => ?_⟩
  · show Follows (ts.heard _ _) c'
    have hts : ∀ rsp, ts.heard [c.neg.version.get, 0x81, 0, 0] rsp = { ts with b := some (ts.a ++ [c.neg.version.get, 0x81, 0, 0] ++ rsp), m := none, cert := false } := fun _ => rfl
    rw [hts]
    have hm : m1m2Of c1 = ⟨c.neg.baseHash, ts.a⟩ := by
      unfold m1m2Of
      rw [f2, f1, show (Ctx.resetBuffers .reqGetDigests none c).rt.m1m2 = none from rfl, show (Ctx.resetBuffers .reqGetDigests none c).rt.messageA = c.rt.messageA from rfl, hf.a]
      rfl
    subst h4
    refine ⟨⟨?_, ?_, ?_⟩, rfl, ?_⟩
    · show c1.rt.messageA = ts.a; rw [f2]; exact hf.a
    · rw [addB_m1m2, m1m2Of_addB, hm]
      show some (⟨c.neg.baseHash, _⟩ : HashCtx) = some (⟨c1.neg.baseHash, _⟩ : HashCtx)
      rw [f1]; rfl
    · show c1.rt.l1l2 = none; rw [f2]; rfl
    · show c1.rt.state.code < 5; rw [f2]; exact hf.state

theorem challenge_out {slot : UInt8} {t : SummaryHashType} {c c' : Ctx} {u : Unit} (h : challenge e slot t c = .ok u c') :
    ∃ req rsp, Learns e 0x83 c [(req, rsp)] c' := by
  obtain ⟨_, nonce, pkt, bytes, rest, pre, sig, x, d, certs, req, h1, rfl, h3, h4, h5, h6, h7, h8, h9, h10, h11, h12⟩ := challenge_ok h
  refine ⟨_, _, .one (.refl c) h3 h5 (by rw [h12]; rfl), by simp only [List.mem_singleton]; rintro _ rfl; rfl, fun ts hf => ?_⟩
  show Follows { ts with b := none, m := none, cert := false } c'
  rw [h12]
  exact ⟨⟨hf.a, rfl, rfl⟩, rfl, hf.state⟩

theorem measurements_out {slot attr : UInt8} {op : MeasOperation} {c c' : Ctx} {out : UInt8 × MeasRecord} (h : getMeasurements e none slot attr op c = .ok out c') :
    ∃ req rsp, Learns e 0xE0 c [(req, rsp)] c' := by
  obtain ⟨_, nonce, bytes, rest, c1, n, p, m, h1, h2, h3, h4, h5, h6⟩ := getMeasurements_ok h
  obtain ⟨f1, f2, f3, f4, f5⟩ := h2.fields
  have q0 := quiet_reset .reqGetMeasurements none c
  rw [show (Ctx.resetBuffers .reqGetMeasurements none c).neg = c.neg from q0.2.1] at f1
  have hsent : c'.sent = c1.sent := by
    dsimp only at h6
    split at h6
    · obtain ⟨d, certs, -, -, -, -, -, h7⟩ := h6
      rw [h7]
      show (noteChanged m _).sent = _
      exact (noteChanged_fields m _).2.2.2.2.2.2.2.1
    · rw [h6.2]
      show (noteChanged m _).sent = _
      exact (noteChanged_fields m _).2.2.2.2.2.2.2.1
  refine ⟨measRequest c slot attr op nonce, measHeardBody c.neg.version.get n p m ++ m.signature, .one q0 h2 (by rw [q0.2.1]; exact h4) hsent, by simp only [List.mem_singleton]; rintro _ rfl; rfl, fun ts hf => ?_⟩
  show Follows (ts.heard _ _) c'
  have hts : ∀ rsp, ts.heard (measRequest c slot attr op nonce) rsp =
      { ts with b := none, m := if signatureRequested attr then none else some (ts.l1l2 c.neg.version.get ++ measRequest c slot attr op nonce ++ rsp), cert := false } := by
    intro rsp
    unfold Spec.Transcripts.heard Spec.Transcripts.after
    have k1 : (measRequest c slot attr op nonce).getD 1 0 = 0xE0 := rfl
    have k2 : (measRequest c slot attr op nonce).getD 2 0 = attr := rfl
    have k0 : (measRequest c slot attr op nonce).getD 0 0 = c.neg.version.get := rfl
    have hb : (attr &&& 1 ≠ 0) = (signatureRequested attr = true) := by
      unfold signatureRequested
      have : ∀ a : UInt8, (a &&& 1 ≠ 0) = ((a &&& 1 == 1) = true) := by
        intro a
        have h01 : a &&& 1 = 0 ∨ a &&& 1 = 1 := by
          have : ∀ a : BitVec 8, a &&& 1 = 0 ∨ a &&& 1 = 1 := by decide
          rcases this a.toBitVec with h | h
          · left; apply UInt8.eq_of_toBitVec_eq; exact h
          · right; apply UInt8.eq_of_toBitVec_eq; exact h
        rcases h01 with h | h <;> rw [h] <;> decide
      exact this attr
    dsimp only
    rw [k1, k2, k0, hf.cert]
    simp only [hb]
    rfl
  rw [hts]
  have hg := reset_out .reqGetMeasurements (fun v h => by cases h) hf
  have hg' : Follows { ts with b := none } (Ctx.resetBuffers .reqGetMeasurements none c) := hg
  obtain ⟨n1, n2, n3, n4, n5, n6, n7, n8, n9⟩ := noteChanged_fields m { c1 with rt := { c1.rt with needSig := signatureRequested attr } }
  have hm : Follows { ts with b := none } (measHeard attr m c1) := by
    refine ⟨⟨?_, ?_, ?_⟩, hf.cert, ?_⟩
    · exact n4.trans (by show c1.rt.messageA = _; rw [f2]; exact hg'.a)
    · exact n6.trans (by show c1.rt.m1m2 = _; rw [f2]; exact hg'.b)
    · refine n5.trans ?_
      show c1.rt.l1l2 = ts.m.map _
      rw [f2, hg'.m]
      show ts.m.map (fun x => (⟨(Ctx.resetBuffers .reqGetMeasurements none c).neg.baseHash, x⟩ : HashCtx)) = ts.m.map (fun x => (⟨(noteChanged m _).neg.baseHash, x⟩ : HashCtx))
      rw [n1, q0.2.1]
      show ts.m.map _ = ts.m.map (fun x => (⟨c1.neg.baseHash, x⟩ : HashCtx))
      rw [f1]
    · show (noteChanged m _).rt.state.code < 5
      rw [n7]
      show c1.rt.state.code < 5
      rw [f2]; exact hg'.state
  have hn : (measHeard attr m c1).neg = c.neg := n1.trans f1
  have hcc : (measHeard attr m c1).cc.ge12 = true ↔ 0x12 ≤ c.neg.version.get := by rw [Props.ge12_version, hn]
  generalize measHeard attr m c1 = c2 at *
  have hnext : ∀ msg, nextM c2 none msg = ⟨c.neg.baseHash, ts.l1l2 c.neg.version.get ++ msg⟩ := by
    intro msg
    unfold nextM l1l2? Spec.Transcripts.l1l2
    dsimp only
    rw [hm.m, hn]
    cases hmm : ts.m with
    | some x => rfl
    | none =>
      dsimp only [Option.map_none, Option.getD_none]
      rw [hm.a]
      by_cases hv : 0x12 ≤ c.neg.version.get
      · rw [if_pos hv, if_pos (hcc.2 hv)]
      · rw [if_neg hv, if_neg (fun h => hv (hcc.1 h))]
  dsimp only at h6
  by_cases hsig : signatureRequested attr = true
  · rw [if_pos hsig] at h6
    obtain ⟨d, certs, -, -, -, -, -, h7⟩ := h6
    rw [if_pos hsig, h7]
    exact ⟨⟨hm.a, hm.b, rfl⟩, rfl, hm.state⟩
  · rw [if_neg hsig] at h6
    rw [if_neg hsig, h6.2, h6.1, List.append_nil]
    refine ⟨⟨hm.a, hm.b, ?_⟩, rfl, hm.state⟩
    have : nextM (addM none (measRequest c slot attr op nonce) c2) none (measHeardBody c.neg.version.get n p m) =
        ⟨(nextM c2 none (measRequest c slot attr op nonce)).algo, (nextM c2 none (measRequest c slot attr op nonce)).data ++ measHeardBody c.neg.version.get n p m⟩ := rfl
    show some (nextM (addM none (measRequest c slot attr op nonce) c2) none (measHeardBody c.neg.version.get n p m)) = some (⟨c2.neg.baseHash, _⟩ : HashCtx)
    rw [this, hnext, hn]

theorem keyExchange_out {slot : UInt8} {t : SummaryHashType} {c c' : Ctx} {sid : UInt32} (ht : ReqTable 0 c.sessions) (hn : c.sessions.length < 0xFFFD)
    (h : keyExchange e slot t c = .ok sid c') : ∃ req rsp, Learns e 0xE4 c [(req, rsp)] c' := by
  obtain ⟨_, i, reqId, random, exchange, opaq, fin, pkt, bytes, rest, p, m, version, certHash, final, root, master, d, certs, th1, s0, s1, h1, h2, h3, h4, h5, h6, h7, h8, h9, h10, h11, h12, h13, h14, h15, h16, l, h17⟩ :=
    keyExchange_ok ht hn h
  have q0 := quiet_reset .reqKeyExchange none c
  refine ⟨_, _, .one q0 h6 (by rw [q0.2.1]; exact h8) (by rw [h17]; show c.sent ++ [pkt] = (Ctx.resetBuffers .reqKeyExchange none c).sent ++ [pkt]; rw [q0.1]), by simp only [List.mem_singleton]; rintro _ rfl; rfl, fun ts hf => ?_⟩
  show Follows (ts.heard _ _) c'
  have hts : ∀ rsp, ts.heard (keyExAsk c t slot reqId random exchange opaq) rsp = { ts with b := none, m := none, cert := false } := by
    intro rsp
    unfold Spec.Transcripts.heard Spec.Transcripts.after
    have k1 : (keyExAsk c t slot reqId random exchange opaq).getD 1 0 = 0xE4 := rfl
    dsimp only
    rw [k1, hf.cert]
    rfl
  rw [hts, h17]
  exact ⟨⟨hf.a, by show (if c.rt.state.code < 5 then none else c.rt.m1m2) = none; rw [if_pos hf.state], rfl⟩, rfl, hf.state⟩

theorem pskExchange_out {hint : Bytes} {t : SummaryHashType} {c c' : Ctx} {sid : UInt32} (ht : ReqTable 0 c.sessions) (hn : c.sessions.length < 0xFFFD)
    (h : pskExchange e t hint c = .ok sid c') : ∃ req rsp, Learns e 0xE6 c [(req, rsp)] c' := by
  obtain ⟨reqId, context, opaq, hsz, pkt, bytes, rest, p, q, m, version, th1, s0, s1, s', h1, h2, h3, h4, h5, h6, h7, h8, h9, h10, h11, l, h17⟩ :=
    pskExchange_ok ht hn h
  have q0 := quiet_reset .reqPskExchange none c
  refine ⟨_, _, .one q0 h5 (by rw [q0.2.1]; exact h7) (by rw [h17]; show c.sent ++ [pkt] = (Ctx.resetBuffers .reqPskExchange none c).sent ++ [pkt]; rw [q0.1]), by simp only [List.mem_singleton]; rintro _ rfl; rfl, fun ts hf => ?_⟩
  show Follows (ts.heard _ _) c'
  have hts : ∀ rsp, ts.heard (pskExAsk c t reqId hint (context.take hsz) opaq) rsp = { ts with b := none, m := none, cert := false } := by
    intro rsp
    unfold Spec.Transcripts.heard Spec.Transcripts.after
    have k1 : (pskExAsk c t reqId hint (context.take hsz) opaq).getD 1 0 = 0xE6 := rfl
    dsimp only
    rw [k1, hf.cert]
    rfl
  rw [hts, h17]
  exact ⟨⟨hf.a, by show (if c.rt.state.code < 5 then none else c.rt.m1m2) = none; rw [if_pos hf.state], rfl⟩, rfl, hf.state⟩

/-- three exchanges outside sessions, each with what was negotiated before it. -/
def Connects (e : REnv) (c : Ctx) (x1 x2 x3 : Bytes × Bytes) (c' : Ctx) : Prop :=
  ∃ c1 c2, Heard e none c [x1] c1 ∧ Heard e none c1 [x2] c2 ∧ Heard e none c2 [x3] c'

/-- A successful `init_connection`: GET_VERSION, GET_CAPABILITIES and NEGOTIATE_ALGORITHMS, and the transcripts are theirs, whatever was before. -/
theorem connect_out {c c' : Ctx} {u : Unit} (h : initConnection e c = .ok u c') :
    ∃ q1 r1 q2 r2 q3 r3, Connects e c (q1, r1) (q2, r2) (q3, r3) c' ∧ q1.getD 1 0 = 0x84 ∧ q2.getD 1 0 = 0xE1 ∧ q3.getD 1 0 = 0xE3 ∧
      Follows { a := q1 ++ r1 ++ q2 ++ r2 ++ q3 ++ r3 } c' := by
  obtain ⟨_, c1, h1, z1⟩ := M.bind_ok.1 h
  obtain ⟨_, c2, h2, h3⟩ := M.bind_ok.1 z1
  obtain ⟨p1, b1, t1, v1, m1, s1, d1, rfl, d3, d4, d5⟩ := getVersion_ok h1
  obtain ⟨q2, p2, b2, t2, m2, s2, g1, rfl, rfl, gv, g4, g5⟩ := getCapabilities_ok h2
  obtain ⟨q3, p3, b3, t3, m3, s3, k1, rfl, rfl, kv, k4, k5, k6, k7⟩ := negotiateAlgorithms_ok h3
  have w1 : Took c.neg (v1 :: 0x04 :: t1) ((v1 :: 0x04 :: t1).take s1.used) :=
    ⟨c.cc, rfl, Props.consumed_of (x := fun _ => VersionRsp.read) (f := .version) (k := 0x04) (fun _ => rfl) d3⟩
  have w2 := took_of (f := .caps) (k := 0x61) (c := c1) (fun _ => rfl) rfl gv g4
  have w3 := took_of (f := .algs) (k := 0x63) (c := c2) (fun _ => rfl) rfl kv k4
  refine ⟨_, _, _, _, _, _, ⟨c1, c2, .one (.refl c) d1 w1 (by rw [d5]; rfl), .one (.refl c1) g1 w2 (by rw [g5]; rfl), .one (.refl c2) k1 w3 (by rw [k7]; rfl)⟩, rfl, rfl, rfl, ?_⟩
  generalize hq2 : (c1.neg.version.get :: 0xE1 :: getCapsWire c1.cc (capsRequest c1.config) : Bytes) = q2 at *
  generalize hb2 : List.take s2.used (c1.neg.version.get :: 0x61 :: t2) = b2 at *
  generalize hq3 : (c2.neg.version.get :: 0xE3 :: negAlgsWire c2.cc (algsRequest c2.config) : Bytes) = q3 at *
  generalize hb3 : List.take s3.used (c2.neg.version.get :: 0x63 :: t3) = b3 at *
  have a1 : c1.rt = { messageA := [0x10, 0x84, 0, 0] ++ List.take s1.used (v1 :: 4 :: t1) } := by rw [d5]
  have a2 : c2.rt = { c1.rt with l1l2 := none, messageA := c1.rt.messageA ++ q2 ++ b2 } := by rw [g5]
  have a3 : c'.rt = { c2.rt with l1l2 := none, messageA := c2.rt.messageA ++ q3 ++ b3 } := by rw [k7]
  rw [a1] at a2
  rw [a2] at a3
  refine ⟨⟨?_, ?_, ?_⟩, rfl, ?_⟩
  · rw [a3]
  · rw [a3]; rfl
  · rw [a3]; rfl
  · rw [a3]; exact (by decide : ConnState.notStarted.code < 5)

/-! ### histories -/

/-- where a request is made: `none` outside sessions, and its code.  Application data has no code; `connect` and `vendor` restart the connection. -/
def Op.asks : Op → Option (Option UInt32 × UInt8)
  | .digests sid => some (sid, 0x81)
  | .certificate _ sid _ => some (sid, 0x82)
  | .challenge _ _ => some (none, 0x83)
  | .measurements sid _ _ _ => some (sid, 0xE0)
  | .keyExchange _ _ => some (none, 0xE4)
  | .pskExchange _ _ => some (none, 0xE6)
  | .finish _ sid => some (some sid, 0xE5)
  | .pskFinish sid => some (some sid, 0xE7)
  | .heartbeat sid => some (some sid, 0xE8)
  | .keyUpdate sid _ => some (some sid, 0xE9)
  | .endSession sid => some (some sid, 0xEC)
  | .connect | .vendor _ _ | .sendApp _ _ | .receiveApp _ => none

/-- the operations that reset the whole connection. -/
def Op.restart : Op → Bool
  | .connect | .vendor _ _ => true
  | _ => false

/-- What one operation makes happen. -/
inductive Happens (e : REnv) (op : Op) (c c' : Ctx) : List Spec.Event → Prop
  /-- outside sessions it succeeded: the exchanges are what was sent and what came back -/
  | said {k : UInt8} {l : List (Bytes × Bytes)} : op.asks = some (none, k) → op.run e c = .ok () c' → Heard e none c l c' → (∀ x ∈ l, x.1.getD 1 0 = k) →
      Happens e op c c' (l.map fun x => .said x.1 x.2)
  /-- outside sessions it failed after some exchanges -/
  | failed {k : UInt8} {l : List (Bytes × Bytes)} {cm : Ctx} {st : Status} {forged : Bool} : op.asks = some (none, k) → op.run e c = .err st c' → Heard e none c l cm → (∀ x ∈ l, x.1.getD 1 0 = k) →
      cm.sent <+: c'.sent → (forged = true → st = .verifFail) → Happens e op c c' ((l.map fun x => .said x.1 x.2) ++ [.failed k forged])
  /-- it was made in a session -/
  | inSession {i : UInt32} {k : UInt8} : op.asks = some (some i, k) → Happens e op c c' [.inSession k]
  /-- it was refused at once, or it was about application data -/
  | nothing : c' = c ∨ op.asks = none → Happens e op c c' []

/-- A history, with what happened in it. -/
inductive Story : Ctx → List (REnv × Op) → List Spec.Event → Ctx → Prop
  | nil {c : Ctx} : Story c [] [] c
  | cons {c c1 c' : Ctx} {e : REnv} {op : Op} {h : List (REnv × Op)} {l l' : List Spec.Event} :
      Left (op.run e) c c1 → Happens e op c c1 l → Story c1 h l' c' → Story c ((e, op) :: h) (l ++ l') c'

theorem quiet_ok {α : Type} {x : M Status Ctx α} {c c' : Ctx} {u : Unit} (h : quiet x c = .ok u c') : ∃ a, x c = .ok a c' := by
  obtain ⟨a, c1, h1, h2⟩ := M.bind_ok.1 h
  cases h2
  exact ⟨a, h1⟩

theorem quiet_err {α : Type} {x : M Status Ctx α} {c c' : Ctx} {st : Status} (h : quiet x c = .err st c') : x c = .err st c' := by
  unfold quiet at h
  rw [M.bind_apply] at h
  cases hx : x c with
  | panic => rw [hx] at h; cases h
  | ok a s => rw [hx] at h; cases h
  | err st s => rw [hx] at h; injection h with h1 h2; rw [h1, h2]

theorem sent_op {k : ReqRespCode} {i : Option UInt32} {c c' : Ctx} (h : c.sent <+: c'.sent) : (Ctx.resetBuffers k i c).sent <+: c'.sent := by
  rw [(quiet_reset k i c).1]; exact h

/-- nothing sent is taken back. -/
def Sent (c c' : Ctx) : Prop := c.sent <+: c'.sent
instance : M.Pre Sent where
  refl _ := List.prefix_refl _
  trans h h' := List.IsPrefix.trans h h'

theorem sent_kept {α : Type} {x : M Status Ctx α} (h : M.Rel (Kept sid) x) : M.Rel Sent x := h.mono fun _ _ h => h.sent
theorem sent_frame {α : Type} {k : Bool} {x : M Status Ctx α} (h : M.Rel (Frame k sid) x) : M.Rel Sent x := h.mono fun _ _ h => h.sent
theorem sent_onSession {α : Type} (i : UInt32) (missing : M Status Ctx α) (x : M Status Session α) (hm : M.Rel Sent missing) : M.Rel Sent (Ctx.onSession i missing x) := by
  intro c
  unfold Ctx.onSession
  simp only [M.wp_bind, M.wp_get]
  split
  · exact hm c
  · split
    · exact List.prefix_refl _
    · exact List.prefix_refl _
    · trivial

theorem sent_keyExchange (slot : UInt8) (t : SummaryHashType) : M.Rel Sent (keyExchange e slot t) := by
  unfold keyExchange
  refine .ite (fun _ => .fail _) fun _ => .bind .get fun _ => .bind (.lift _) fun _ => .bind (.modify fun c => ?_) fun _ => .bind (.ofOption _ _) fun _ => .bind (.ofOption _ _) fun p => ?_
  · unfold Sent; rw [(quiet_reset .reqKeyExchange none c).1]; exact List.prefix_refl _
  obtain ⟨exchange, final⟩ := p
  refine .bind (.ofOption _ _) fun _ => .bind (sent_frame (rel_encodeReq (sid := none) _ _)) fun _ => .bind (sent_frame (rel_transact (sid := none) _)) fun _ => ?_
  unfold handleKeyExchange
  refine .bind (.modify fun c => List.prefix_refl _) fun _ => .bind (sent_kept (rel_expect _ _)) fun _ => .bind (sent_frame (rel_readMsg (sid := none) _ _ _)) fun p => ?_
  obtain ⟨m, b⟩ := p
  exact .bind .get fun _ => .bind (.ofOption _ _) fun _ => .bind (.lift _) fun _ => .bind (.unwrap _) fun _ => .bind (.ofOption _ _) fun _ =>
    .bind (sent_onSession _ _ _ (.fail _)) fun _ => sent_kept (kept_keyExchangeBody _ _ _ _ _ _)

theorem sent_pskExchange (t : SummaryHashType) (hint : Bytes) : M.Rel Sent (pskExchange e t hint) := by
  unfold pskExchange
  refine .bind (.modify fun c => ?_) fun _ => .bind .get fun _ => .bind (.lift _) fun _ => .bind (.ofOption _ _) fun _ => .bind (.ofOption _ _) fun _ => .bind (.unwrap _) fun _ =>
    .bind (sent_frame (rel_encodeReq (sid := none) _ _)) fun _ => .bind (sent_frame (rel_transact (sid := none) _)) fun _ => ?_
  · unfold Sent; rw [(quiet_reset .reqPskExchange none c).1]; exact List.prefix_refl _
  unfold handlePskExchange
  refine .bind (.modify fun c => List.prefix_refl _) fun _ => .bind (sent_kept (rel_expect _ _)) fun _ => .bind (sent_frame (rel_readMsg (sid := none) _ _ _)) fun p => ?_
  obtain ⟨m, b⟩ := p
  exact .bind .get fun _ => .bind (.lift _) fun _ => .bind (sent_onSession _ _ _ (.fail _)) fun _ => sent_kept (kept_pskExchangeBody _ _ _ _ _)

/-- One operation moves the transcripts as the events say. -/
theorem happens {op : Op} {c c' : Ctx} (hr : op.restart = false) (ht : ReqTable 0 c.sessions) (hn : c.sessions.length < 0xFFFD) (h : Left (op.run e) c c') :
    ∃ l, Happens e op c c' l ∧ ∀ ts : Spec.Transcripts, Follows ts c → Follows (ts.tell l) c' := by
  have said : ∀ {k : UInt8} {l : List (Bytes × Bytes)}, op.asks = some (none, k) → op.run e c = .ok () c' → Learns e k c l c' →
      ∃ l, Happens e op c c' l ∧ ∀ ts : Spec.Transcripts, Follows ts c → Follows (ts.tell l) c' := by
    intro k l h1 h2 h3
    exact ⟨_, .said h1 h2 h3.1 h3.2.1, fun ts hf => by rw [Spec.Transcripts.tell_said]; exact h3.2.2 ts hf⟩
  have nothing : c' = c → ∃ l, Happens e op c c' l ∧ ∀ ts : Spec.Transcripts, Follows ts c → Follows (ts.tell l) c' := by
    intro h; subst h; exact ⟨_, .nothing (.inl rfl), fun ts hf => hf⟩
  have failed : ∀ {k : UInt8} {st : Status} (forged : Bool), op.asks = some (none, k) → op.run e c = .err st c' → c.sent <+: c'.sent → (forged = true → st = .verifFail) →
      (∀ ts : Spec.Transcripts, Follows ts c → Follows (ts.next (.failed k forged)) c') →
      ∃ l, Happens e op c c' l ∧ ∀ ts : Spec.Transcripts, Follows ts c → Follows (ts.tell l) c' := by
    intro k st forged h1 h2 h3 h4 h5
    exact ⟨_, .failed (l := []) (cm := c) h1 h2 (.done rfl) (fun _ h => by cases h) h3 h4, fun ts hf => h5 ts hf⟩
  have within : ∀ {i : UInt32} {k : ReqRespCode}, op.asks = some (some i, k.get) → InSession k c c' →
      ∃ l, Happens e op c c' l ∧ ∀ ts : Spec.Transcripts, Follows ts c → Follows (ts.tell l) c' := by
    intro i k h1 h2
    exact ⟨_, .inSession h1, fun ts hf => h2 ts hf⟩
  have kout : ∀ {k : ReqRespCode}, (∀ v, k ≠ .unknown v) → Began k none c c' → ∀ ts : Spec.Transcripts, Follows ts c → Follows (ts.next (.failed k.get false)) c' :=
    fun hk hb ts hf => (reset_out _ hk hf).still hb
  cases op with
  | connect => cases hr
  | vendor _ _ => cases hr
  | digests sid =>
    cases sid with
    | none =>
      rcases h with h | ⟨st, h⟩
      · obtain ⟨rsp, h1⟩ := digests_out h
        exact said rfl h h1
      · exact failed false rfl h (kept_getDigests.err h).sent (by simp) (kout (k := .reqGetDigests) (fun v h => by cases h) (getDigests_err h))
    | some i => exact within (k := .reqGetDigests) rfl (h.wp (digests_in i c))
  | certificate fuel sid slot =>
    cases sid with
    | none =>
      rcases h with h | ⟨st, h⟩
      · obtain ⟨i, l, _, h1, hp, _, _, _, _, _, h2, _⟩ := getCertificate_ok h
        exact said rfl h ⟨h1, portions_code l hp, h2 rfl⟩
      · rcases getCertificate_broke h with h1 | ⟨l, cm, h1, h0, h2, h3⟩
        · exact nothing h1
        · refine ⟨_, .failed (forged := false) rfl h h1 h0 h2 (by simp), fun ts hf => ?_⟩
          rw [Spec.Transcripts.tell_append, Spec.Transcripts.tell_said]
          exact h3 ts hf
    | some i =>
      have hw := certificate_in (e := e) i fuel slot c
      rcases h with h | ⟨st, h⟩
      · exact within (k := .reqGetCertificate) rfl (hw.ok h)
      · rcases hw.err h with h1 | h1
        · exact nothing h1
        · exact within (k := .reqGetCertificate) rfl h1
  | challenge slot t =>
    rcases h with h | ⟨st, h⟩
    · obtain ⟨req, rsp, h1⟩ := challenge_out h
      exact said rfl h h1
    · have hs := ((kept_challenge slot t).err h).sent
      rcases challenge_err h with h1 | h1 | ⟨h0, h1⟩
      · exact nothing h1
      · exact failed false rfl h hs (by simp) (kout (k := .reqChallenge) (fun v h => by cases h) h1)
      · refine failed true rfl h hs (fun _ => h0) fun ts hf => ?_
        have hf' : Follows { ts with b := none, m := none } (Ctx.resetM1M2 (Ctx.resetM none c)) := ⟨⟨hf.a, rfl, rfl⟩, hf.cert, hf.state⟩
        exact hf'.still h1
  | measurements sid slot attr op =>
    cases sid with
    | none =>
      rcases h with h | ⟨st, h⟩
      · obtain ⟨out, h'⟩ := quiet_ok h
        obtain ⟨req, rsp, h1⟩ := measurements_out h'
        exact said rfl h h1
      · have h' := quiet_err h
        have hs := ((kept_getMeasurements slot attr op).err h').sent
        rcases measurements_err h' with h1 | h1 | ⟨h0, h1⟩
        · exact nothing h1
        · exact failed false rfl h hs (by simp) (kout (k := .reqGetMeasurements) (fun v h => by cases h) h1)
        · refine failed true rfl h hs (fun _ => h0) fun ts hf => ?_
          have hg := reset_out .reqGetMeasurements (fun v h => by cases h) hf
          have hf' : Follows { ts with b := none, m := none } (Ctx.resetM none (Ctx.resetBuffers .reqGetMeasurements none c)) := ⟨⟨hg.a, hg.b, rfl⟩, hg.cert, hg.state⟩
          exact hf'.still h1
    | some i =>
      have hw := measurements_in (e := e) i slot attr op c
      rcases h with h | ⟨st, h⟩
      · obtain ⟨out, h'⟩ := quiet_ok h
        exact within (k := .reqGetMeasurements) rfl (hw.ok h')
      · rcases hw.err (quiet_err h) with h1 | h1
        · exact nothing h1
        · exact within (k := .reqGetMeasurements) rfl h1
  | keyExchange slot t =>
    rcases h with h | ⟨st, h⟩
    · obtain ⟨out, h'⟩ := quiet_ok h
      obtain ⟨req, rsp, h1⟩ := keyExchange_out ht hn h'
      exact said rfl h h1
    · have h' := quiet_err h
      rcases keyExchange_err h' with h1 | h1
      · exact nothing h1
      · exact failed false rfl h ((sent_keyExchange _ _).err h') (by simp) (kout (k := .reqKeyExchange) (fun v h => by cases h) h1)
  | pskExchange t hint =>
    rcases h with h | ⟨st, h⟩
    · obtain ⟨out, h'⟩ := quiet_ok h
      obtain ⟨req, rsp, h1⟩ := pskExchange_out ht hn h'
      exact said rfl h h1
    · have h' := quiet_err h
      exact failed false rfl h ((sent_pskExchange _ _).err h') (by simp) (kout (k := .reqPskExchange) (fun v h => by cases h) (pskExchange_err h'))
  | finish slot i =>
    have hw := finish_in (e := e) i slot c
    rcases h with h | ⟨st, h⟩
    · exact within (k := .reqFinish) rfl (hw.ok h)
    · rcases hw.err h with h1 | h1
      · exact nothing h1
      · exact within (k := .reqFinish) rfl h1
  | pskFinish i =>
    have hw := pskFinish_in (e := e) i c
    rcases h with h | ⟨st, h⟩
    · exact within (k := .reqPskFinish) rfl (hw.ok h)
    · rcases hw.err h with h1 | h1
      · exact nothing h1
      · exact within (k := .reqPskFinish) rfl h1
  | heartbeat i => exact within (k := .reqHeartbeat) rfl (h.wp (heartbeat_in i c))
  | endSession i => exact within (k := .reqEndSession) rfl (h.wp (endSession_in i c))
  | keyUpdate i op =>
    have hw := keyUpdate_in (e := e) i op c
    rcases h with h | ⟨st, h⟩
    · exact within (k := .reqKeyUpdate) rfl (hw.ok h)
    · rcases hw.err h with h1 | h1
      · exact nothing h1
      · exact within (k := .reqKeyUpdate) rfl h1
  | sendApp i data =>
    exact ⟨_, .nothing (.inr rfl), fun ts hf => hf.still (h.rel (still_sendSecured _ _ _))⟩
  | receiveApp i =>
    exact ⟨_, .nothing (.inr rfl), fun ts hf => hf.still (h.rel (rt_quiet (still_receiveSecured _)))⟩

/-- Whatever a requester does after connecting, its transcripts are those of what happened. -/
theorem story {n : Nat} {c c' : Ctx} {h : List (REnv × Op)} (hn : n < 0xFFFD) (hc : c.sessions.length = n ∧ ReqTable 0 c.sessions) (hr : Runs c h c')
    (hh : ∀ x ∈ h, x.2.restart = false) : ∃ l, Story c h l c' ∧ ∀ ts : Spec.Transcripts, Follows ts c → Follows (ts.tell l) c' := by
  induction hr with
  | nil => exact ⟨[], .nil, fun ts hf => hf⟩
  | @cons c c1 c' e op h hl hr ih =>
    obtain ⟨l, h1, h2⟩ := happens (hh _ List.mem_cons_self) hc.2 (by rw [hc.1]; exact hn) hl
    have hk := hl.rel (rt_op (e := e) op)
    obtain ⟨l', h3, h4⟩ := ih ⟨hk.1.trans hc.1, hk.2 (by rw [hc.1]; exact hn) hc.2⟩ fun x hx => hh x (List.mem_cons_of_mem _ hx)
    exact ⟨_, .cons hl h1 h3, fun ts hf => by rw [Spec.Transcripts.tell_append]; exact h4 _ (h2 ts hf)⟩

theorem asks_code {op : Op} {sid : Option UInt32} {k : UInt8} (h : op.asks = some (sid, k)) : k ≠ 0x84 ∧ k ≠ 0xE1 ∧ k ≠ 0xE3 := by
  cases op <;> first
    | cases h; done
    | (have h2 := (Prod.mk.inj (Option.some.inj h)).2; rw [← h2]; decide)

theorem heard_a {ts : Spec.Transcripts} {k : UInt8} (hk : k ≠ 0x84 ∧ k ≠ 0xE1 ∧ k ≠ 0xE3) (l : List (Bytes × Bytes)) (h : ∀ x ∈ l, x.1.getD 1 0 = k) : (ts.heardAll l).a = ts.a := by
  induction l generalizing ts with
  | nil => rfl
  | cons x l ih =>
    have h1 := h _ List.mem_cons_self
    show (Spec.Transcripts.heardAll (ts.heard x.1 x.2) l).a = ts.a
    rw [ih fun y hy => h y (List.mem_cons_of_mem _ hy)]
    unfold Spec.Transcripts.heard Spec.Transcripts.after
    dsimp only
    rw [h1, if_neg hk.1, if_neg (by rintro (h | h); exact hk.2.1 h; exact hk.2.2 h)]
    repeat' split
    all_goals rfl

/-- Nothing after connecting changes message A. -/
theorem Story.a {c c' : Ctx} {h : List (REnv × Op)} {l : List Spec.Event} (hs : Story c h l c') (ts : Spec.Transcripts) : (ts.tell l).a = ts.a := by
  induction hs generalizing ts with
  | nil => rfl
  | cons hl hp _ ih =>
    rw [Spec.Transcripts.tell_append, ih]
    cases hp with
    | said h1 h2 h3 h4 => rw [Spec.Transcripts.tell_said]; exact heard_a (asks_code h1) _ h4
    | failed h1 h2 h3 h4 h5 h6 => rw [Spec.Transcripts.tell_append, Spec.Transcripts.tell_said]; exact heard_a (asks_code h1) _ h4
    | inSession h1 => rfl
    | nothing h1 => rfl

end Req
end Verif
