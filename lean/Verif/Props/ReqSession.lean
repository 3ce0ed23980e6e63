/-
C35 in sessions: a signature over measurements got in a session covers the measurements got in that session since the last one.
-/
import Verif.Props.ReqAuth
import Verif.Requester.Noted

namespace Verif
namespace Req
open Rsp

variable {e : REnv} {i : UInt32}

/-- the negotiation is kept. -/
def NA (c c' : Ctx) : Prop := c'.neg = c.neg ∧ c'.rt.messageA = c.rt.messageA
instance : M.Pre NA where
  refl _ := ⟨rfl, rfl⟩
  trans h h' := ⟨h'.1.trans h.1, h'.2.trans h.2⟩

theorem na_kept {α : Type} {o : Option UInt32} {x : M Status Ctx α} (h : M.Rel (Kept o) x) : M.Rel NA x := h.mono fun _ _ h => ⟨h.neg, h.messageA⟩
theorem na_still {α : Type} {x : M Status Ctx α} (h : M.Rel Still x) : M.Rel NA x := h.mono fun _ _ h => ⟨h.neg, h.messageA⟩
theorem na_reset (k : ReqRespCode) (o : Option UInt32) : M.Rel NA (M.modify (Ctx.resetBuffers k o) : M Status Ctx Unit) := na_kept (rel_of_frame (Ctx.rel_resetBuffers (k := true) (sid := o) _))

theorem na_keyExchange (slot : UInt8) (t : SummaryHashType) : M.Rel NA (keyExchange e slot t) := by
  unfold keyExchange
  refine .ite (fun _ => .fail _) (fun _ => .bind .get fun c0 => .bind (.lift _) fun q => .bind (na_reset _ _) fun _ => .bind (.ofOption _ _) fun random => .bind (.ofOption _ _) fun p => ?_)
  obtain ⟨exchange, final⟩ := p
  exact .bind (.ofOption _ _) fun _ => .bind (na_still (still_encodeReq _ _)) fun _ => .bind (na_still (still_transact _)) fun _ => na_still (still_handleKeyExchange _ _ _ _ _ _)

theorem na_pskExchange (t : SummaryHashType) (hint : Bytes) : M.Rel NA (pskExchange e t hint) := by
  unfold pskExchange
  exact .bind (na_reset _ _) fun _ => .bind .get fun _ => .bind (.lift _) fun _ => .bind (.ofOption _ _) fun _ => .bind (.ofOption _ _) fun _ => .bind (.unwrap _) fun _ =>
    .bind (na_still (still_encodeReq _ _)) fun _ => .bind (na_still (still_transact _)) fun _ => na_still (still_handlePskExchange _ _ _ _ _)

theorem na_getCertificate (fuel : Nat) (o : Option UInt32) (slot : UInt8) : M.Rel NA (getCertificate e fuel o slot) := by
  unfold getCertificate
  exact .bind (.ofOption _ _) fun j => .bind (na_reset _ _) fun _ => .bind (.modify fun c => ⟨rfl, rfl⟩) fun _ => .bind (na_kept (kept_certificateLoop (sid := o) _ _ _ _ _)) fun _ => na_still (still_storeChain _ _)

/-- only restarting the connection changes what was negotiated. -/
theorem na_op {op : Op} (hr : op.restart = false) : M.Rel NA (op.run e) := by
  cases op with
  | connect => cases hr
  | vendor _ _ => cases hr
  | digests sid => exact na_kept kept_getDigests
  | certificate fuel sid slot => exact na_getCertificate _ _ _
  | challenge slot t => exact na_kept (kept_challenge _ _)
  | measurements sid slot attr op => exact rt_quiet (na_kept (kept_getMeasurements _ _ _))
  | keyExchange slot t => exact rt_quiet (na_keyExchange _ _)
  | pskExchange t hint => exact rt_quiet (na_pskExchange _ _)
  | finish slot j => exact na_kept (kept_finish _ _)
  | pskFinish j => exact na_kept (kept_pskFinish _)
  | heartbeat j => exact na_kept (kept_heartbeat _)
  | keyUpdate j op => exact na_kept (kept_keyUpdate _ _)
  | endSession j => exact na_kept (kept_endSession _)
  | sendApp j data => exact na_still (still_sendSecured _ _ _)
  | receiveApp j => exact rt_quiet (na_still (still_receiveSecured _))

/-- an operation that asks nothing in session `i` leaves its measurement transcript, or opens it with none. -/
theorem elsewhere_op (h0 : i ≠ 0) {op : Op} (hr : op.restart = false) (ha : ∀ k, op.asks ≠ some (some i, k)) {c c' : Ctx} (ho : Ordered c) (h : Left (op.run e) c c') : Opens' i c c' := by
  have kp : ∀ {o : Option UInt32} {k : UInt8}, op.asks = some (o, k) → M.Rel (Kept o) (op.run e) → Opens' i c c' := by
    intro o k h1 h2
    refine .inl (notes_kept h0 (fun hc => ?_) (h.rel h2))
    rw [hc] at h1
    exact ha _ h1
  cases op with
  | connect => cases hr
  | vendor _ _ => cases hr
  | digests sid => exact kp rfl kept_getDigests
  | certificate fuel sid slot =>
    exact .inl (h.rel (notes_getCertificate h0 sid (fun hc => ha 0x82 (by rw [hc]; rfl)) fuel slot))
  | challenge slot t => exact .inl (notes_kept h0 (fun hc => h0 (Option.some.inj hc).symm) (h.rel (kept_challenge _ _)))
  | measurements sid slot attr op => exact kp rfl (rt_quiet (kept_getMeasurements _ _ _))
  | keyExchange slot t =>
    have hw := notes_keyExchange (e := e) h0 ho.1 ho.2 slot t
    rcases h with h | ⟨st, h⟩
    · obtain ⟨a, h⟩ := quiet_ok h
      exact hw.ok h
    · exact hw.err (quiet_err h)
  | pskExchange t hint =>
    have hw := notes_pskExchange (e := e) h0 ho.1 ho.2 t hint
    rcases h with h | ⟨st, h⟩
    · obtain ⟨a, h⟩ := quiet_ok h
      exact hw.ok h
    · exact hw.err (quiet_err h)
  | finish slot j => exact kp rfl (kept_finish _ _)
  | pskFinish j => exact kp rfl (kept_pskFinish _)
  | heartbeat j => exact kp rfl (kept_heartbeat _)
  | keyUpdate j op => exact kp rfl (kept_keyUpdate _ _)
  | endSession j => exact kp rfl (kept_endSession _)
  | sendApp j data => exact .inl (h.rel (notes_sendSecured h0 _ _ _))
  | receiveApp j => exact .inl (h.rel (rt_quiet (notes_receiveSecured h0 _)))

end Req

namespace Props
open Req

/-- What one operation leaves of the measurements told in session `i` since the last signature. -/
inductive Tells (i : UInt32) (e : REnv) (op : Op) (c c' : Ctx) (told : List (Bytes × Bytes)) : List (Bytes × Bytes) → Prop
  /-- unsigned measurements were got in the session: request and response are added -/
  | got {slot attr : UInt8} {mop : MeasOperation} {req rsp rest : Bytes} {cx : Ctx} : op = .measurements (some i) slot attr mop → attr &&& 1 = 0 → op.run e c = .ok () c' →
      Said e (some i) (Ctx.resetBuffers .reqGetMeasurements (some i) c) req (rsp ++ rest) cx → Took c.neg (rsp ++ rest) rsp → req.getD 1 0 = 0xE0 → req.getD 2 0 = attr → Tells i e op c c' told (told ++ [(req, rsp)])
  /-- signed ones were got -/
  | signed {slot attr : UInt8} {mop : MeasOperation} : op = .measurements (some i) slot attr mop → attr &&& 1 = 1 → op.run e c = .ok () c' → Tells i e op c c' told []
  /-- asking for measurements in the session failed -/
  | failed {slot attr : UInt8} {mop : MeasOperation} {st : Status} : op = .measurements (some i) slot attr mop → op.run e c = .err st c' → Tells i e op c c' told told
  /-- it failed because the signature did not verify -/
  | forged {slot attr : UInt8} {mop : MeasOperation} : op = .measurements (some i) slot attr mop → attr &&& 1 = 1 → op.run e c = .err .verifFail c' → Tells i e op c c' told []
  /-- something else was asked in the session -/
  | other {k : UInt8} : op.asks = some (some i, k) → k ≠ 0xE0 → Tells i e op c c' told []
  /-- … and refused before anything was sent -/
  | refused {k : UInt8} {st : Status} : op.asks = some (some i, k) → k ≠ 0xE0 → op.run e c = .err st c → c' = c → Tells i e op c c' told told
  /-- nothing was asked in the session -/
  | elsewhere : (∀ k, op.asks ≠ some (some i, k)) → Tells i e op c c' told told

/-- `told` are the measurement requests and responses of session `i` in a history since the session was opened or its last signature. -/
inductive Measured (i : UInt32) (c0 : Ctx) : List (REnv × Op) → Ctx → List (Bytes × Bytes) → Prop
  | absent {h : List (REnv × Op)} {c : Ctx} : Runs c0 h c → c.session? i = none → Measured i c0 h c []
  | step {h : List (REnv × Op)} {c c' : Ctx} {e : REnv} {op : Op} {told told' : List (Bytes × Bytes)} : Measured i c0 h c told → Left (op.run e) c c' → (c'.session? i).isSome = true →
      Tells i e op c c' told told' → Measured i c0 (h ++ [(e, op)]) c' told'

/-- the measurement transcript of the session. -/
def sofar (n : Neg) (a : Bytes) (told : List (Bytes × Bytes)) : Option HashCtx :=
  if told = [] then none else some ⟨n.baseHash, (if Cc.ge12 ⟨n, false, false⟩ then a else []) ++ told.flatMap fun x => x.1 ++ x.2⟩

theorem sofar_add (n : Neg) (a : Bytes) (told : List (Bytes × Bytes)) (req rsp : Bytes) :
    some (noted n a (some (noted n a (sofar n a told) req)) rsp) = sofar n a (told ++ [(req, rsp)]) := by
  have hn : ¬ (told ++ [(req, rsp)] = []) := by simp
  unfold sofar
  rw [if_neg hn]
  by_cases h : told = []
  · subst h; simp [noted, List.append_assoc]
  · rw [if_neg h]; simp [noted, List.append_assoc]

theorem signed_iff (attr : UInt8) : signatureRequested attr = true ↔ attr &&& 1 = 1 := by
  unfold signatureRequested
  simp

theorem unsigned_of {attr : UInt8} (h : ¬ signatureRequested attr = true) : attr &&& 1 = 0 := by
  rw [signed_iff] at h
  have h1 : (attr &&& 1).toNat = attr.toNat % 2 := by
    rw [UInt8.toNat_and]; exact Nat.and_one_is_mod _
  have h2 : ¬ (attr &&& 1).toNat = 1 := fun hc => h (UInt8.toNat_inj.1 hc)
  exact UInt8.toNat_inj.1 (by show (attr &&& 1).toNat = 0; omega)

/-- one operation. -/
theorem measured_step {i : UInt32} (h0 : i ≠ 0) {e : REnv} {op : Op} {c c' : Ctx} {told : List (Bytes × Bytes)} (hr : op.restart = false) (ho : Ordered c) (hl : Left (op.run e) c c')
    (hab : c.session? i = none → told = []) (hh : Has i (sofar c.neg c.rt.messageA told) c) :
    ∃ told', Tells i e op c c' told told' ∧ Has i (sofar c.neg c.rt.messageA told') c' := by
  by_cases ha : ∀ k, op.asks ≠ some (some i, k)
  · refine ⟨told, .elsewhere ha, ?_⟩
    rcases elsewhere_op h0 hr ha ho hl with hn | ⟨h1, h2⟩
    · exact hh.notes h0 ho hn
    · have hnone : c.session? i = none := List.find?_eq_none.2 fun s hs => by simpa using h1 s hs
      rw [hab hnone]
      intro s hs
      exact h2 s (List.mem_of_find?_eq_some hs) (Rsp.session?_id hs)
  · obtain ⟨k, hk⟩ := Classical.not_forall.1 ha
    have hk : op.asks = some (some i, k) := Classical.not_not.1 hk
    have drop : k ≠ 0xE0 → (op.run e).wp c (fun _ => Has i none) (fun _ c' => c' = c ∨ Has i none c') → ∃ told', Tells i e op c c' told told' ∧ Has i (sofar c.neg c.rt.messageA told') c' := by
      intro h1 h2
      rcases hl with hl | ⟨st, hl⟩
      · exact ⟨[], .other hk h1, h2.ok hl⟩
      · rcases h2.err hl with h3 | h3
        · subst h3; exact ⟨told, .refused hk h1 hl rfl, hh⟩
        · exact ⟨[], .other hk h1, h3⟩
    have drop' : k ≠ 0xE0 → (op.run e).wp c (fun _ => Has i none) (fun _ => Has i none) → ∃ told', Tells i e op c c' told told' ∧ Has i (sofar c.neg c.rt.messageA told') c' :=
      fun h1 h2 => drop h1 (h2.mono (fun _ _ h => h) fun _ _ h => .inr h)
    cases op with
    | connect => cases hr
    | vendor _ _ => cases hr
    | digests sid => cases hk; exact drop' (by decide) (drops_digests h0 ho)
    | certificate fuel sid slot => cases hk; exact drop (by decide) (drops_certificate h0 fuel slot ho)
    | challenge slot t => cases hk
    | measurements sid slot attr mop =>
      cases hk
      rcases hl with hl | ⟨st, hl⟩
      · obtain ⟨out, hx⟩ := quiet_ok hl
        obtain ⟨req, rsp, rest, cx, g1, g2, gc, g3, g4⟩ := measured_ok hh hx
        by_cases hs : signatureRequested attr = true
        · rw [if_pos hs] at g4
          exact ⟨[], .signed rfl ((signed_iff _).1 hs) hl, g4⟩
        · rw [if_neg hs] at g4
          refine ⟨told ++ [(req, rsp)], .got rfl (unsigned_of hs) hl g1 g2 gc g3, ?_⟩
          rw [← sofar_add]; exact g4
      · rcases measured_err h0 ho hh (quiet_err hl) with g | ⟨rfl, g1, g2⟩
        · exact ⟨told, .failed rfl hl, g⟩
        · exact ⟨[], .forged rfl ((signed_iff _).1 g1) hl, g2⟩
    | keyExchange slot t => cases hk
    | pskExchange t hint => cases hk
    | finish slot j => cases hk; exact drop (by decide) (drops_finish h0 slot ho)
    | pskFinish j => cases hk; exact drop (by decide) (drops_pskFinish h0 ho)
    | heartbeat j => cases hk; exact drop' (by decide) (drops_heartbeat h0 ho)
    | keyUpdate j op => cases hk; exact drop (by decide) (drops_keyUpdate h0 op ho)
    | endSession j => cases hk; exact drop' (by decide) (drops_endSession h0 ho)
    | sendApp j data => cases hk
    | receiveApp j => cases hk

/-- along a history. -/
theorem measured_runs {i : UInt32} (h0 : i ≠ 0) {c0 c c1 : Ctx} {h0' h : List (REnv × Op)} {told : List (Bytes × Bytes)} (hm : Measured i c0 h0' c told) (hp : Runs c0 h0' c) (ho : Ordered c)
    (hab : c.session? i = none → told = []) (hh : Has i (sofar c.neg c.rt.messageA told) c) (hr : Runs c h c1) (hn : ∀ x ∈ h, x.2.restart = false) :
    ∃ told', Measured i c0 (h0' ++ h) c1 told' ∧ Has i (sofar c1.neg c1.rt.messageA told') c1 ∧ c1.neg = c.neg ∧ c1.rt.messageA = c.rt.messageA := by
  induction hr generalizing h0' told with
  | nil => exact ⟨told, by simpa using hm, hh, rfl, rfl⟩
  | @cons c c1 c' e op h hl hr ih =>
    have h1 := hn _ List.mem_cons_self
    have hna := hl.rel (na_op (e := e) h1)
    obtain ⟨told', g1, g2⟩ := measured_step h0 h1 ho hl hab hh
    rw [← hna.1, ← hna.2] at g2
    have hp' : Runs c0 (h0' ++ [(e, op)]) c1 := hp.append (.cons hl .nil)
    have key : ∃ t, Measured i c0 (h0' ++ [(e, op)]) c1 t ∧ (c1.session? i = none → t = []) ∧ Has i (sofar c1.neg c1.rt.messageA t) c1 := by
      cases hs : c1.session? i with
      | none => exact ⟨[], .absent hp' hs, fun _ => rfl, fun s h => by rw [hs] at h; cases h⟩
      | some s => exact ⟨told', .step hm hl (by rw [hs]; rfl) g1, fun h => (by cases h), g2⟩
    obtain ⟨t, k1, k2, k3⟩ := key
    obtain ⟨t', j1, j2, j3, j4⟩ := ih k1 hp' (ho.kept (hl.rel (rt_op (e := e) op))) k2 k3 fun x hx => hn x (List.mem_cons_of_mem _ hx)
    exact ⟨t', by simpa using j1, j2, j3.trans hna.1, j4.trans hna.2⟩

/-- Signed measurements were returned in a session opened on this connection: the signature verified under the certificates stored for the slot, over the hash of
the negotiation, the measurement requests and responses of this session since its last signature, this request, and this response up to the signature. -/
theorem C35_in_session {n : Nat} {e0 e : REnv} {c0 c c1 c2 : Ctx} {h : List (REnv × Op)} {i : UInt32} {slot attr : UInt8} {op : MeasOperation} {out : UInt8 × MeasRecord} (hn : n < 0xFFFD)
    (h0 : Req.Reachable n c0) (hc : initConnection e0 c0 = .ok () c) (hi : i ≠ 0) (hnew : c.session? i = none) (hr : Runs c h c1) (hh : ∀ x ∈ h, x.2.restart = false) (hs : attr &&& 1 = 1)
    (hx : getMeasurements e (some i) slot attr op c1 = .ok out c2) :
    ∃ ts told, Past e0 c0 c h c1 ts ∧ Measured i c h c1 told ∧ ∃ s nonce p1 p2 m rest d certs cx, let req := measRequest c1 slot attr op nonce; let body := measHeardBody c1.neg.version.get p1 p2 m
      c1.session? i = some s ∧ Ctx.random e.toEnv 32 = some nonce ∧ Said e (some i) (Ctx.resetBuffers .reqGetMeasurements (some i) c1) req (body ++ m.signature ++ rest) cx ∧
      Took c1.neg (body ++ m.signature ++ rest) (body ++ m.signature) ∧ BaseAsym.size? c1.neg.baseAsym = some m.signature.length ∧
      e.crypto.hash c1.neg.baseHash (ts.a ++ (told.flatMap fun x => x.1 ++ x.2) ++ req ++ body) = some d ∧ CertsOf c1 slot certs ∧
      e.verify c1.neg.baseHash c1.neg.baseAsym certs (Spec.signedData .measurements d) m.signature = true ∧
      out = (if op = .queryTotalNumber then m.number else m.record.blocks, m.record) ∧ ∀ s', c2.session? i = some s' → s'.l1l2 = none := by
  obtain ⟨ts, hp, hf, hlen, htab⟩ := past_of hn h0 hc hr hh
  have ht := h0.table hn
  have hk := Left.rel (x := Op.connect.run e0) (rt_op (e := e0) .connect) (Or.inl hc)
  have ho : Ordered c := ⟨hk.2 (by rw [ht.1]; exact hn) ht.2, by rw [hk.1, ht.1]; exact hn⟩
  obtain ⟨told, hm, hhas, -, -⟩ := measured_runs hi (h0' := []) (told := []) (.absent .nil hnew) .nil ho (fun _ => rfl) (fun s h => by rw [hnew] at h; cases h) hr hh
  obtain ⟨s, nonce, p1, p2, m, rest, d, certs, cx, g1, g2, g3, g4, g5, g6, g7, g8, g9, g10, g11⟩ := measurements_in_session hs hx
  refine ⟨ts, told, hp, by simpa using hm, s, nonce, p1, p2, m, rest, d, certs, cx, g1, g2, g3, g4, g5, ?_, g8, g9, g10, g11⟩
  have hl := hhas s g1
  dsimp only at g6
  rw [hl] at g6
  have hge : Cc.ge12 ⟨c1.neg, false, false⟩ = true := g7
  have : (sofar c1.neg c1.rt.messageA told).getD ⟨c1.neg.baseHash, c1.rt.messageA⟩ = ⟨c1.neg.baseHash, ts.a ++ (told.flatMap fun x => x.1 ++ x.2)⟩ := by
    unfold sofar
    rw [hge, if_pos rfl, hf.a]
    by_cases ht : told = []
    · rw [if_pos ht, ht]; simp
    · rw [if_neg ht]; rfl
  rw [this] at g6
  exact g6

/-- the hypotheses of `C35_in_session` are met: a certificate, a session, unsigned measurements in it, then signed ones. -/
example : ∃ c c1 c2 out, initConnection Toy.renv Toy.req0 = .ok () c ∧ c.session? 0xFFFDFFFD = none ∧
    Runs c [(Toy.renv, .certificate 20 none 0), (Toy.renv, .keyExchange 0 .none), (Toy.renv, .finish none 0xFFFDFFFD), (Toy.renv, .measurements (some 0xFFFDFFFD) 0 0 .requestAll)] c1 ∧
    getMeasurements Toy.renv (some 0xFFFDFFFD) 0 1 .requestAll c1 = .ok out c2 := by
  obtain ⟨c, h1, g1⟩ := toyStep (e := Toy.renv) (c := Toy.req0) (op := .connect)
    (l := [.certificate 20 none 0, .keyExchange 0 .none, .finish none 0xFFFDFFFD, .measurements (some 0xFFFDFFFD) 0 0 .requestAll, .measurements (some 0xFFFDFFFD) 0 1 .requestAll])
    (o := [none, none, none, none, none]) (by decide +kernel)
  have hs : (match initConnection Toy.renv Toy.req0 with | .ok _ c => (c.session? 0xFFFDFFFD).isNone | _ => false) = true := by decide +kernel
  have h1' : initConnection Toy.renv Toy.req0 = .ok () c := h1
  rw [h1'] at hs
  obtain ⟨c1, h2, g2⟩ := toyStep g1
  obtain ⟨c2, h3, g3⟩ := toyStep g2
  obtain ⟨c3, h4, g4⟩ := toyStep g3
  obtain ⟨c4, h5, g5⟩ := toyStep g4
  obtain ⟨c5, h6, -⟩ := toyStep g5
  obtain ⟨out, h7⟩ := quiet_ok h6
  exact ⟨c, c4, c5, out, h1, Option.isNone_iff_eq_none.1 hs, .cons (.inl h2) (.cons (.inl h3) (.cons (.inl h4) (.cons (.inl h5) .nil))), h7⟩

end Props
end Verif
