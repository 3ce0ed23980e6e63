/-
What a requester knows when an authentication succeeds: certificates (C31), CHALLENGE (C34), measurements (C35), key exchange (C36).
-/
import Verif.Requester.Story
import Verif.Props.Exchange
import Verif.Spec.ToyReq

namespace Verif.Props
open Req

variable {e : REnv}

theorem runOps_runs {e : REnv} (l : List Op) {c c' : Ctx} {o : List (Option Status)} (h : Toy.runOps e c l = some (o, c')) : Runs c (l.map (e, ·)) c' := by
  induction l generalizing c o with
  | nil => cases h; exact .nil
  | cons op l ih =>
    unfold Toy.runOps at h
    cases hx : op.run e c with
    | panic => rw [hx] at h; cases h
    | ok u c1 =>
      rw [hx] at h
      obtain ⟨⟨o1, c2⟩, h1, h2⟩ := Option.map_eq_some_iff.1 h
      cases h2
      exact .cons (.inl hx) (ih h1)
    | err st c1 =>
      rw [hx] at h
      obtain ⟨⟨o1, c2⟩, h1, h2⟩ := Option.map_eq_some_iff.1 h
      cases h2
      exact .cons (.inr ⟨st, hx⟩) (ih h1)

/-- the toy requester after some operations. -/
def toyReq (l : List Op) : Ctx := ((Toy.runOps Toy.renv Toy.req0 l).map (·.2)).getD Toy.req0

/-- it got there, and all operations succeeded. -/
theorem toyReq_runs (l : List Op) (h : (Toy.runOps Toy.renv Toy.req0 l).map (·.1) = some (l.map fun _ => none)) :
    Runs Toy.req0 (l.map (Toy.renv, ·)) (toyReq l) := by
  unfold toyReq
  cases hx : Toy.runOps Toy.renv Toy.req0 l with
  | none => rw [hx] at h; cases h
  | some x =>
    obtain ⟨o, c⟩ := x
    exact runOps_runs l hx

/-- the first of several operations that all succeed. -/
theorem toyStep {e : REnv} {c : Ctx} {op : Op} {l : List Op} {o : List (Option Status)} (h : (Toy.runOps e c (op :: l)).map (·.1) = some (none :: o)) :
    ∃ c1, op.run e c = .ok () c1 ∧ (Toy.runOps e c1 l).map (·.1) = some o := by
  unfold Toy.runOps at h
  cases hx : op.run e c with
  | panic => rw [hx] at h; cases h
  | ok u c1 =>
    refine ⟨c1, rfl, ?_⟩
    rw [hx] at h
    dsimp only at h
    cases hy : Toy.runOps e c1 l with
    | none => rw [hy] at h; cases h
    | some x =>
      rw [hy] at h
      have := Option.some.inj h
      exact congrArg some (List.cons.inj this).2
  | err st c1 =>
    rw [hx] at h
    dsimp only at h
    cases hy : Toy.runOps e c1 l with
    | none => rw [hy] at h; cases h
    | some x =>
      rw [hy] at h
      have := Option.some.inj h
      cases (List.cons.inj this).1

/-! ### C31: certificates -/

/-- no certificate chain is new, and configuration and provisioned data are kept. -/
def NoNew (c c' : Ctx) : Prop := (∀ i chain, c'.peer.chain i = some chain → c.peer.chain i = some chain) ∧ c'.prov = c.prov ∧ c'.config = c.config

instance : M.Pre NoNew where
  refl _ := ⟨fun _ _ h => h, rfl, rfl⟩
  trans h h' := ⟨fun i x hx => h.1 i x (h'.1 i x hx), h'.2.1.trans h.2.1, h'.2.2.trans h.2.2⟩

theorem noNew_same {c c' : Ctx} (h : c'.peer = c.peer) (h1 : c'.prov = c.prov) (h2 : c'.config = c.config) : NoNew c c' := ⟨fun i x hx => by rw [h] at hx; exact hx, h1, h2⟩
theorem nn_kept {sid : Option UInt32} {α : Type} {x : M Status Ctx α} (h : M.Rel (Kept sid) x) : M.Rel NoNew x :=
  h.mono fun _ _ h => ⟨fun i x hx => by rw [h.chain] at hx; exact hx, h.prov, h.config⟩
theorem nn_frame {sid : Option UInt32} {α : Type} {x : M Status Ctx α} (h : M.Rel (Frame true sid) x) : M.Rel NoNew x := nn_kept (rel_of_frame h)
theorem nn_onSession {α : Type} (i : UInt32) (missing : M Status Ctx α) (x : M Status Session α) (hm : M.Rel NoNew missing) : M.Rel NoNew (Ctx.onSession i missing x) := by
  intro c
  unfold Ctx.onSession
  simp only [M.wp_bind, M.wp_get]
  split
  · exact hm c
  · split
    · exact noNew_same rfl rfl rfl
    · exact noNew_same rfl rfl rfl
    · trivial
theorem nn_reset (k : ReqRespCode) (sid : Option UInt32) : M.Rel NoNew (M.modify (Ctx.resetBuffers k sid) : M Status Ctx Unit) := nn_frame (Ctx.rel_resetBuffers (k := true) _)
theorem nn_modify {f : Ctx → Ctx} (h : ∀ c, (f c).peer = c.peer ∧ (f c).prov = c.prov ∧ (f c).config = c.config) : M.Rel NoNew (M.modify f : M Status Ctx Unit) :=
  .modify fun c => noNew_same (h c).1 (h c).2.1 (h c).2.2

theorem nn_appendA (b : Bytes) : M.Rel NoNew (Ctx.appendA b) := by
  intro c
  have h1 := (Ctx.rel_appendA (sid := none) b c)
  unfold Ctx.appendA
  rw [M.wp_bind, M.wp_get]
  split
  · exact noNew_same rfl rfl rfl
  · exact M.Pre.refl (R := NoNew) c

theorem nn_connect : M.Rel NoNew (initConnection e) := by
  refine .bind ?_ fun _ => .bind ?_ fun _ => ?_
  · unfold getVersion
    refine .bind (nn_reset _ _) fun _ => .bind (nn_frame (sid := none) (encodeAs_rel _ _ _)) fun req => .bind (nn_frame (sid := none) (rel_transact _)) fun rsp => ?_
    unfold handleVersion
    refine .bind (nn_kept (rel_expectAny _ _)) fun r => .bind (nn_frame (sid := none) (rel_readMsg _ _ _)) fun p => ?_
    obtain ⟨m, b⟩ := p
    exact .bind (nn_modify fun _ => ⟨rfl, rfl, rfl⟩) fun _ => .bind .get fun c => .ite (fun _ => .fail _) fun _ => .bind (nn_modify fun _ => ⟨rfl, rfl, rfl⟩) fun _ => .bind (nn_appendA _) fun _ => nn_appendA _
  · unfold getCapabilities
    refine .bind (nn_reset _ _) fun _ => .bind .get fun c => .bind (nn_frame (sid := none) (rel_encodeReq _ _)) fun req => .bind (nn_frame (sid := none) (rel_transact _)) fun rsp => ?_
    unfold handleCapabilities
    refine .bind (nn_kept (rel_expect _ _)) fun r => .bind (nn_frame (sid := none) (rel_readMsg _ _ _)) fun p => ?_
    obtain ⟨m, b⟩ := p
    exact .bind (nn_modify fun _ => ⟨rfl, rfl, rfl⟩) fun _ => .bind (nn_appendA _) fun _ => nn_appendA _
  · unfold negotiateAlgorithms
    refine .bind (nn_reset _ _) fun _ => .bind .get fun c => .bind (nn_frame (sid := none) (rel_encodeReq _ _)) fun req => .bind (nn_frame (sid := none) (rel_transact _)) fun rsp => ?_
    unfold handleAlgorithms
    refine .bind (nn_kept (rel_expect _ _)) fun r => .bind (nn_frame (sid := none) (rel_readMsg _ _ _)) fun p => ?_
    obtain ⟨m, b⟩ := p
    intro c
    rw [M.wp_bind, M.wp_get, M.wp_bind, M.wp_set]
    have h1 : NoNew c { c with neg := (takeAlgs m c.neg).1 } := noNew_same rfl rfl rfl
    have h2 : M.Rel NoNew (if (takeAlgs m c.neg).2 = false then M.fail .negotiationFail else do Ctx.appendA req; Ctx.appendA b : M Status Ctx Unit) :=
      .ite (fun _ => .fail _) fun _ => .bind (nn_appendA _) fun _ => nn_appendA _
    exact (h2 _).mono (fun _ _ h => M.Pre.trans h1 h) (fun _ _ h => M.Pre.trans h1 h)

theorem nn_keyExchange (slot : UInt8) (t : SummaryHashType) : M.Rel NoNew (Req.keyExchange e slot t) := by
  unfold Req.keyExchange
  refine .ite (fun _ => .fail _) fun _ => .bind .get fun _ => .bind (.lift _) fun _ => .bind (nn_reset _ _) fun _ => .bind (.ofOption _ _) fun _ => .bind (.ofOption _ _) fun p => ?_
  obtain ⟨exchange, final⟩ := p
  refine .bind (.ofOption _ _) fun _ => .bind (nn_frame (rel_encodeReq (sid := none) _ _)) fun _ => .bind (nn_frame (rel_transact (sid := none) _)) fun _ => ?_
  unfold handleKeyExchange
  refine .bind (nn_modify fun _ => ⟨rfl, rfl, rfl⟩) fun _ => .bind (nn_kept (rel_expect _ _)) fun _ => .bind (nn_frame (rel_readMsg (sid := none) _ _ _)) fun p => ?_
  obtain ⟨m, b⟩ := p
  exact .bind .get fun _ => .bind (.ofOption _ _) fun _ => .bind (.lift _) fun _ => .bind (.unwrap _) fun _ => .bind (.ofOption _ _) fun _ =>
    .bind (nn_onSession _ _ _ (.fail _)) fun _ => nn_kept (kept_keyExchangeBody _ _ _ _ _ _)

theorem nn_pskExchange (t : SummaryHashType) (hint : Bytes) : M.Rel NoNew (Req.pskExchange e t hint) := by
  unfold Req.pskExchange
  refine .bind (nn_reset _ _) fun _ => .bind .get fun _ => .bind (.lift _) fun _ => .bind (.ofOption _ _) fun _ => .bind (.ofOption _ _) fun _ => .bind (.unwrap _) fun _ =>
    .bind (nn_frame (rel_encodeReq (sid := none) _ _)) fun _ => .bind (nn_frame (rel_transact (sid := none) _)) fun _ => ?_
  unfold handlePskExchange
  refine .bind (nn_modify fun _ => ⟨rfl, rfl, rfl⟩) fun _ => .bind (nn_kept (rel_expect _ _)) fun _ => .bind (nn_frame (rel_readMsg (sid := none) _ _ _)) fun p => ?_
  obtain ⟨m, b⟩ := p
  exact .bind .get fun _ => .bind (.lift _) fun _ => .bind (nn_onSession _ _ _ (.fail _)) fun _ => nn_kept (kept_pskExchangeBody _ _ _ _ _)

theorem nn_vendor (sid : Option UInt32) (m : Vendor) : M.Rel NoNew (vendorRequest e sid m) := by
  unfold vendorRequest
  refine .bind (nn_reset _ _) fun _ => .bind (.modify fun c => ?_) fun _ => .bind (nn_frame (rel_encodeReq (sid := sid) _ _)) fun _ => .bind (nn_frame (rel_transact _)) fun _ => ?_
  · exact ⟨fun i x hx => (by cases hx), rfl, rfl⟩
  · unfold handleVendor
    refine .bind (nn_kept (rel_expect _ _)) fun _ => .bind (nn_frame (rel_readMsg (sid := sid) _ _ _)) fun p => ?_
    obtain ⟨m, _⟩ := p
    exact .pure _

/-- only a successful GET_CERTIFICATE stores a chain. -/
theorem nn_op {op : Op} {c c' : Ctx} (h : Left (op.run e) c c') : NoNew c c' ∨ ∃ fuel sid slot, op = .certificate fuel sid slot ∧ getCertificate e fuel sid slot c = .ok () c' := by
  cases op with
  | certificate fuel sid slot =>
    rcases h with h | ⟨st, h⟩
    · exact .inr ⟨fuel, sid, slot, rfl, h⟩
    · have := getCertificate_err h
      exact .inl ⟨fun i x hx => by rw [this.chain] at hx; exact hx, this.prov, this.config⟩
  | connect => exact .inl (h.rel nn_connect)
  | digests sid => exact .inl (h.rel (nn_kept kept_getDigests))
  | challenge slot t => exact .inl (h.rel (nn_kept (kept_challenge _ _)))
  | measurements sid slot attr op => exact .inl (h.rel (rt_quiet (nn_kept (kept_getMeasurements _ _ _))))
  | keyExchange slot t => exact .inl (h.rel (rt_quiet (nn_keyExchange _ _)))
  | pskExchange t hint => exact .inl (h.rel (rt_quiet (nn_pskExchange _ _)))
  | finish slot sid => exact .inl (h.rel (nn_kept (kept_finish _ _)))
  | pskFinish sid => exact .inl (h.rel (nn_kept (kept_pskFinish _)))
  | heartbeat sid => exact .inl (h.rel (nn_kept (kept_heartbeat _)))
  | keyUpdate sid op => exact .inl (h.rel (nn_kept (kept_keyUpdate _ _)))
  | endSession sid => exact .inl (h.rel (nn_kept (kept_endSession _)))
  | vendor sid m => exact .inl (h.rel (rt_quiet (nn_vendor _ _)))
  | sendApp sid data => exact .inl (h.rel (nn_frame (rel_sendSecured _ _ _)))
  | receiveApp sid => exact .inl (h.rel (rt_quiet (nn_frame (rel_receiveSecured _))))

/-- When reading a certificate chain succeeds, the chain stored in the slot is the concatenation of the portions received, asked for one
after the other, its length field, path, root digest and (if provisioned) root certificate were checked, and no other slot changed. -/
theorem C31_stored {fuel : Nat} {sid : Option UInt32} {slot : UInt8} {c c' : Ctx} (h : getCertificate e fuel sid slot c = .ok () c') :
    ∃ l : List (Bytes × Bytes), Heard e sid c l c' ∧ Portions c.neg.version.get slot 0 l ∧ ChainValid e c (chainOf l) ∧
      (∀ i : Fin 8, i.val = slot.toNat → c'.peer.chain i = some (chainOf l)) ∧ (∀ i : Fin 8, i.val ≠ slot.toNat → c'.peer.chain i = c.peer.chain i) := by
  obtain ⟨i, l, h1, h2, h3, h4, h5, -⟩ := getCertificate_ok h
  refine ⟨l, h2, h3, h4, fun j hj => ?_, fun j hj => ?_⟩
  · rw [h5]; exact if_pos (Fin.ext (hj.trans h1.symm))
  · rw [h5]; exact if_neg fun hh => hj (by rw [hh]; exact h1)

/-- When it fails, no slot changed. -/
theorem C31_failure_keeps {fuel : Nat} {sid : Option UInt32} {slot : UInt8} {c c' : Ctx} {st : Status} (h : getCertificate e fuel sid slot c = .err st c') :
    c'.peer.chain = c.peer.chain := (getCertificate_err h).chain

/-- In every history, a stored chain was read by an earlier successful GET_CERTIFICATE for its slot, and checked then. -/
theorem C31_every_stored_chain {n : Nat} {cfg : Config} {prov : Provision} {h : List (REnv × Op)} {c : Ctx} (hr : Runs (Ctx.new cfg prov n) h c)
    {i : Fin 8} {chain : Bytes} (hc : c.peer.chain i = some chain) :
    ∃ h1 e fuel sid slot h2 c1 c2 l, h = h1 ++ (e, .certificate fuel sid slot) :: h2 ∧ Runs (Ctx.new cfg prov n) h1 c1 ∧ getCertificate e fuel sid slot c1 = .ok () c2 ∧
      Runs c2 h2 c ∧ i.val = slot.toNat ∧ Heard e sid c1 l c2 ∧ chain = chainOf l ∧ ChainValid e c1 chain := by
  have main : ∀ {c0 c : Ctx} {h : List (REnv × Op)}, Runs c0 h c → c.peer.chain i = some chain → c0.peer.chain i = some chain ∨
      ∃ h1 e fuel sid slot h2 c1 c2 l, h = h1 ++ (e, .certificate fuel sid slot) :: h2 ∧ Runs c0 h1 c1 ∧ getCertificate e fuel sid slot c1 = .ok () c2 ∧
      Runs c2 h2 c ∧ i.val = slot.toNat ∧ Heard e sid c1 l c2 ∧ chain = chainOf l ∧ ChainValid e c1 chain := by
    intro c0 c h hr
    induction hr with
    | nil => exact fun h => .inl h
    | @cons c c1 c' e op h hl hr ih =>
      intro hc
      rcases ih hc with h1 | ⟨h1, e', fuel, sid, slot, h2, d1, d2, l, rfl, g2, g3⟩
      · rcases nn_op hl with h2 | ⟨fuel, sid, slot, rfl, h2⟩
        · exact .inl (h2.1 i chain h1)
        · obtain ⟨l, k1, k2, k3, k4, k5⟩ := C31_stored h2
          by_cases hi : i.val = slot.toNat
          · have hch : chainOf l = chain := Option.some.inj ((k4 i hi).symm.trans h1)
            exact .inr ⟨[], e, fuel, sid, slot, h, c, c1, l, rfl, .nil, h2, hr, hi, k1, hch.symm, by rw [← hch]; exact k3⟩
          · rw [k5 i hi] at h1
            exact .inl h1
      · exact .inr ⟨(e, op) :: h1, e', fuel, sid, slot, h2, d1, d2, l, rfl, .cons hl g2, g3⟩
  rcases main hr hc with h | h
  · cases h
  · exact h

/-- it happens: the toy requester stores a chain of 44 bytes. -/
example : ((toyReq [.connect, .certificate 20 none 0]).peer.chain 0).map List.length = some 44 := by decide +kernel
example : Runs Toy.req0 ([.connect, .certificate 20 none 0].map (Toy.renv, ·)) (toyReq [.connect, .certificate 20 none 0]) :=
  toyReq_runs _ (by decide +kernel)

/-! ### The past of a connection -/

/-- `c1` is where `c0` gets by connecting (to `c`) and then doing `h`, and `ts` are the transcripts of what was said, heard and given up since. -/
def Past (e0 : REnv) (c0 c : Ctx) (h : List (REnv × Op)) (c1 : Ctx) (ts : Spec.Transcripts) : Prop :=
  ∃ q1 r1 q2 r2 q3 r3 events, Connects e0 c0 (q1, r1) (q2, r2) (q3, r3) c ∧ q1.getD 1 0 = 0x84 ∧ q2.getD 1 0 = 0xE1 ∧ q3.getD 1 0 = 0xE3 ∧ Story c h events c1 ∧
    ts = Spec.Transcripts.tell { a := q1 ++ r1 ++ q2 ++ r2 ++ q3 ++ r3 } events

/-- message A is the negotiation. -/
theorem Past.a {e0 : REnv} {c0 c c1 : Ctx} {h : List (REnv × Op)} {ts : Spec.Transcripts} (hp : Past e0 c0 c h c1 ts) :
    ∃ q1 r1 q2 r2 q3 r3, Connects e0 c0 (q1, r1) (q2, r2) (q3, r3) c ∧ q1.getD 1 0 = 0x84 ∧ q2.getD 1 0 = 0xE1 ∧ q3.getD 1 0 = 0xE3 ∧ ts.a = q1 ++ r1 ++ q2 ++ r2 ++ q3 ++ r3 := by
  obtain ⟨q1, r1, q2, r2, q3, r3, evs, h1, h2, h3, h4, h5, rfl⟩ := hp
  exact ⟨q1, r1, q2, r2, q3, r3, h1, h2, h3, h4, h5.a _⟩

theorem past_of {n : Nat} {e0 : REnv} {c0 c c1 : Ctx} {h : List (REnv × Op)} (hn : n < 0xFFFD) (h0 : Req.Reachable n c0) (hc : initConnection e0 c0 = .ok () c)
    (hr : Runs c h c1) (hh : ∀ x ∈ h, x.2.restart = false) : ∃ ts, Past e0 c0 c h c1 ts ∧ Follows ts c1 ∧ c1.sessions.length = n ∧ ReqTable 0 c1.sessions := by
  obtain ⟨q1, r1, q2, r2, q3, r3, g1, g2, g3, g4, g5⟩ := connect_out hc
  have ht := h0.table hn
  have hk := Left.rel (x := Op.connect.run e0) (rt_op (e := e0) .connect) (Or.inl hc)
  have ht1 : c.sessions.length = n ∧ ReqTable 0 c.sessions := ⟨hk.1.trans ht.1, hk.2 (by rw [ht.1]; exact hn) ht.2⟩
  obtain ⟨evs, k1, k2⟩ := story hn ht1 hr hh
  exact ⟨_, ⟨q1, r1, q2, r2, q3, r3, evs, g1, g2, g3, g4, k1, rfl⟩, k2 _ g5, hr.table.1.trans ht1.1, hr.table.2 (by rw [ht1.1]; exact hn) ht1.2⟩

/-! ### C34: CHALLENGE -/

/-- `send_receive_spdm_challenge` succeeded: the signature in CHALLENGE_AUTH verified under the certificates stored for the slot, over the hash of
the transcript since the connection began followed by CHALLENGE and the rest of CHALLENGE_AUTH; and the transcripts are cleared. -/
theorem C34_authentic {n : Nat} {e0 e : REnv} {c0 c c1 c2 : Ctx} {h : List (REnv × Op)} {slot : UInt8} {t : SummaryHashType} (hn : n < 0xFFFD) (h0 : Req.Reachable n c0)
    (hc : initConnection e0 c0 = .ok () c) (hr : Runs c h c1) (hh : ∀ x ∈ h, x.2.restart = false) (hx : Req.challenge e slot t c1 = .ok () c2) :
    ∃ ts, Past e0 c0 c h c1 ts ∧ ∃ nonce pre sig rest d certs cx, let req := c1.neg.version.get :: 0x83 :: slot :: t.get :: nonce; let body := c1.neg.version.get :: 0x03 :: pre
      Ctx.random e.toEnv 32 = some nonce ∧ Said e none c1 req (body ++ sig ++ rest) cx ∧ Took c1.neg (body ++ sig ++ rest) (body ++ sig) ∧ BaseAsym.size? c1.neg.baseAsym = some sig.length ∧
      e.crypto.hash c1.neg.baseHash (ts.m1m2 ++ req ++ body) = some d ∧ CertsOf c1 slot certs ∧
      e.verify c1.neg.baseHash c1.neg.baseAsym certs (Spec.signedData .challengeAuth d) sig = true ∧ c2.rt.m1m2 = none ∧ c2.rt.l1l2 = none := by
  obtain ⟨ts, hp, hf, -⟩ := past_of hn h0 hc hr hh
  obtain ⟨-, nonce, pkt, bytes, rest, pre, sig, x, d, certs, req, g1, rfl, g3, rfl, g5, g6, rfl, g8, g9, -, g11, rfl⟩ := challenge_ok hx
  refine ⟨ts, hp, nonce, pre, sig, rest, d, certs, Rsp.withSent pkt c1, g1, ?_, ?_, g6, ?_, g9, g11, rfl, rfl⟩
  · simpa using g3
  · simpa using g5
  · have hb := hf.b
    have : m1m2Of c1 = ⟨c1.neg.baseHash, ts.m1m2⟩ := by
      unfold m1m2Of Spec.Transcripts.m1m2
      rw [hb, hf.a]
      cases ts.b <;> rfl
    rw [this] at g8
    exact g8

/-- the part of `challenge` before the signature is checked. -/
def challengeStart (e : REnv) (slot : UInt8) (t : SummaryHashType) : M Status Ctx Bytes :=
  if slot ≥ 8 then M.fail .invalidParameter else
  M.modify (Ctx.resetBuffers .reqChallenge none) >>= fun _ => M.ofOption .cryptoError (Ctx.random e.toEnv 32) >>= fun nonce =>
  encodeReq .reqChallenge (.challenge ⟨slot, t, nonce⟩) >>= fun req => transact e none req >>= fun bytes =>
  M.modify (wantSummary t) >>= fun _ => expect (some 0) .rspChallengeAuth bytes >>= fun r => Rsp.readMsg ChallengeAuth.read bytes r >>= fun p =>
  M.get >>= fun c => M.unwrap c.cc.asymSize? >>= fun asym => (Rsp.dropTail asym p.2).lift >>= fun body => Ctx.appendC e.toEnv req >>= fun _ => Ctx.appendC e.toEnv body >>= fun _ => pure p.1.signature

theorem bind_assoc_M {α β γ : Type} (x : M Status Ctx α) (f : α → M Status Ctx β) (g : β → M Status Ctx γ) : (x >>= f) >>= g = x >>= fun a => f a >>= g := by
  funext c
  simp only [M.bind_apply]
  cases x c <;> rfl
theorem fail_bind {α β : Type} (st : Status) (f : α → M Status Ctx β) : (M.fail st : M Status Ctx α) >>= f = M.fail st := rfl
theorem pure_bind' {α β : Type} (a : α) (f : α → M Status Ctx β) : (pure a : M Status Ctx α) >>= f = f a := rfl

theorem challenge_eq (e : REnv) (slot : UInt8) (t : SummaryHashType) : Req.challenge e slot t = challengeStart e slot t >>= challengeCheck e slot := by
  unfold Req.challenge challengeStart handleChallengeAuth
  split
  · rfl
  · simp only [bind_assoc_M, pure_bind']

theorem challengeStart_verify (e : REnv) (v : BaseHash → BaseAsym → Bytes → Bytes → Bytes → Bool) (slot : UInt8) (t : SummaryHashType) :
    challengeStart { e with verify := v } slot t = challengeStart e slot t := rfl

/-- A CHALLENGE_AUTH that would be accepted but for its signature is refused, and the transcripts are cleared as if it had been accepted. -/
theorem C34_forged {e : REnv} {c c1 c2 : Ctx} {slot : UInt8} {t : SummaryHashType} {st : Status}
    (hx : Req.challenge { e with verify := fun _ _ _ _ _ => true } slot t c = .ok () c1) (hy : Req.challenge e slot t c = .err st c2) :
    st = .verifFail ∧ c2 = c1 ∧ c2.rt.m1m2 = none ∧ c2.rt.l1l2 = none := by
  have h3 : c1.rt.m1m2 = none ∧ c1.rt.l1l2 = none := by
    obtain ⟨-, nonce, pkt, bytes, rest, pre, sig, x, d, certs, req, g1, rfl, g3, rfl, g5, g6, rfl, g8, g9, -, g11, rfl⟩ := challenge_ok hx
    exact ⟨rfl, rfl⟩
  rw [challenge_eq, M.bind_apply] at hx hy
  rw [challengeStart_verify] at hx
  cases hs : challengeStart e slot t c with
  | panic => rw [hs] at hx; cases hx
  | err s' c' => rw [hs] at hx; cases hx
  | ok sig cx =>
    rw [hs] at hx hy
    dsimp only at hx hy
    obtain ⟨g1, -⟩ := challengeCheck_ok hx
    have : st = .verifFail ∧ c2 = Ctx.resetM1M2 cx := by
      simp only [challengeCheck, M.bind_apply, M.get_apply] at hy
      cases hv : challengeVerify e slot sig cx with
      | panic => simp [hv] at hy
      | ok u => simp [hv, M.modify_apply] at hy
      | err st' =>
        simp only [hv, M.bind_apply, M.modify_apply, M.fail_apply] at hy
        cases hy
        exact ⟨rfl, rfl⟩
    have h2 : c2 = c1 := this.2.trans g1.symm
    exact ⟨this.1, h2, by rw [h2]; exact h3.1, by rw [h2]; exact h3.2⟩

/-- the toy requester authenticates the toy responder. -/
def toyAuth : List Op := [.connect, .digests none, .certificate 20 none 0]

theorem toy_reached : Req.Reachable 2 Toy.req0 := ⟨Toy.reqCfg, {}, [], .nil⟩

/-- the hypotheses of `C34_authentic` are met, with a transcript of the whole authentication. -/
example : ∃ c c1 c2, initConnection Toy.renv Toy.req0 = .ok () c ∧ Runs c ([(Toy.renv, .digests none), (Toy.renv, .certificate 20 none 0)]) c1 ∧ Req.challenge Toy.renv 0 .none c1 = .ok () c2 := by
  obtain ⟨c, h1, g1⟩ := toyStep (e := Toy.renv) (c := Toy.req0) (op := .connect) (l := [.digests none, .certificate 20 none 0, .challenge 0 .none]) (o := [none, none, none]) (by decide +kernel)
  obtain ⟨c1, h2, g2⟩ := toyStep g1
  obtain ⟨c2, h3, g3⟩ := toyStep g2
  obtain ⟨c3, h4, -⟩ := toyStep g3
  exact ⟨c, c2, c3, h1, .cons (.inl h2) (.cons (.inl h3) .nil), h4⟩

/-- a peer whose CHALLENGE_AUTH is altered by `f`, heard by a requester with any signature check. -/
def alteredEnv (f : Bytes → Bytes) : REnv := { Toy.menv with
  verify := fun _ _ _ _ _ => true
  recv := fun l => (Toy.answer Toy.menv Toy.rsp0 l).map fun p => if p.getD 2 0 = 0x03 then f p else p }

/-- the bytes of the last answer, in the clear. -/
def lastHeard (e : REnv) (c : Ctx) : Option Bytes := (e.recv c.sent).bind fun p => match Ctx.decap e.toEnv p 4096 with | .ok b => some b | _ => none

theorem lastHeard_some {e : REnv} {c : Ctx} {b : Bytes} (h : lastHeard e c = some b) : ∃ p, e.recv c.sent = some p ∧ PlainIn e p b := by
  obtain ⟨p, h1, h2⟩ := Option.bind_eq_some_iff.1 h
  refine ⟨p, h1, ?_⟩
  cases hd : Ctx.decap e.toEnv p 4096 with
  | ok b' => rw [hd] at h2; cases h2; exact hd
  | err st => rw [hd] at h2; cases h2
  | panic => rw [hd] at h2; cases h2

/-- the last of several operations that all succeed. -/
theorem toyLast {e : REnv} {c c' : Ctx} {l : List Op} {op : Op} {o : List (Option Status)} (h : Toy.runOps e c (l ++ [op]) = some (o ++ [none], c')) (hl : o.length = l.length) :
    ∃ c1, Toy.runOps e c l = some (o, c1) ∧ op.run e c1 = .ok () c' := by
  induction l generalizing c o with
  | nil =>
    cases o with
    | cons a o => cases hl
    | nil =>
      refine ⟨c, rfl, ?_⟩
      change Toy.runOps e c (op :: []) = some ([none], c') at h
      unfold Toy.runOps at h
      cases hx : op.run e c with
      | panic => rw [hx] at h; cases h
      | ok u c1 => rw [hx] at h; cases h; rfl
      | err st c1 => rw [hx] at h; cases h
  | cons op1 l ih =>
    cases o with
    | nil => cases hl
    | cons a o =>
      change Toy.runOps e c (op1 :: (l ++ [op])) = some (a :: (o ++ [none]), c') at h
      unfold Toy.runOps at h
      cases hx : op1.run e c with
      | panic => rw [hx] at h; cases h
      | ok u c1 =>
        rw [hx] at h
        obtain ⟨⟨o1, c2⟩, h1, h2⟩ := Option.map_eq_some_iff.1 h
        cases h2
        obtain ⟨c3, h3, h4⟩ := ih h1 (Nat.succ.inj hl)
        refine ⟨c3, ?_, h4⟩
        unfold Toy.runOps
        rw [hx]; dsimp only; rw [h3]; rfl
      | err st c1 =>
        rw [hx] at h
        obtain ⟨⟨o1, c2⟩, h1, h2⟩ := Option.map_eq_some_iff.1 h
        cases h2
        obtain ⟨c3, h3, h4⟩ := ih h1 (Nat.succ.inj hl)
        refine ⟨c3, ?_, h4⟩
        unfold Toy.runOps
        rw [hx]; dsimp only; rw [h3]; rfl

/-- The slot in CHALLENGE_AUTH is not compared with the slot asked for: an answer that names slot 5 is accepted as one for slot 0. -/
theorem C34_slot_violated : ∃ (e : REnv) (c c2 : Ctx) (rsp : Bytes), Req.challenge e 0 .none c = .ok () c2 ∧ (∃ p, e.recv c2.sent = some p ∧ PlainIn e p rsp) ∧ rsp.take 3 = [0x12, 0x03, 5] := by
  have hd : ((Toy.runOps (alteredEnv fun p => p.set 3 5) Toy.req0 (toyAuth ++ [.challenge 0 .none])).map fun x =>
      (x.1, (lastHeard (alteredEnv fun p => p.set 3 5) x.2).map (·.take 3))) = some ([none, none, none] ++ [none], some [0x12, 0x03, 5]) := by decide +kernel
  obtain ⟨⟨o, c2⟩, h1, h2⟩ := Option.map_eq_some_iff.1 hd
  obtain ⟨h3, h4⟩ := Prod.mk.inj h2
  dsimp only at h3 h4
  subst h3
  obtain ⟨c, -, h5⟩ := toyLast h1 rfl
  obtain ⟨rsp, h6, h7⟩ := Option.map_eq_some_iff.1 h4
  exact ⟨_, c, c2, rsp, h5, lastHeard_some h6, h7⟩

/-! ### C35: measurements -/

/-- Signed measurements were returned: the signature verified under the certificates stored for the slot, over the hash of the measurement
requests and responses since the last signature (after the negotiation), ending with this request and the response up to the signature;
what is returned is read from that response, and the transcript starts anew. -/
theorem C35_authentic {n : Nat} {e0 e : REnv} {c0 c c1 c2 : Ctx} {h : List (REnv × Op)} {slot attr : UInt8} {op : MeasOperation} {out : UInt8 × MeasRecord} (hn : n < 0xFFFD)
    (h0 : Req.Reachable n c0) (hc : initConnection e0 c0 = .ok () c) (hr : Runs c h c1) (hh : ∀ x ∈ h, x.2.restart = false) (hs : attr &&& 1 = 1)
    (hx : getMeasurements e none slot attr op c1 = .ok out c2) :
    ∃ ts, Past e0 c0 c h c1 ts ∧ ∃ nonce p1 p2 m rest d certs cx, let req := measRequest c1 slot attr op nonce; let body := measHeardBody c1.neg.version.get p1 p2 m
      Ctx.random e.toEnv 32 = some nonce ∧ Said e none (Ctx.resetBuffers .reqGetMeasurements none c1) req (body ++ m.signature ++ rest) cx ∧ Took c1.neg (body ++ m.signature ++ rest) (body ++ m.signature) ∧
      BaseAsym.size? c1.neg.baseAsym = some m.signature.length ∧ e.crypto.hash c1.neg.baseHash (ts.l1l2 c1.neg.version.get ++ req ++ body) = some d ∧ CertsOf c1 slot certs ∧
      e.verify c1.neg.baseHash c1.neg.baseAsym certs (Spec.signedData .measurements d) m.signature = true ∧
      out = (if op = .queryTotalNumber then m.number else m.record.blocks, m.record) ∧ c2.rt.l1l2 = none := by
  obtain ⟨ts, hp, hf, -⟩ := past_of hn h0 hc hr hh
  obtain ⟨-, nonce, bytes, rest, cx, p1, p2, m, g1, g2, rfl, g4, g5, g6⟩ := getMeasurements_ok hx
  have hsr : signatureRequested attr = true := by unfold signatureRequested; rw [hs]; rfl
  dsimp only at g6
  rw [if_pos hsr] at g6
  obtain ⟨d, certs, k1, k2, k3, k4, k5, k6⟩ := g6
  refine ⟨ts, hp, nonce, p1, p2, m, rest, d, certs, cx, g1, g2, g4, k1, ?_, k3, k5, g5, by rw [k6]; rfl⟩
  have hcx : cx.rt = (Ctx.resetBuffers .reqGetMeasurements none c1).rt ∧ cx.neg = c1.neg := by
    obtain ⟨pkt, p, -, -, -, rfl⟩ := g2
    rw [Rsp.resetMeas_fields]
    exact ⟨rfl, rfl⟩
  have : l1l2Start cx none = ⟨c1.neg.baseHash, ts.l1l2 c1.neg.version.get⟩ := by
    unfold l1l2Start Spec.Transcripts.l1l2
    have h1 : Rsp.l1l2? cx none = c1.rt.l1l2 := by
      show cx.rt.l1l2 = _
      rw [hcx.1, Rsp.resetMeas_fields]
    have h2 : cx.rt.messageA = ts.a := by rw [hcx.1, Rsp.resetMeas_fields]; exact hf.a
    have h3 := ge12_version c1
    rw [h1, hf.m, h2, hcx.2]
    have h4 : cx.cc.ge12 = true := by
      have : cx.cc.ge12 = c1.cc.ge12 := by simp [Cc.ge12, Cc.ver, Ctx.cc, hcx.2]
      rw [this]; exact k4
    rw [h4, if_pos rfl, if_pos (h3 ▸ k4)]
    cases ts.m <;> rfl
  rw [this] at k2
  exact k2

theorem bump_l1l2 (s : Session) (b : Bool) : (s.bump b).l1l2 = s.l1l2 := by
  unfold Session.bump
  split <;> rfl

theorem resetM_in {i : UInt32} {c : Ctx} {s' : Session} (h : (Ctx.resetM (some i) c).session? i = some s') : s'.l1l2 = none := by
  cases hs : c.session? i with
  | none =>
    have : (Ctx.resetM (some i) c).session? i = none := by
      unfold Ctx.resetM Ctx.updSession
      unfold Ctx.session? at hs ⊢
      rw [List.find?_eq_none] at hs
      show (Ctx.updFirst _ _ c.sessions).find? _ = none
      have hq : ∀ l : List Session, (∀ x ∈ l, ¬ decide (x.id = i) = true) → Ctx.updFirst (·.id = i) (fun s => { s with l1l2 := none }) l = l := by
        intro l hl
        induction l with
        | nil => rfl
        | cons a l ih =>
          unfold Ctx.updFirst
          rw [if_neg (by exact hl a List.mem_cons_self), ih fun x hx => hl x (List.mem_cons_of_mem _ hx)]
      rw [hq _ hs]
      exact List.find?_eq_none.2 hs
    rw [this] at h; cases h
  | some s =>
    have : (Ctx.resetM (some i) c).session? i = some { s with l1l2 := none } := Rsp.session?_upd (f := fun s => { s with l1l2 := none }) hs (show s.id = i from Rsp.session?_id hs)
    rw [this] at h; cases h; rfl

/-- In a session the signature covers what the session has of the measurement transcript (or the negotiation if it has none), request and response
(`C35_in_session` says what that transcript is). -/
theorem measurements_in_session {e : REnv} {c1 c2 : Ctx} {i : UInt32} {slot attr : UInt8} {op : MeasOperation} {out : UInt8 × MeasRecord} (hs : attr &&& 1 = 1)
    (hx : getMeasurements e (some i) slot attr op c1 = .ok out c2) :
    ∃ s nonce p1 p2 m rest d certs cx, let req := measRequest c1 slot attr op nonce; let body := measHeardBody c1.neg.version.get p1 p2 m
      c1.session? i = some s ∧ Ctx.random e.toEnv 32 = some nonce ∧ Said e (some i) (Ctx.resetBuffers .reqGetMeasurements (some i) c1) req (body ++ m.signature ++ rest) cx ∧
      Took c1.neg (body ++ m.signature ++ rest) (body ++ m.signature) ∧ BaseAsym.size? c1.neg.baseAsym = some m.signature.length ∧
      (let x := s.l1l2.getD ⟨c1.neg.baseHash, c1.rt.messageA⟩; e.crypto.hash x.algo (x.data ++ req ++ body) = some d) ∧ c1.cc.ge12 = true ∧ CertsOf c1 slot certs ∧
      e.verify c1.neg.baseHash c1.neg.baseAsym certs (Spec.signedData .measurements d) m.signature = true ∧
      out = (if op = .queryTotalNumber then m.number else m.record.blocks, m.record) ∧ ∀ s', c2.session? i = some s' → s'.l1l2 = none := by
  obtain ⟨-, nonce, bytes, rest, cx, p1, p2, m, g1, g2, rfl, g4, g5, g6⟩ := getMeasurements_ok hx
  have hsr : signatureRequested attr = true := by unfold signatureRequested; rw [hs]; rfl
  dsimp only at g6
  rw [if_pos hsr] at g6
  obtain ⟨d, certs, k1, k2, k3, k4, k5, k6⟩ := g6
  have g2' := g2
  obtain ⟨pkt, p, -, s, hs0, -, -, -, rfl⟩ := g2'
  have hs1 : c1.session? i = some s := by rw [Rsp.resetMeas_fields] at hs0; exact hs0
  refine ⟨s, nonce, p1, p2, m, rest, d, certs, _, hs1, g1, g2, g4, k1, ?_, ?_, k3, k5, g5, ?_⟩
  · have h1 : l1l2Start (Rsp.withSent pkt ((Ctx.resetBuffers .reqGetMeasurements (some i) c1).updSession i fun _ => (s.bump true).bump false)) (some i) = s.l1l2.getD ⟨c1.neg.baseHash, c1.rt.messageA⟩ := by
      rw [Rsp.resetMeas_fields]
      have hq : ∀ cy : Ctx, cy.session? i = c1.session? i → cy.neg = c1.neg → cy.rt.messageA = c1.rt.messageA → l1l2Start (Rsp.withSent pkt (cy.updSession i fun _ => (s.bump true).bump false)) (some i) = s.l1l2.getD ⟨c1.neg.baseHash, c1.rt.messageA⟩ := by
        intro cy hy1 hy2 hy3
        have hy4 : (cy.updSession i fun _ => (s.bump true).bump false).session? i = some ((s.bump true).bump false) :=
          Rsp.session?_const (hy1.trans hs1) (by rw [Session.bump_id, Session.bump_id]; exact Rsp.session?_id hs1)
        have hy5 : Rsp.l1l2? (Rsp.withSent pkt (cy.updSession i fun _ => (s.bump true).bump false)) (some i) = s.l1l2 := by
          show ((cy.updSession i fun _ => (s.bump true).bump false).session? i).bind (·.l1l2) = _
          rw [hy4]
          show ((s.bump true).bump false).l1l2 = _
          rw [bump_l1l2, bump_l1l2]
        unfold l1l2Start
        rw [hy5]
        have hy6 : (Rsp.withSent pkt (cy.updSession i fun _ => (s.bump true).bump false)).cc.ge12 = c1.cc.ge12 := by
          simp [Cc.ge12, Cc.ver, Ctx.cc, Rsp.withSent, Ctx.updSession, hy2]
        rw [hy6, k4, if_pos rfl]
        show s.l1l2.getD ⟨cy.neg.baseHash, cy.rt.messageA⟩ = _
        rw [hy2, hy3]
      exact hq _ rfl rfl rfl
    rw [h1] at k2
    exact k2
  · exact k4
  · intro s' hs'
    rw [k6] at hs'
    exact resetM_in hs'

/-- the part of `getMeasurements` before the signature is checked. -/
def measurementsStart (op : MeasOperation) (e : REnv) (sid : Option UInt32) (slot attr : UInt8) : M Status Ctx Meas :=
  if slot ≥ 8 then M.fail .invalidParameter else
  M.modify (Ctx.resetBuffers .reqGetMeasurements sid) >>= fun _ => M.ofOption .cryptoError (Ctx.random e.toEnv 32) >>= fun nonce =>
  encodeReq .reqGetMeasurements (.getMeas ⟨attr, op, nonce, slot⟩) >>= fun req => transact e sid req >>= fun bytes =>
  M.modify (fun c => { c with rt := { c.rt with needSig := signatureRequested attr } }) >>= fun _ => expect sid .rspMeasurements bytes >>= fun r => Rsp.readMsg Meas.read bytes r >>= fun p =>
  M.modify (noteChanged p.1) >>= fun _ => M.get >>= fun c => M.unwrap c.cc.asymSize? >>= fun asym => (measurementBody (signatureRequested attr) asym p.2).lift >>= fun body =>
  Ctx.appendM e.toEnv sid req >>= fun _ => Ctx.appendM e.toEnv sid body >>= fun _ => pure p.1

theorem measurements_eq (e : REnv) (sid : Option UInt32) (slot attr : UInt8) (op : MeasOperation) : getMeasurements e sid slot attr op =
    measurementsStart op e sid slot attr >>= fun m => measurementCheckIf e (signatureRequested attr) sid slot m.signature >>= fun _ => pure (measurementResult op m) := by
  unfold getMeasurements measurementsStart handleMeasurements
  split
  · rfl
  · simp only [bind_assoc_M, pure_bind']

theorem measurementsStart_verify (e : REnv) (v : BaseHash → BaseAsym → Bytes → Bytes → Bytes → Bool) (sid : Option UInt32) (slot attr : UInt8) (op : MeasOperation) :
    measurementsStart op { e with verify := v } sid slot attr = measurementsStart op e sid slot attr := rfl

/-- Signed measurements that would be returned but for their signature are not, and the measurement transcript starts anew as if they had been. -/
theorem C35_forged {e : REnv} {c c1 c2 : Ctx} {sid : Option UInt32} {slot attr : UInt8} {op : MeasOperation} {out : UInt8 × MeasRecord} {st : Status} (hs : attr &&& 1 = 1)
    (hx : getMeasurements { e with verify := fun _ _ _ _ _ => true } sid slot attr op c = .ok out c1) (hy : getMeasurements e sid slot attr op c = .err st c2) :
    st = .verifFail ∧ c2 = c1 := by
  have hsr : signatureRequested attr = true := by unfold signatureRequested; rw [hs]; rfl
  rw [measurements_eq, hsr, M.bind_apply] at hx hy
  rw [measurementsStart_verify] at hx
  cases hs : measurementsStart op e sid slot attr c with
  | panic => rw [hs] at hx; cases hx
  | err s' c' => rw [hs] at hx; cases hx
  | ok m cx =>
    rw [hs] at hx hy
    dsimp only at hx hy
    obtain ⟨_, cy, g1, g2⟩ := M.bind_ok.1 hx
    obtain ⟨-, rfl⟩ := M.pure_ok.1 g2
    obtain ⟨g3, -⟩ := measurementCheck_ok g1
    simp only [measurementCheckIf, if_true, measurementCheck, M.bind_apply, M.get_apply] at hy
    cases hv : measurementVerify e sid slot m.signature cx with
    | panic => simp [hv] at hy
    | ok u => simp [hv, M.modify_apply] at hy
    | err st' =>
      simp only [hv, M.bind_apply, M.modify_apply, M.fail_apply] at hy
      cases hy
      exact ⟨rfl, g3.symm⟩

/-- the hypotheses of `C35_authentic` are met, with a transcript of two measurement requests. -/
example : ∃ c c1 c2 out, initConnection Toy.renv Toy.req0 = .ok () c ∧ Runs c ([(Toy.renv, .certificate 20 none 0), (Toy.renv, .measurements none 0 0 .requestAll)]) c1 ∧
    getMeasurements Toy.renv none 0 1 .requestAll c1 = .ok out c2 := by
  obtain ⟨c, h1, g1⟩ := toyStep (e := Toy.renv) (c := Toy.req0) (op := .connect) (l := [.certificate 20 none 0, .measurements none 0 0 .requestAll, .measurements none 0 1 .requestAll]) (o := [none, none, none]) (by decide +kernel)
  obtain ⟨c1, h2, g2⟩ := toyStep g1
  obtain ⟨c2, h3, g3⟩ := toyStep g2
  obtain ⟨c3, h4, -⟩ := toyStep g3
  obtain ⟨out, h5⟩ := quiet_ok h4
  exact ⟨c, c2, c3, out, h1, .cons (.inl h2) (.cons (.inl h3) .nil), h5⟩

/-- the toy peer, heard by a requester that accepts no signature. -/
def suspicious : REnv := { Toy.renv with verify := fun _ _ _ _ _ => false }

/-- the hypotheses of `C34_forged` and `C35_forged` are met. -/
example : (match Req.challenge { suspicious with verify := fun _ _ _ _ _ => true } 0 .none (toyReq toyAuth), Req.challenge suspicious 0 .none (toyReq toyAuth) with
    | .ok _ _, .err st _ => some st | _, _ => none) = some .verifFail := by decide +kernel
example : (match getMeasurements { suspicious with verify := fun _ _ _ _ _ => true } none 0 1 .requestAll (toyReq toyAuth), getMeasurements suspicious none 0 1 .requestAll (toyReq toyAuth) with
    | .ok _ _, .err st _ => some st | _, _ => none) = some .verifFail := by decide +kernel

end Verif.Props
