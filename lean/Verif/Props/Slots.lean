/-
C29: session slots and failed handshakes.
-/
import Verif.Responder.Slots
import Verif.Props.Finish

namespace Verif.Props
open Verif.Rsp

variable {e : Env}

theorem updFirst_get {p : Session → Bool} {f : Session → Session} (l : List Session) (i : Nat) (s : Session) (h : l[i]? = some s) :
    (Ctx.updFirst p f l)[i]? = some s ∨ (p s = true ∧ (Ctx.updFirst p f l)[i]? = some (f s)) := by
  induction l generalizing i with
  | nil => simp at h
  | cons a l ih =>
    unfold Ctx.updFirst
    split
    · rename_i hp
      cases i with
      | zero => simp at h; subst h; exact .inr ⟨hp, by simp⟩
      | succ i => simp at h ⊢; exact .inl h
    · cases i with
      | zero => simp at h ⊢; exact .inl h
      | succ i => simp at h ⊢; exact ih i h

/-- the plain message `k` in packet `rx` was handled by `x` followed by sending the answer. -/
theorem plain_exchange {x : M Status Ctx Bytes} {v k : UInt8} {t rx : Bytes} {c c' : Ctx} {r : UInt8}
    (hp : Plain e rx (v :: k :: t)) (hd : dispatchCode e (ReqRespCode.ofCode k) (v :: k :: t) = (do let b ← x; sendMessage e b))
    (hpost : Post (Starts r) x) (hr65 : r ≠ 0x65)
    (hr : (∃ b, processMessage e rx c = .ok b c') ∨ processMessage e rx c = .err () c') :
    (∃ b c1, x c = .ok b c1 ∧ c'.sessions = c1.sessions) ∨ ∃ st, x c = .err st c' := by
  rw [process_plain rx hp] at hr
  unfold isOk at hr
  rw [dispatch_cons, hd, M.bind_apply] at hr
  cases hx : x c with
  | panic => rw [hx] at hr; rcases hr with ⟨b, hr⟩ | hr <;> cases hr
  | err st c1 => rw [hx] at hr; rcases hr with ⟨b, hr⟩ | hr <;> cases hr; exact .inr ⟨st, rfl⟩
  | ok b c1 =>
    rw [hx] at hr
    dsimp only at hr
    refine .inl ⟨b, c1, rfl, ?_⟩
    have hs := sendMessage_any (e := e) ((hpost c).ok hx) hr65 c1
    split at hr <;> rename_i hy
    · rcases hr with ⟨b, hr⟩ | hr <;> cases hr
      rcases hs.ok hy with h | ⟨pkt, rfl⟩
      · exact h.rel.2.2.2.1
      · rfl
    · rcases hr with ⟨b, hr⟩ | hr <;> cases hr
      exact (hs.err hy).rel.2.2.2.1
    · rcases hr with ⟨b, hr⟩ | hr <;> cases hr

/-- the session created, when it is: `x` ran on the free session `s0`. -/
theorem opened_of {x : M Status Session Unit} {y : M Status Ctx Bytes} {c c1 c' : Ctx} {b : Bytes} (hss : c1.sessions = c.sessions)
    (hx : ∀ s, s.id = 0 → x.wp s (fun _ _ => True) (fun _ s' => s'.Erased))
    (hr : ((do Ctx.onSession 0 (M.fail .invalidStateLocal) x; y) c1 = .ok b c') ∨ ∃ st, (do Ctx.onSession 0 (M.fail .invalidStateLocal) x; y) c1 = .err st c')
    (i : Nat) (s s' : Session) (hi : c.sessions[i]? = some s) (hi' : c'.sessions[i]? = some s') (hfree : s.id = 0) (htaken : s'.id ≠ 0) :
    ∃ s0 s1, c.session? 0 = some s0 ∧ x s0 = .ok () s1 := by
  have hne : c'.sessions ≠ c.sessions := by
    intro h
    rw [h, hi] at hi'; cases hi'
    exact htaken hfree
  have h0 : c1.session? 0 = c.session? 0 := by unfold Ctx.session?; rw [hss]
  simp only [M.bind_apply, Ctx.onSession, M.get_apply, h0] at hr
  cases hs0 : c.session? 0 with
  | none =>
    simp only [hs0, M.fail_apply] at hr
    rcases hr with hr | ⟨st, hr⟩ <;> cases hr
    exact absurd hss hne
  | some s0 =>
    have hw := hx s0 (session?_id hs0)
    cases hxs : x s0 with
    | ok u s1 => exact ⟨s0, s1, rfl, hxs⟩
    | panic => simp only [hs0, hxs, M.panic_apply] at hr; rcases hr with hr | ⟨st, hr⟩ <;> cases hr
    | err st s1 =>
      exfalso
      simp only [hs0, hxs, M.bind_apply, M.set_apply, M.fail_apply] at hr
      rcases hr with hr | ⟨st, hr⟩ <;> cases hr
      obtain ⟨sl, her⟩ := hw.err hxs
      simp only [Ctx.updSession, hss] at hi'
      rcases updFirst_get (p := (·.id = 0)) (f := fun _ => s1) _ i s hi with h | ⟨_, h⟩ <;> rw [h] at hi' <;> cases hi'
      · exact htaken hfree
      · rw [her] at htaken; exact htaken rfl

/-- A KEY_EXCHANGE that is malformed, of another version, for a certificate slot that is not provisioned, with opaque data that
is refused, with a public key for which there is no shared secret, or for which no secrets can be derived, takes no session slot:
a slot is taken only after all of this was found in order.
Missing from the full property: a failure after that point (no random numbers, no signature, no answer written) leaves the slot
taken (`C29_random_violated`, `C29_signature_violated`). -/
theorem C29_key_exchange_partial (c c' : Ctx) (rx : Bytes) (v : UInt8) (t : Bytes) (hp : Plain e rx (v :: 0xE4 :: t))
    (hr : (∃ b, processMessage e rx c = .ok b c') ∨ processMessage e rx c = .err () c')
    (i : Nat) (s s' : Session) (hi : c.sessions[i]? = some s) (hi' : c'.sessions[i]? = some s') (hfree : s.id = 0) (htaken : s'.id ≠ 0) :
    ∃ m req sum opaq certHash exchange final rspId s0 s1, KeyExchangeValid e c (v :: 0xE4 :: t) m req sum opaq certHash exchange final rspId ∧
      c.session? 0 = some s0 ∧ openDhe e (exchangeCtx c m) (joinId rspId m.reqSession) m.slot certHash final s0 = .ok () s1 := by
  have hx := plain_exchange (x := keyExchangeRsp e (v :: 0xE4 :: t)) (r := 0x64) hp rfl (post_keyExchangeRsp _) (by decide) hr
  have hne : c'.sessions ≠ c.sessions := by
    intro h
    rw [h, hi] at hi'; cases hi'
    exact htaken hfree
  rcases keyExchange_prefix (e := e) (v :: 0xE4 :: t) c with ⟨st, c1, h1, h2⟩ | h1 | ⟨m, req, sum, opaq, certHash, exchange, final, rspId, hv, h1⟩
  · rw [h1] at hx
    rcases hx with ⟨b, c2, h, _⟩ | ⟨st, h⟩ <;> cases h
    exact absurd h2 hne
  · rw [h1] at hx
    rcases hx with ⟨b, c2, h, _⟩ | ⟨st, h⟩ <;> cases h
  · rw [h1] at hx
    have hss : (exchangeCtx c m).sessions = c.sessions := (reset_fields .reqKeyExchange c).2.2.2.1
    have hop : ∀ s, s.id = 0 → (openDhe e (exchangeCtx c m) (joinId rspId m.reqSession) m.slot certHash final).wp s (fun _ _ => True) (fun _ s' => s'.Erased) :=
      fun s h => (openDhe_wp _ _ _ _ _ s h).mono (fun _ _ _ => trivial) fun _ _ h => h
    obtain ⟨s0, s1, g1, g2⟩ : ∃ s0 s1, c.session? 0 = some s0 ∧ openDhe e (exchangeCtx c m) (joinId rspId m.reqSession) m.slot certHash final s0 = .ok () s1 := by
      rcases hx with ⟨b, c2, hx, h3⟩ | ⟨st, hx⟩
      · exact opened_of hss hop (.inl hx) i s s' hi (by rw [← h3]; exact hi') hfree htaken
      · exact opened_of (b := []) hss hop (.inr ⟨st, hx⟩) i s s' hi hi' hfree htaken
    exact ⟨m, req, sum, opaq, certHash, exchange, final, rspId, s0, s1, hv, g1, g2⟩

/-- The same for PSK_EXCHANGE. -/
theorem C29_psk_exchange_partial (c c' : Ctx) (rx : Bytes) (v : UInt8) (t : Bytes) (hp : Plain e rx (v :: 0xE6 :: t))
    (hr : (∃ b, processMessage e rx c = .ok b c') ∨ processMessage e rx c = .err () c')
    (i : Nat) (s s' : Session) (hi : c.sessions[i]? = some s) (hi' : c'.sessions[i]? = some s') (hfree : s.id = 0) (htaken : s'.id ≠ 0) :
    ∃ m req sum opaq context rspId s0, PskExchangeValid e c (v :: 0xE6 :: t) m req sum opaq context rspId ∧ c.session? 0 = some s0 := by
  have hx := plain_exchange (x := pskExchangeRsp e (v :: 0xE6 :: t)) (r := 0x66) hp rfl (post_pskExchangeRsp _) (by decide) hr
  have hne : c'.sessions ≠ c.sessions := by
    intro h
    rw [h, hi] at hi'; cases hi'
    exact htaken hfree
  rcases pskExchange_prefix (e := e) (v :: 0xE6 :: t) c with ⟨st, c1, h1, h2⟩ | h1 | ⟨m, req, sum, opaq, context, rspId, hv, h1⟩
  · rw [h1] at hx
    rcases hx with ⟨b, c2, h, _⟩ | ⟨st, h⟩ <;> cases h
    exact absurd h2 hne
  · rw [h1] at hx
    rcases hx with ⟨b, c2, h, _⟩ | ⟨st, h⟩ <;> cases h
  · rw [h1] at hx
    have hss : (pskCtx c m).sessions = c.sessions := (reset_fields .reqPskExchange c).2.2.2.1
    have hop : ∀ s, s.id = 0 → (openPsk e (pskCtx c m) (joinId rspId m.reqSession) m.hint).wp s (fun _ _ => True) (fun _ s' => s'.Erased) :=
      fun s h => (openPsk_wp _ _ _ s h).mono (fun _ _ _ => trivial) fun _ _ h => h
    obtain ⟨s0, s1, g1, g2⟩ : ∃ s0 s1, c.session? 0 = some s0 ∧ openPsk e (pskCtx c m) (joinId rspId m.reqSession) m.hint s0 = .ok () s1 := by
      rcases hx with ⟨b, c2, hx, h3⟩ | ⟨st, hx⟩
      · exact opened_of hss hop (.inl hx) i s s' hi (by rw [← h3]; exact hi') hfree htaken
      · exact opened_of (b := []) hss hop (.inr ⟨st, hx⟩) i s s' hi hi' hfree htaken
    exact ⟨m, req, sum, opaq, context, rspId, s0, hv, g1⟩

/-- the environment without a working random number generator. -/
def noRandom : Env := { Toy.env with random := fun _ => none }
/-- the environment whose signing key fails. -/
def noSign : Env := { Toy.env with sign := fun _ _ _ => none }

/-- ids and phases of the sessions and the number of packets sent, after the packets `l`. -/
def tableAfter (e : Env) (c : Ctx) (l : List Bytes) : Option (List (UInt32 × SessState) × Nat) :=
  (Toy.runAll e c l).map fun c => (c.sessions.map fun s => (s.id, s.state), c.sent.length)

/-- KEY_EXCHANGE for an unprovisioned certificate slot takes no slot; a good one takes slot 0. -/
example : tableAfter Toy.env Toy.negotiated [[5, 0x12, 0xE4, 0, 3] ++ Toy.keyExchange.drop 5] = some ([(0, .notStarted), (0, .notStarted)], 3) := by decide +kernel
example : tableAfter Toy.env Toy.negotiated [Toy.keyExchange] = some ([(0xFFFD0007, .handshaking), (0, .notStarted)], 4) := by decide +kernel

/-- The full property fails: a KEY_EXCHANGE that could not be completed because there was no random number keeps its slot, no
answer is sent, and after two of them (with two slots) a good KEY_EXCHANGE is refused. -/
theorem C29_random_violated : ∃ c, Reachable 2 c ∧
    tableAfter noRandom c [Toy.keyExchange, Toy.keyExchangeFor 9] = some ([(0xFFFD0007, .notStarted), (0xFFFC0009, .notStarted)], c.sent.length) ∧
    ((Toy.runAll noRandom c [Toy.keyExchange, Toy.keyExchangeFor 9]).bind fun c1 => tableAfter Toy.env c1 [Toy.keyExchange]) =
      some ([(0xFFFD0007, .notStarted), (0xFFFC0009, .notStarted)], c.sent.length) :=
  ⟨toyRun [Toy.version, Toy.capabilities, Toy.algorithms], toyRun_reachable _ (by decide +kernel), by decide +kernel, by decide +kernel⟩

/-- The same when signing fails. -/
theorem C29_signature_violated : ∃ c, Reachable 2 c ∧
    tableAfter noSign c [Toy.keyExchange, Toy.keyExchangeFor 9] = some ([(0xFFFD0007, .notStarted), (0xFFFC0009, .notStarted)], c.sent.length) :=
  ⟨toyRun [Toy.version, Toy.capabilities, Toy.algorithms], toyRun_reachable _ (by decide +kernel), by decide +kernel⟩

/-- GET_CAPABILITIES, version 1.1 -/
def capabilities11 : Bytes := [5, 0x11, 0xE1, 0, 0, 0, 20, 0, 0, 0xC6, 0x77, 0, 0]
/-- NEGOTIATE_ALGORITHMS, version 1.1 -/
def algorithms11 : Bytes := [5, 0x11] ++ Toy.algorithms.drop 2

/-- In the default build, on an SPDM 1.1 connection every KEY_EXCHANGE fails (there is no signature for hashed transcripts) and
so loses a slot, with nothing wrong in the environment. -/
theorem C29_v11_violated : ∃ c, Reachable 2 c ∧ c.neg.version = .v11 ∧
    tableAfter Toy.env c [[5, 0x11] ++ Toy.keyExchange.drop 2, [5, 0x11] ++ (Toy.keyExchangeFor 9).drop 2] =
      some ([(0xFFFD0007, .notStarted), (0xFFFC0009, .notStarted)], c.sent.length) :=
  ⟨toyRun [Toy.version, capabilities11, algorithms11], toyRun_reachable _ (by decide +kernel), by decide +kernel, by decide +kernel⟩

/-- The slot of a session whose FINISH does not verify is kept too; the requester may try again. -/
theorem C29_failed_finish_violated : ∃ (c : Ctx) (rx : Bytes), Reachable 2 c ∧
    phaseAfter Toy.env c rx = some (.handshaking, .handshaking) ∧ rx = Toy.sealIn 0 c ([8, 0x12, 0xE5, 0, 0] ++ List.replicate 32 0) :=
  ⟨toyRun [Toy.version, Toy.capabilities, Toy.algorithms, Toy.keyExchange], _, toyRun_reachable _ (by decide +kernel), by decide +kernel, rfl⟩

end Verif.Props
