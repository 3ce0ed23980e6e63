/-
What can be selected: after any history of packets, once negotiation has finished each category holds one algorithm of the library or none.
-/
import Verif.Responder.Placed
import Verif.Props.Negotiation

namespace Verif
namespace Props
open Rsp
variable {e : Env}

/-- in each category a session needs: nothing selected, or one of the algorithms the library implements. -/
structure OneOrNone (n : Neg) : Prop where
  hash : n.baseHash = 0 ∨ n.baseHash ∈ [BaseHash.sha256, BaseHash.sha384, BaseHash.sha512]
  asym : n.baseAsym = 0 ∨ n.baseAsym ∈ [BaseAsym.rsassa2048, BaseAsym.rsapss2048, BaseAsym.rsassa3072, BaseAsym.rsapss3072, BaseAsym.rsassa4096, BaseAsym.rsapss4096,
    BaseAsym.ecdsaP256, BaseAsym.ecdsaP384]
  dhe : n.dhe = 0 ∨ n.dhe ∈ [Dhe.p256, Dhe.p384]
  aead : n.aead = 0 ∨ n.aead ∈ [Aead.aes128, Aead.aes256, Aead.chacha]

theorem chooses_in {α : Type} [AndOp α] [OfNat α 0] {l m : List α} {a b r : α} (h : Chooses l a b r) (hl : ∀ x ∈ l, x ∈ m) : r = 0 ∨ r ∈ m := by
  rcases h with ⟨x, y, h, _⟩ | ⟨h, _⟩
  · exact .inr (hl r (by rw [h]; simp))
  · exact .inl h

theorem Selected.oneOrNone {cfg : Config} {m : NegAlgs} {n n' : Neg} (h : Selected cfg m n n') : OneOrNone n' :=
  ⟨chooses_in h.hash (by decide), chooses_in h.asym (by decide), chooses_in h.dhe (by decide), chooses_in h.aead (by decide)⟩

theorem OneOrNone.of {n n' : Neg} (h : OneOrNone n) (h1 : n'.baseHash = n.baseHash) (h2 : n'.baseAsym = n.baseAsym) (h3 : n'.dhe = n.dhe) (h4 : n'.aead = n.aead) : OneOrNone n' := by
  obtain ⟨g1, g2, g3, g4⟩ := h
  exact ⟨by rw [h1]; exact g1, by rw [h2]; exact g2, by rw [h3]; exact g3, by rw [h4]; exact g4⟩

/-- GET_VERSION ends the negotiation or leaves it alone. -/
theorem version_neg (c : Ctx) (v : UInt8) (t : Bytes) :
    (handleVersion e (v :: 0x84 :: t)).wp c (fun _ c' => Spec.ready c'.rt.state = false ∨ (c'.neg = c.neg ∧ c'.rt.state = c.rt.state))
      (fun _ c' => Spec.ready c'.rt.state = false ∨ (c'.neg = c.neg ∧ c'.rt.state = c.rt.state)) := by
  by_cases hv : v = 0x10 ∧ 2 ≤ t.length
  · obtain ⟨rfl, ht⟩ := hv
    match t, ht with
    | p1 :: p2 :: t, _ =>
      rw [M.wp, handleVersion_ok]
      refine (sendPlain_version_wp (e := e) _ c.config).mono ?_ ?_
      · rintro _ c' ⟨pkt, rfl⟩
        exact .inl rfl
      · rintro _ c' h
        obtain ⟨g1, g2, g3, g4, g5, g6, g7⟩ := h.rel
        exact .inl (by rw [g3]; rfl)
  · obtain ⟨code, c1, hf, hx⟩ := versionRsp_bad v t c hv
    unfold handleVersion
    rw [M.wp_bind]
    have : reply (versionRsp (v :: 0x84 :: t)) c = .ok (errorBytes c1.neg.version code 0) c1 := by
      simp only [reply, hx, writeError_nil c1 { code := code } rfl]
    rw [M.wp, this]
    refine (sendMessage_error_any (starts_error _ _ _) c1).mono ?_ ?_ <;>
      (rintro _ c' hse
       obtain ⟨g1, g2, g3, g4, g5, g6, g7⟩ := Sent.rel hse
       exact .inr ⟨g5.trans (hf.neg rfl), by rw [g3]; exact hf.state⟩)

/-- NEGOTIATE_ALGORITHMS that fails leaves the connection state alone. -/
theorem algorithm_err (c : Ctx) (bytes : Bytes) : (handleAlgorithm e bytes).wp c (fun _ _ => True) (fun _ c' => c'.rt.state = c.rt.state) := by
  unfold handleAlgorithm
  rw [M.wp_bind]
  refine ((rel_reply (rel_algorithmRsp (e := e) bytes) c).and (reply_wp (codes_algorithmRsp bytes) c)).mono ?_ fun _ _ h => h.2.elim
  rintro b c1 ⟨hf, hb⟩
  have key : ∀ {k : UInt8}, Starts k b → k ≠ 0x65 → (sendMessage e b).wp c1 (fun _ _ => True) (fun _ c' => c'.rt.state = c.rt.state) := fun hs hk =>
    (sendMessage_wp hs hk c1).mono (fun _ _ _ => trivial) fun _ c' h => by
      rcases h with h | ⟨pkt, _, h⟩ <;> rw [h]
      · exact hf.state
      · exact hf.state
  rcases hb with hb | ⟨code, data, hb⟩
  · exact key hb (by decide)
  · exact key (by rw [hb]; exact starts_error _ _ _) (by decide)

/-- one packet. -/
theorem chosen_step (hl : HashLaw e) {rx : Bytes} {c c' : Ctx} (h : Spec.ready c.rt.state = true → OneOrNone c.neg) (ha : After e rx c c')
    (hr : Spec.ready c'.rt.state = true) : OneOrNone c'.neg := by
  have hs : Step e rx c c' := ha.wp (process_step hl rx c)
  cases hs with
  | ignored h1 => rw [h1] at hr ⊢; exact h hr
  | secured sid _ _ h2 => rw [h2.state] at hr; rw [h2.neg]; exact h hr
  | plain v k t h1 h2 =>
    by_cases hv : k = 0x84
    · obtain rfl := hv
      have := ha.rel h1 (P := fun c' => Spec.ready c'.rt.state = false ∨ (c'.neg = c.neg ∧ c'.rt.state = c.rt.state)) (by
        rw [M.wp, dispatch_cons]
        exact version_neg c v t)
      rcases this with g | ⟨g1, g2⟩
      · rw [g] at hr; cases hr
      · rw [g2] at hr; rw [g1]; exact h hr
    by_cases hk : Spec.tooEarly k c.rt.state = true
    · have : c' = c ∨ ∃ pkt, c' = { c with sent := c.sent ++ [pkt] } := by
        refine ha.rel h1 (P := fun c' => c' = c ∨ ∃ pkt, c' = { c with sent := c.sent ++ [pkt] }) ?_
        unfold M.wp
        cases hx : dispatch e (v :: k :: t) c with
        | panic => trivial
        | ok a t1 => exact C24_too_early_effect c t1 v k t hk (.inl hx)
        | err a t1 => exact C24_too_early_effect c t1 v k t hk (.inr ⟨a, hx⟩)
      rcases this with g | ⟨pkt, g⟩ <;> rw [g] at hr ⊢ <;> exact h hr
    by_cases h1k : k = 0xE1
    · exfalso
      have hm := h2.conn
      have : c.rt.state = .afterVersion := by rw [h1k] at hk; simpa [Spec.tooEarly] using hk
      rw [this] at hm
      generalize c'.rt.state = st' at *
      rw [h1k] at hm
      cases hm with
      | stay => cases hr
      | version => cases hr
      | versionUnsent => cases hr
      | capabilities => cases hr
      | digests _ g => cases g
      | certificate _ g => cases g
      | challenge _ g => cases g
    by_cases h3k : k = 0xE3
    · obtain rfl := h3k
      have hst : c.rt.state = .afterCapabilities := by simpa [Spec.tooEarly] using hk
      have hne : c'.rt.state ≠ c.rt.state := fun g => by rw [g, hst] at hr; cases hr
      rcases ha with ⟨b, ha⟩ | ⟨u, ha⟩
      · cases b with
        | true =>
          obtain ⟨b, _, ⟨_, g⟩ | ⟨m, r', _, _, _, _, g, _⟩⟩ := C47_algorithms c c' rx v t h1 ha
          · exact absurd g hne
          · exact g.oneOrNone
        | false =>
          refine absurd ?_ hne
          rw [process_plain rx h1 c] at ha
          unfold isOk at ha
          rw [dispatch_cons] at ha
          cases hx : dispatchCode e (ReqRespCode.ofCode 0xE3) (v :: 0xE3 :: t) c with
          | panic => rw [hx] at ha; cases ha
          | ok a t1 => rw [hx] at ha; cases ha
          | err a t1 =>
            rw [hx] at ha
            cases ha
            exact (algorithm_err c (v :: 0xE3 :: t)).err hx
      · rw [process_plain rx h1 c] at ha
        unfold isOk at ha
        cases hx : dispatch e (v :: 0xE3 :: t) c with
        | panic => rw [hx] at ha; cases ha
        | ok a t1 => rw [hx] at ha; cases ha
        | err a t1 => rw [hx] at ha; cases ha
    obtain ⟨p, hneg⟩ := (h2.keep hv h1k h3k).neg
    refine (h ?_).of (by rw [hneg]) (by rw [hneg]) (by rw [hneg]) (by rw [hneg])
    have hm := h2.conn
    generalize c.rt.state = st at *
    generalize c'.rt.state = st' at *
    cases hm with
    | stay => exact hr
    | version _ g => exact absurd g hv
    | versionUnsent _ g => exact absurd g hv
    | capabilities g => exact absurd g h1k
    | algorithms g => exact absurd g h3k
    | digests _ _ g => exact g
    | certificate _ _ g => exact g
    | challenge _ _ g => exact g

theorem Run.chosen {c0 c : Ctx} {h : List (Env × Bytes)} (h0 : Spec.ready c0.rt.state = false) (hr : Run c0 h c) (hl : ∀ p ∈ h, HashLaw p.1) :
    Spec.ready c.rt.state = true → OneOrNone c.neg := by
  induction hr with
  | nil => intro g; rw [h0] at g; cases g
  | ok hr hp ih => exact chosen_step (hl _ (List.mem_append_right _ (List.mem_singleton.2 rfl))) (ih fun p hp => hl p (by simp [hp])) (.inl ⟨_, hp⟩)
  | err hr hp ih => exact chosen_step (hl _ (List.mem_append_right _ (List.mem_singleton.2 rfl))) (ih fun p hp => hl p (by simp [hp])) (.inr ⟨_, hp⟩)

/-- After every history of packets, whatever the peer sent: once the negotiation is done, each family holds exactly one implemented algorithm or
none at all — never a mask of several, never an unknown bit. -/
theorem C47_history {n : Nat} {c : Ctx} (h : Reachable n c) (hr : Spec.ready c.rt.state = true) : OneOrNone c.neg := by
  obtain ⟨cfg, prov, l, h1, h2⟩ := h
  exact Run.chosen rfl h1 h2 hr

/-- The hypotheses are met, with one algorithm in each family. -/
theorem C47_history_case : ∃ c, Reachable 2 c ∧ Spec.ready c.rt.state = true ∧ c.neg.baseHash ≠ 0 ∧ c.neg.baseAsym ≠ 0 ∧ c.neg.dhe ≠ 0 ∧ c.neg.aead ≠ 0 :=
  ⟨toyRun [Toy.version, Toy.capabilities, Toy.algorithms], toyRun_reachable _ (by decide +kernel), by decide +kernel, by decide +kernel, by decide +kernel,
    by decide +kernel, by decide +kernel⟩

end Props
end Verif
