/-
Sessions in use only exist after negotiation and have the algorithms negotiated; histories in which no packet makes the responder panic.
-/
import Verif.Responder.SoundAll
import Verif.Responder.Roomy

namespace Verif
open M Res
namespace Rsp
open Session
variable {e : Env} {lim : Nat}

/-- every session in use belongs to the negotiation in force. -/
def Placed (c : Ctx) : Prop := ∀ s ∈ c.sessions, s.id ≠ 0 → Spec.ready c.rt.state = true ∧ Fit c.neg s

theorem Fit.of {n n' : Neg} {s : Session} (h : Fit n s) (h1 : n'.baseHash = n.baseHash) (h2 : n'.aead = n.aead) : Fit n' s :=
  ⟨h.alone, h.hash.trans h1.symm, h.aead.trans h2.symm, h.hint⟩

/-- parameters with the algorithms of `n0`. -/
def As (n0 n : Neg) : Prop := n.baseHash = n0.baseHash ∧ n.aead = n0.aead
/-- a free slot, or a session with the algorithms of `n0`. -/
def FreeOr (n0 : Neg) (s : Session) : Prop := s.id = 0 ∨ Fit n0 s

instance (n0 : Neg) : Tied (As n0) (FreeOr n0) where
  policy _ _ h := h
  free _ := .inl rfl
  keep s s' h1 h2 h3 h := by
    rcases h with h | h
    · exact .inl (h1.trans h)
    · have g1 : s'.mutAuth = s.mutAuth := congrArg (·.1) h3
      have g2 : s'.hash = s.hash := congrArg (·.2.1) h3
      have g3 : s'.aead = s.aead := congrArg (·.2.2.1) h3
      have g4 : s'.pskHint = s.pskHint := congrArg (·.2.2.2) h3
      exact .inr ⟨g1.trans h.alone, g2.trans h.hash, g3.trans h.aead, fun hp => by rw [g4]; exact h.hint (h2 ▸ hp)⟩

theorem opening_fits (hm : e.asksMutual = false) (n0 : Neg) : Opening e (As n0) (FreeOr n0) where
  dhe n s hn hp hs := by
    have g1 : s.mutAuth = e.mutAuth := congrArg (·.1) hs
    have g2 : s.hash = n.baseHash := congrArg (·.2.1) hs
    have g3 : s.aead = n.aead := congrArg (·.2.2.1) hs
    refine .inr ⟨g1.trans (by unfold Env.mutAuth; rw [hm]; rfl), g2.trans hn.1, g3.trans hn.2, fun h => ?_⟩
    rw [hp] at h
    cases h
  psk n s hint hn hp hs := by
    have g1 : s.mutAuth = 0 := congrArg (·.1) hs
    have g2 : s.hash = n.baseHash := congrArg (·.2.1) hs
    have g3 : s.aead = n.aead := congrArg (·.2.2.1) hs
    have g4 : s.pskHint = some hint := congrArg (·.2.2.2) hs
    exact .inr ⟨g1, g2.trans hn.1, g3.trans hn.2, fun _ => by rw [g4]; rfl⟩

theorem All2.mem {α β : Type} {R : α → β → Prop} {l : List α} {m : List β} (h : All2 R l m) {b : β} (hb : b ∈ m) : ∃ a ∈ l, R a b := by
  induction h with
  | nil => cases hb
  | cons hr _ ih =>
    rcases List.mem_cons.1 hb with rfl | hb
    · exact ⟨_, List.mem_cons_self, hr⟩
    · obtain ⟨a, ha, hr⟩ := ih hb
      exact ⟨a, List.mem_cons_of_mem _ ha, hr⟩

/-- `c'` is the state after packet `rx`. -/
def After (e : Env) (rx : Bytes) (c c' : Ctx) : Prop := (∃ b, processMessage e rx c = .ok b c') ∨ ∃ u, processMessage e rx c = .err u c'

theorem After.wp {rx : Bytes} {c c' : Ctx} (h : After e rx c c') {P : Ctx → Prop} (hw : (processMessage e rx).wp c (fun _ => P) (fun _ => P)) : P c' := by
  rcases h with ⟨b, h⟩ | ⟨u, h⟩
  · exact hw.ok h
  · exact hw.err h

theorem After.rel {rx : Bytes} {c c' : Ctx} {b : Bytes} (h : After e rx c c') (hp : Plain e rx b) {P : Ctx → Prop} (hw : (dispatch e b).wp c (fun _ => P) (fun _ => P)) : P c' := by
  refine h.wp ?_
  unfold M.wp at hw ⊢
  rw [process_plain rx hp c]
  unfold isOk
  cases hx : dispatch e b c with
  | panic => trivial
  | ok a t => rw [hx] at hw; exact hw
  | err a t => rw [hx] at hw; exact hw

theorem tie_secured {N : Neg → Prop} {D : Session → Prop} [Tied N D] {rx pkt : Bytes} (hrec : received e rx = some (pkt, true)) (c : Ctx) :
    (processMessage e rx).wp c (fun _ => Tie N D c) (fun _ => Tie N D c) := by
  have hd : Ctx.intoBuf2 (e.tr.decap rx) 4160 = .ok (pkt, true) := by
    unfold received at hrec
    split at hrec
    · rename_i p hp; cases hrec; exact hp
    · simp at hrec
  have hx : processMessage e rx c = (do
      let (sid, msg, isApp) ← openSecured e pkt
      if isApp then isOk (dispatchApp e sid msg) else isOk (dispatchSecured e sid msg)) c := by
    unfold processMessage
    simp [hd, Res.lift, M.mapErr]
  unfold M.wp
  rw [hx]
  exact (M.Rel.bind (R := Tie N D) (tie_openSecured pkt) fun ⟨sid, msg, isApp⟩ => M.Rel.ite (fun _ => rel_isOk (tie_dispatchApp _ _)) fun _ => rel_isOk (tie_dispatchSecured _ _)) c

theorem Placed.free {c : Ctx} (h : Placed c) : ∀ s ∈ c.sessions, FreeOr c.neg s := fun s hs => by
  by_cases h0 : s.id = 0
  · exact .inl h0
  · exact .inr (h s hs h0).2

/-- collecting the parts. -/
theorem Placed.step {c c' : Ctx} (h : Placed c) (ht : Tie (As c.neg) (FreeOr c.neg) c c')
    (hr : ∀ s' ∈ c'.sessions, s'.id ≠ 0 → Spec.ready c'.rt.state = true) : Placed c' := by
  obtain ⟨hn, hf⟩ := ht ⟨rfl, rfl⟩
  intro s' hs' h0
  refine ⟨hr s' hs' h0, ?_⟩
  rcases hf h.free s' hs' with h1 | h1
  · exact absurd h1 h0
  · exact h1.of hn.1 hn.2

theorem Placed.same {c c' : Ctx} (h : Placed c) (h1 : c'.sessions = c.sessions) (h2 : c'.rt.state = c.rt.state) (h3 : c'.neg = c.neg) : Placed c' := by
  intro s hs h0
  rw [h1] at hs
  rw [h2, h3]
  exact h s hs h0

theorem Placed.idle {c : Ctx} (h : Placed c) (hr : Spec.ready c.rt.state = false) : ∀ s ∈ c.sessions, s.id = 0 := fun s hs => by
  by_cases h0 : s.id = 0
  · exact h0
  · have := (h s hs h0).1
    rw [hr] at this
    cases this

theorem placed_clear {c' : Ctx} (h : ∀ s ∈ c'.sessions, s.id = 0) : Placed c' := fun s hs h0 => absurd (h s hs) h0

/-- GET_VERSION. -/
theorem placed_version {c : Ctx} (h : Placed c) (v : UInt8) (t : Bytes) :
    (handleVersion e (v :: 0x84 :: t)).wp c (fun _ => Placed) (fun _ => Placed) := by
  by_cases hv : v = 0x10 ∧ 2 ≤ t.length
  · have hcl : ∀ c' : Ctx, c'.sessions = c.sessions.map Session.setDefault → Placed c' := by
      intro c' hs
      refine placed_clear fun s hm => ?_
      rw [hs] at hm
      obtain ⟨s0, _, rfl⟩ := List.mem_map.1 hm
      rfl
    obtain ⟨rfl, ht⟩ := hv
    match t, ht with
    | p1 :: p2 :: t, _ =>
      rw [M.wp, handleVersion_ok]
      refine (sendPlain_version_wp (e := e) _ c.config).mono ?_ ?_
      · rintro _ c' ⟨pkt, rfl⟩
        exact hcl _ rfl
      · rintro _ c' h
        obtain ⟨g1, g2, g3, g4, g5, g6, g7⟩ := h.rel
        exact hcl _ (by rw [g4]; rfl)
  · obtain ⟨code, c1, hf, hx⟩ := versionRsp_bad v t c hv
    unfold handleVersion
    rw [M.wp_bind]
    have : reply (versionRsp (v :: 0x84 :: t)) c = .ok (errorBytes c1.neg.version code 0) c1 := by
      simp only [reply, hx, writeError_nil c1 { code := code } rfl]
    rw [M.wp, this]
    have h1 : Placed c1 := h.same (loc_none_eq hf.sessions) hf.state (hf.neg rfl)
    refine (sendMessage_error_any (starts_error _ _ _) c1).mono ?_ ?_ <;>
      (rintro _ c' hse
       obtain ⟨g1, g2, g3, g4, g5, g6, g7⟩ := Sent.rel hse
       exact h1.same g4 (by rw [g3]) g5)

theorem moves_ready {k : UInt8} {a b : ConnState} (h : Spec.Moves k a b) (hk : k ≠ 0x84) (ha : Spec.ready a = true) : Spec.ready b = true := by
  cases h with
  | stay => exact ha
  | version _ hv => exact absurd hv hk
  | versionUnsent _ hv => exact absurd hv hk
  | capabilities => cases ha
  | algorithms => rfl
  | digests => rfl
  | certificate => rfl
  | challenge => rfl

/-- one packet keeps the sessions in place. -/
theorem placed_step (hl : HashLaw e) (hm : e.asksMutual = false) {rx : Bytes} {c c' : Ctx} (h : Placed c) (ha : After e rx c c') : Placed c' := by
  have hs : Step e rx c c' := ha.wp (process_step hl rx c)
  cases hs with
  | ignored h1 => rw [h1]; exact h
  | secured sid h1 _ h2 =>
    obtain ⟨a, b, c1, d, t, hrec, _⟩ := h1
    refine h.step (ha.wp (tie_secured hrec c)) fun s' hs' h0 => ?_
    rw [h2.state]
    obtain ⟨s, hs, hr⟩ := All2.mem h2.sessions hs'
    rcases hr with rfl | ⟨g1, g2 | ⟨_, g2⟩⟩
    · exact (h _ hs h0).1
    · exact (h s hs (by rw [g1, ← g2]; exact h0)).1
    · rw [g2] at h0
      exact absurd rfl h0
  | plain v k t h1 h2 =>
    by_cases hv : k = 0x84
    · obtain rfl := hv
      refine ha.rel h1 ?_
      rw [M.wp, dispatch_cons]
      exact placed_version h v t
    by_cases hk : Spec.tooEarly k c.rt.state = true
    · refine ha.rel h1 (P := Placed) ?_
      have key : ∀ c', (c' = c ∨ ∃ pkt, c' = { c with sent := c.sent ++ [pkt] }) → Placed c' := by
        rintro c' (rfl | ⟨pkt, rfl⟩)
        · exact h
        · exact h.same rfl rfl rfl
      unfold M.wp
      cases hx : dispatch e (v :: k :: t) c with
      | panic => trivial
      | ok a t1 => exact key _ (Props.C24_too_early_effect c t1 v k t hk (.inl hx))
      | err a t1 => exact key _ (Props.C24_too_early_effect c t1 v k t hk (.inr ⟨a, hx⟩))
    by_cases hn : k = 0xE1 ∨ k = 0xE3
    · have hr : Spec.ready c.rt.state = false := by
        rcases hn with rfl | rfl
        · have : c.rt.state = .afterVersion := by simpa [Spec.tooEarly] using hk
          rw [this]; rfl
        · have : c.rt.state = .afterCapabilities := by simpa [Spec.tooEarly] using hk
          rw [this]; rfl
      have hid := h.idle hr
      refine placed_clear fun s hs => ?_
      cases h2.table with
      | same g => rw [g] at hs; exact hid s hs
      | cleared g => exact absurd g hv
      | keyExchange g => rcases hn with rfl | rfl <;> cases g
      | pskExchange g => rcases hn with rfl | rfl <;> cases g
      | finish _ _ g => rcases hn with rfl | rfl <;> cases g
    by_cases hx : Spec.exchangeTooEarly k c.rt.state = true
    · refine ha.rel h1 (P := Placed) ?_
      rw [M.wp, Props.C24_exchange_too_early c v k t hx]
      exact h
    have hneg : ¬ Negotiates (ReqRespCode.ofCode k) := by
      rintro (g | g | g) <;> have g := code_of g
      · exact hv g
      · exact hn (.inl g)
      · exact hn (.inr g)
    refine h.step ?_ fun s' hs' h0 => ?_
    · refine ha.rel h1 ?_
      rw [M.wp, dispatch_cons]
      exact tie_dispatchCode (opening_fits hm c.neg) _ (fun g => absurd g hneg) _ c
    · cases hr : Spec.ready c.rt.state with
      | true => exact moves_ready h2.conn hv hr
      | false =>
        have hid := h.idle hr
        have hne : k ≠ 0xE4 ∧ k ≠ 0xE6 := by
          constructor <;> (rintro rfl; exact hx (by unfold Spec.exchangeTooEarly; rw [hr]; decide))
        exfalso
        cases h2.table with
        | same g => rw [g] at hs'; exact h0 (hid s' hs')
        | cleared g => exact hv g
        | keyExchange g => exact hne.1 g
        | pskExchange g => exact hne.2 g
        | finish sid s _ _ _ _ _ g =>
          obtain ⟨s1, hs1, hr⟩ := All2.mem g hs'
          rcases hr with rfl | ⟨g1, g2⟩
          · exact h0 (hid _ hs1)
          · exact h0 (by rw [g2, ← g1]; exact hid _ hs1)

theorem Run.placed {c0 c : Ctx} {h : List (Env × Bytes)} (h0 : Placed c0) (hr : Run c0 h c) (hl : ∀ p ∈ h, HashLaw p.1 ∧ p.1.asksMutual = false) : Placed c := by
  induction hr with
  | nil => exact h0
  | ok hr hp ih =>
    have := hl _ (List.mem_append_right _ (List.mem_singleton.2 rfl))
    exact placed_step this.1 this.2 (ih fun p hp => hl p (by simp [hp])) (.inl ⟨_, hp⟩)
  | err hr hp ih =>
    have := hl _ (List.mem_append_right _ (List.mem_singleton.2 rfl))
    exact placed_step this.1 this.2 (ih fun p hp => hl p (by simp [hp])) (.inr ⟨_, hp⟩)

theorem placed_new (cfg : Config) (prov : Provision) (n : Nat) : Placed (Ctx.new cfg prov n) := placed_clear fun s hs => by
  have : s = Session.new := List.eq_of_mem_replicate hs
  rw [this]
  rfl

/-- what every state between two packets has, when the algorithms in force are usable. -/
theorem Run.poised {cfg : Config} {prov : Provision} {n : Nat} (hn : n < 0xFFFD) {h : List (Env × Bytes)} {c : Ctx} (hr : Run (Ctx.new cfg prov n) h c)
    (hl : ∀ p ∈ h, HashLaw p.1 ∧ p.1.asksMutual = false) (hz : Spec.ready c.rt.state = true → Sized c.neg) : Poised c := by
  have hl' : ∀ p ∈ h, HashLaw p.1 := fun p hp => (hl p hp).1
  obtain ⟨h1, h2⟩ := hr.table hn hl'
  exact ⟨hr.dts (.inl rfl) hl', hz, h2, by rw [h1]; exact hn, hr.placed (placed_new cfg prov n) hl⟩

end Rsp
end Verif
