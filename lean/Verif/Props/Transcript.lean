/-
C23: transcripts, signatures and keys cover exactly the messages exchanged.
-/
import Verif.Props.Exchange
import Verif.Spec.Transcript

namespace Verif.Props
open Verif.Rsp

variable {e : Env}

/-! ### how many bytes the negotiation requests take -/

/-- a decoder that consumes at most `n` bytes. -/
def UsesAtMost {α : Type} (n : Nat) (x : Rd α) : Prop := ∀ r a r', x r = .ok a r' → r'.used ≤ r.used + n

theorem UsesAtMost.pure {α : Type} (n : Nat) (a : α) : UsesAtMost n (pure a : Rd α) := by
  intro r b r' h; cases h; omega
theorem UsesAtMost.none {α : Type} (n : Nat) : UsesAtMost n (Rd.none : Rd α) := by
  intro r b r' h; cases h
theorem UsesAtMost.bind {α β : Type} (k : Nat) {n : Nat} {x : Rd α} {f : α → Rd β} (hk : k ≤ n) (hx : UsesAtMost k x) (hf : ∀ a, UsesAtMost (n - k) (f a)) :
    UsesAtMost n (x >>= f) := by
  intro r b r' h
  obtain ⟨a, r1, h1, h2⟩ := M.bind_ok.1 h
  have := hx _ _ _ h1
  have := hf _ _ _ _ h2
  omega
theorem UsesAtMost.mono {α : Type} {n k : Nat} {x : Rd α} (h : UsesAtMost k x) (hk : k ≤ n) : UsesAtMost n x := by
  intro r a r' hx
  have := h _ _ _ hx
  omega
theorem UsesAtMost.ite {α : Type} {n : Nat} {p : Prop} [Decidable p] {x y : Rd α} (hx : p → UsesAtMost n x) (hy : ¬p → UsesAtMost n y) : UsesAtMost n (if p then x else y) := by
  by_cases h : p
  · rw [if_pos h]; exact hx h
  · rw [if_neg h]; exact hy h

theorem uses_take (n : Nat) : UsesAtMost n (Rd.take n) := by
  intro r a r' h
  unfold Rd.take at h
  split at h
  · cases h
  · cases h; simp

theorem uses_u8 : UsesAtMost 1 rdU8 := fun r a r' h => by have := (rdU8_ok.1 h).2; simp at this; omega
theorem uses_u16 : UsesAtMost 2 rdU16 := fun r a r' h => by have := (rdU16_ok.1 h).2; simp [putU16] at this; omega
theorem uses_u32 : UsesAtMost 4 rdU32 := fun r a r' h => by have := (rdU32_ok.1 h).2; simp [putU32] at this; omega
theorem uses_bytes (n : Nat) : UsesAtMost n (rdBytes n) := fun r a r' h => by
  obtain ⟨h1, h2⟩ := rdBytes_ok.1 h
  have := h2.2; omega

theorem uses_algStruct : UsesAtMost 4 AlgStruct.read := by
  have f16 : ∀ {g : UInt16 → UInt16} {k : UInt16 → AlgStruct}, UsesAtMost 2 (do let b ← (do let b ← rdU16; pure (g b) : Rd UInt16); pure (k b) : Rd AlgStruct) :=
    .bind 2 (by decide) (.bind 2 (by decide) uses_u16 fun _ => .pure _ _) fun _ => .pure _ _
  refine .bind 1 (by decide) ?_ fun ty => .bind 1 (by decide) uses_u8 fun n => .ite (fun _ => .none _) fun _ => .ite (fun _ => .none _) fun _ => ?_
  · exact .bind 1 (by decide) uses_u8 fun _ => .pure _ _
  · cases ty
    all_goals first
      | exact .none _
      | exact f16

theorem uses_algs (check : Alg → Bool) : ∀ (n : Nat) (cur : UInt8), UsesAtMost (4 * n) (rdAlgs check n cur)
  | 0, _ => .pure _ _
  | n + 1, cur => by
    unfold rdAlgs
    refine .bind 4 (by omega) uses_algStruct fun a => .ite (fun _ => .none _) fun _ => .ite (fun _ => .none _) fun _ => ?_
    exact .bind (4 * n) (by omega) (uses_algs check n _) fun _ => .pure _ _

theorem uses_getCaps (c : Cc) : UsesAtMost 18 (rdGetCaps c) := by
  unfold rdGetCaps
  refine .bind 1 (by decide) uses_u8 fun _ => .bind 1 (by decide) uses_u8 fun _ => .bind 8 (by decide) ?_ fun p => ?_
  · refine .ite (fun _ => ?_) fun _ => .pure _ _
    refine .bind 1 (by decide) uses_u8 fun _ => .bind 1 (by decide) uses_u8 fun _ => .bind 2 (by decide) uses_u16 fun _ => .bind 4 (by decide) ?_ fun _ =>
      .ite (fun _ => .none _) fun _ => .pure _ _
    exact .bind 4 (by decide) uses_u32 fun _ => .pure _ _
  · obtain ⟨ct, flags⟩ := p
    refine .ite (fun _ => ?_) fun _ => .pure _ _
    exact .bind 4 (by decide) uses_u32 fun _ => .bind 4 (by decide) uses_u32 fun _ => .ite (fun _ => .none _) fun _ => .pure _ _

theorem uses_negAlgs (c : Cc) : UsesAtMost 46 (rdNegAlgs c) := by
  have f8 : ∀ {g : UInt8 → UInt8}, UsesAtMost 1 (do let b ← rdU8; pure (g b) : Rd UInt8) := .bind 1 (by decide) uses_u8 fun _ => .pure _ _
  have f32 : ∀ {g : UInt32 → UInt32}, UsesAtMost 4 (do let b ← rdU32; pure (g b) : Rd UInt32) := .bind 4 (by decide) uses_u32 fun _ => .pure _ _
  unfold rdNegAlgs
  refine .bind 1 (by decide) uses_u8 fun n0 => ?_
  generalize (if c.ge11 = true then n0 else 0) = n
  refine .ite (fun _ => .none _) fun hn => .bind 1 (by decide) uses_u8 fun _ => .bind 2 (by decide) uses_u16 fun _ =>
    .bind 1 (by decide) f8 fun _ => .bind 1 (by decide) ?_ fun _ => .bind 4 (by decide) f32 fun _ => .bind 4 (by decide) f32 fun _ =>
    .bind 12 (by decide) (uses_bytes 12) fun _ => .bind 1 (by decide) uses_u8 fun _ => .ite (fun _ => .none _) fun _ => .bind 1 (by decide) uses_u8 fun _ =>
    .ite (fun _ => .none _) fun _ => .bind 2 (by decide) uses_u16 fun _ => .bind 16 (by decide) ?_ fun _ => .ite (fun _ => .none _) fun _ => .pure _ _
  · exact .ite (fun _ => .mono (k := 1) (.bind 1 (by decide) uses_u8 fun _ => .ite (fun _ => .pure _ _) fun _ => .none _) (by decide)) fun _ => f8 (g := fun _ => 0)
  · refine .ite (fun _ => .mono (uses_algs _ _ _) ?_) fun _ => .pure _ _
    have : n.toNat ≤ 4 := UInt8.le_iff_toNat_le.1 (UInt8.not_lt.1 hn)
    omega

/-! ### dialogues -/

/-- An exchange that worked: one packet was sent, and it does not carry an ERROR message. -/
def Answered (e : Env) (c c' : Ctx) : Prop := ∃ pkt, c'.sent = c.sent ++ [pkt] ∧ ∀ b, IsError b → Ctx.encap e b ≠ .ok pkt

/-- the transport takes an ERROR message. -/
def ErrorLaw (e : Env) : Prop := ∀ v code data, ∃ pkt, Ctx.encap e (errorBytes v code data) = .ok pkt

/-- what the surroundings of the responder are trusted for. -/
structure DialogueLaws (e : Env) : Prop where
  hash : HashLaw e
  summary : SummaryLaw e
  record : RecordLaw e
  error : ErrorLaw e

/-- the bytes of a message that make up its structure: what follows is ignored. -/
def Consumed (cc : Cc) (bytes req : Bytes) : Prop :=
  ∃ v k t p r, bytes = v :: k :: t ∧ Payload.read { cc with neg := { cc.neg with version := SpdmVersion.ofCode v } } (ReqRespCode.ofCode k) ⟨t, 2⟩ = .ok p r ∧
    req = bytes.take r.used

theorem outgoing_small {c : Ctx} {b : Bytes} (h : tooLarge c b = false) : outgoing c b = b := by unfold outgoing; rw [h]; rfl

theorem answered_small {c c1 : Ctx} {st : ConnState} {b pkt : Bytes} (hs : ∃ l, c1.sent = c.sent ++ l) (he : Ctx.encap e (outgoing c1 b) = .ok pkt)
    (ha : Answered e c (withState st (withSent pkt c1))) : tooLarge c1 b = false ∧ Ctx.encap e b = .ok pkt ∧ c1.sent = c.sent := by
  obtain ⟨p, h1, h2⟩ := ha
  obtain ⟨l, hl⟩ := hs
  have h1 : c1.sent ++ [pkt] = c.sent ++ [p] := h1
  rw [hl, List.append_assoc] at h1
  have h3 := List.append_cancel_left h1
  have hl0 : l = [] ∧ pkt = p := by
    cases l with
    | nil => simp at h3; exact ⟨rfl, h3⟩
    | cons a l => simp at h3
  obtain ⟨rfl, rfl⟩ := hl0
  cases ht : tooLarge c1 b with
  | false => rw [outgoing_small ht] at he; exact ⟨rfl, he, by simp [hl]⟩
  | true =>
    unfold outgoing at he
    rw [ht] at he
    exact absurd he (h2 _ ⟨_, _, rfl⟩)

/-- an exchange that worked: the handler wrote the message sent. -/
theorem plain_positive {x : H Bytes} {Q : Bytes → Ctx → Prop} {v k r : UInt8} {t rx : Bytes} {c c' : Ctx} (hp : Plain e rx (v :: k :: t))
    (hd : dispatchCode e (ReqRespCode.ofCode k) (v :: k :: t) = (do let b ← reply x; sendMessage e b))
    (hc : Codes r (Starts r) x) (hr : r ≠ 0x65) (hq : Does x c Q)
    (hsent : x.wp c (fun _ c1 => c.sent <+: c1.sent) (fun _ c1 => c.sent <+: c1.sent))
    (h : processMessage e rx c = .ok true c') (ha : Answered e c c') :
    ∃ b c1 pkt, Q b c1 ∧ Starts r b ∧ SentOne e b c c' ∧ c1.sent = c.sent ∧ c' = withState (afterState r c1.rt.state) (withSent pkt c1) := by
  obtain ⟨b, c1, pkt, he, h1 | ⟨rep, h1, _, hn, _⟩ | ⟨rep, h1, h2, rfl, rfl⟩⟩ := plain_answered hp hd hc hr h
  · obtain ⟨hx, rfl⟩ := h1
    obtain ⟨l, hl⟩ := hsent.ok hx
    obtain ⟨g1, g2, g3⟩ := answered_small ⟨l, hl.symm⟩ he ha
    rw [g1]
    exact ⟨b, c1, pkt, hq.ok hx, (hc c).ok hx, ⟨pkt, g2, by show c1.sent ++ _ = _; rw [g3]⟩, g3, rfl⟩
  · exact absurd (hq.err h1) hn
  · exfalso
    obtain ⟨l, hl⟩ := hsent.err h1
    obtain ⟨g1, g2, g3⟩ := answered_small (st := c1.rt.state) ⟨l, hl.symm⟩ he ha
    obtain ⟨p, k1, k2⟩ := ha
    have k1 : c1.sent ++ [pkt] = c.sent ++ [p] := k1
    rw [g3] at k1
    have := List.append_cancel_left k1
    simp at this
    subst this
    exact k2 _ ⟨_, _, rfl⟩ g2

/-- The responder's transcripts are those of the dialogue. -/
structure Covers (t : Spec.Transcripts) (c : Ctx) : Prop where
  a : c.rt.messageA = t.a
  b : c.rt.m1m2 = t.b.map (⟨c.neg.baseHash, ·⟩)
  m : c.rt.l1l2 = t.m.map (⟨c.neg.baseHash, ·⟩)

/-- with what else is needed to go on. -/
structure Holds (t : Spec.Transcripts) (c : Ctx) : Prop extends Covers t c where
  cert : 5 ≤ c.rt.state.code ↔ t.cert = true
  early : c.rt.state.code < 3 → t.b = none ∧ t.m = none
  lenV : c.rt.state = .afterVersion → t.a.length ≤ 16
  lenC : c.rt.state = .afterCapabilities → t.a.length ≤ 56

/-- one exchange of a dialogue. -/
structure Exchange (e : Env) (c : Ctx) (bytes : Bytes) (req rsp : Bytes) (c' : Ctx) : Prop where
  req : Consumed c.cc bytes req
  sent : SentOne e rsp c c'
  code : ∃ v k t w, bytes = v :: k :: t ∧ rsp = w :: (k &&& 0x7F) :: rsp.drop 2

theorem starts_drop {r : UInt8} {b : Bytes} (h : Starts r b) : ∃ w, b = w :: r :: b.drop 2 := by
  obtain ⟨w, t, rfl⟩ := h; exact ⟨w, rfl⟩

theorem step_version {v : UInt8} {t rx : Bytes} {c c' : Ctx} {ts : Spec.Transcripts} (hp : Plain e rx (v :: 0x84 :: t))
    (h : processMessage e rx c = .ok true c') (ha : Answered e c c') :
    ∃ req rsp, Exchange e c (v :: 0x84 :: t) req rsp c' ∧ Holds (ts.after req rsp) c' := by
  have hq : Does (versionRsp (v :: 0x84 :: t)) c (fun b c1 => ∃ p1 p2 t', v = 0x10 ∧ t = p1 :: p2 :: t' ∧ b = versionBytes c.config ∧ c1 = fresh c [0x10, 0x84, p1, p2]) ∧
      (versionRsp (v :: 0x84 :: t)).wp c (fun _ c1 => c.sent <+: c1.sent) (fun _ c1 => c.sent <+: c1.sent) := by
    by_cases hv : v = 0x10 ∧ 2 ≤ t.length
    · obtain ⟨rfl, ht⟩ := hv
      match t, ht with
      | p1 :: p2 :: t, _ =>
        unfold Does M.wp
        rw [versionRsp_ok]
        exact ⟨⟨p1, p2, t, rfl, rfl, rfl, rfl⟩, List.prefix_refl _⟩
    · obtain ⟨code, c2, hf, h2⟩ := versionRsp_bad v t c hv
      unfold Does M.wp
      rw [h2]
      exact ⟨rfl, hf.sent⟩
  obtain ⟨b, c1, pkt, ⟨p1, p2, t', rfl, rfl, rfl, rfl⟩, hs, h1, h2, rfl⟩ := plain_positive hp rfl (codes_versionRsp _ _) (by decide) hq.1 hq.2 h ha
  refine ⟨[0x10, 0x84, p1, p2], versionBytes c.config, ⟨⟨_, _, _, .getVersion, ⟨t', 4⟩, rfl, ?_, rfl⟩, h1, ?_⟩, ⟨⟨?_, rfl, rfl⟩, ?_, ?_, ?_, ?_⟩⟩
  · show ((fun _ => Payload.getVersion) <$> rdNoParams) _ = _
    exact M.map_ok.2 ⟨(), by simp [rdNoParams], rfl⟩
  · obtain ⟨w, hw⟩ := starts_drop hs
    exact ⟨_, _, _, w, rfl, hw⟩
  · rfl
  · simp [withState, withSent, afterState, fresh, ConnState.code, Spec.Transcripts.after]
  · exact fun _ => ⟨rfl, rfl⟩
  · intro _
    simp [Spec.Transcripts.after, versionBytes]
  · intro hx; simp [withState, withSent, afterState] at hx

theorem consumed_of {α : Type} {cc : Cc} {v k : UInt8} {t : Bytes} {x : Cc → Rd α} {f : α → Payload} {a : α} {r : Reader}
    (hk : ∀ cc, Payload.read cc (ReqRespCode.ofCode k) = f <$> x cc)
    (h : x { cc with neg := { cc.neg with version := SpdmVersion.ofCode v } } ⟨t, 2⟩ = .ok a r) : Consumed cc (v :: k :: t) ((v :: k :: t).take r.used) := by
  refine ⟨v, k, t, f a, r, rfl, ?_, rfl⟩
  rw [hk]
  exact M.map_ok.2 ⟨a, h, rfl⟩

theorem consumed_same {α : Type} {c : Ctx} {v k : UInt8} {t : Bytes} {x : Cc → Rd α} {f : α → Payload} {a : α} {r : Reader}
    (hk : ∀ cc, Payload.read cc (ReqRespCode.ofCode k) = f <$> x cc) (hv : SpdmVersion.ofCode v = c.neg.version)
    (h : x c.cc ⟨t, 2⟩ = .ok a r) : Consumed c.cc (v :: k :: t) ((v :: k :: t).take r.used) := by
  refine consumed_of (a := a) hk ?_
  rw [hv]; exact h

theorem wp_sent {x : H Bytes} {c : Ctx} {k : Bool} {sid : Option UInt32} (h : M.Rel (Frame k sid) x) :
    x.wp c (fun _ c1 => c.sent <+: c1.sent) (fun _ c1 => c.sent <+: c1.sent) :=
  (h c).mono (fun _ _ h => h.sent) (fun _ _ h => h.sent)

/-- two bytes into the message read. -/
theorem take_getD {v k : UInt8} {t : Bytes} {n : Nat} (h : 2 ≤ n) : ((v :: k :: t).take n).getD 0 0 = v ∧ ((v :: k :: t).take n).getD 1 0 = k := by
  obtain ⟨n, rfl⟩ : ∃ m, n = m + 2 := ⟨n - 2, by omega⟩
  simp

theorem good_used {α : Type} {x : Rd α} (hg : x.Good) {t : Bytes} {a : α} {r' : Reader} (h : x ⟨t, 2⟩ = .ok a r') : 2 ≤ r'.used := by
  obtain ⟨bs, _, hb⟩ := hg.after h
  simp at hb; omega

theorem step_capabilities {v : UInt8} {t rx : Bytes} {c c' : Ctx} {ts : Spec.Transcripts} (hh : Holds ts c) (hp : Plain e rx (v :: 0xE1 :: t))
    (h : processMessage e rx c = .ok true c') (ha : Answered e c c') :
    ∃ req rsp, Exchange e c (v :: 0xE1 :: t) req rsp c' ∧ Holds (ts.after req rsp) c' := by
  have hq : Does (capabilityRsp (v :: 0xE1 :: t)) c (fun b c1 => ∃ m r', c.rt.state = .afterVersion ∧
      rdGetCaps { c.cc with neg := { c.neg with version := SpdmVersion.ofCode v } } ⟨t, 2⟩ = .ok m r' ∧
      b = capsBytes v c.config ∧ c1 = addA ((v :: 0xE1 :: t).take r'.used ++ b) (capsCtx v m c)) := by
    unfold Does M.wp
    by_cases hok : c.rt.state = .afterVersion ∧ 0x10 ≤ v ∧ ∃ m r', rdGetCaps { c.cc with neg := { c.neg with version := SpdmVersion.ofCode v } } ⟨t, 2⟩ = .ok m r'
    · obtain ⟨hst, hv, m, r', hr⟩ := hok
      rw [capabilityRsp_eq (k := 0xE1) hst hv hr]
      dsimp only
      have hu := uses_getCaps _ _ _ _ hr
      dsimp only at hu
      have h1 : ((v :: 0xE1 :: t).take r'.used).length ≤ 20 := by simp; omega
      have h2 : (capsBytes v c.config).length ≤ 20 := by unfold capsBytes; split <;> simp [putU32]
      have h3 : c.rt.messageA.length ≤ 16 := by rw [hh.a]; exact hh.lenV hst
      rw [if_neg (by omega), if_neg (by omega)]
      exact ⟨m, r', hst, hr, rfl, rfl⟩
    · rcases capabilityRsp_refused (k := 0xE1) hok with h1 | ⟨r, c2, h1, h2, _⟩
      · rw [h1]; trivial
      · rw [h1]; exact h2
  obtain ⟨b, c1, pkt, ⟨m, r', hst, hr, rfl, rfl⟩, hs, h1, h2, rfl⟩ :=
    plain_positive hp rfl (codes_capabilityRsp _) (by decide) hq (wp_sent (rel_capabilityRsp _)) h ha
  have hrt : (capsCtx v m c).rt = { c.rt with l1l2 := none } := by rw [capsCtx, (setCaps_fields _ _).2.1]
  have hbh : (capsCtx v m c).neg.baseHash = c.neg.baseHash := by rw [capsCtx_neg]; rfl
  have hu := uses_getCaps _ _ _ _ hr
  have hu2 := good_used (rdGetCaps_good _) hr
  obtain ⟨g1, g2⟩ := take_getD (v := v) (k := 0xE1) (t := t) hu2
  have hl : ((v :: 0xE1 :: t).take r'.used).length ≤ 20 := by simp; simp at hu; omega
  have hl2 : (capsBytes v c.config).length ≤ 20 := by unfold capsBytes; split <;> simp [putU32]
  have hl3 := hh.lenV hst
  obtain ⟨w, hw⟩ := starts_drop hs
  refine ⟨_, _, ⟨consumed_of (f := .getCaps) (fun _ => rfl) hr, h1, ⟨_, _, _, w, rfl, hw⟩⟩, ?_⟩
  generalize (v :: 0xE1 :: t).take r'.used = req at *
  generalize capsBytes v c.config = rsp at *
  obtain ⟨e1, e2⟩ := hh.early (by rw [hst]; decide)
  have ht : ts.after req rsp = { ts with a := ts.a ++ req ++ rsp, m := none } := by
    unfold Spec.Transcripts.after; rw [g2]; simp
  have hc5 : ts.cert = false := by
    have := hh.cert; rw [hst] at this
    cases hc : ts.cert with
    | false => rfl
    | true => exact absurd (this.2 hc) (by decide)
  rw [ht]
  refine ⟨⟨?_, ?_, ?_⟩, ?_, ?_, ?_, ?_⟩
  · show (capsCtx v m c).rt.messageA ++ _ = _
    rw [hrt, ← List.append_assoc, hh.a]
  · show (capsCtx v m c).rt.m1m2 = Option.map _ ts.b
    rw [hrt, e1]; show c.rt.m1m2 = none; rw [hh.b, e1]; rfl
  · show (capsCtx v m c).rt.l1l2 = none
    rw [hrt]
  · simp [withState, afterState, ConnState.code, hc5]
  · exact fun _ => ⟨e1, rfl⟩
  · intro hx; simp [withState, afterState] at hx
  · intro _; simp only [List.length_append]; omega

theorem step_algorithms {v : UInt8} {t rx : Bytes} {c c' : Ctx} {ts : Spec.Transcripts} (hh : Holds ts c) (hp : Plain e rx (v :: 0xE3 :: t))
    (h : processMessage e rx c = .ok true c') (ha : Answered e c c') :
    ∃ req rsp, Exchange e c (v :: 0xE3 :: t) req rsp c' ∧ Holds (ts.after req rsp) c' := by
  have hq : Does (algorithmRsp e (v :: 0xE3 :: t)) c (fun b c1 => ∃ m r' c2, c.rt.state = .afterCapabilities ∧ SpdmVersion.ofCode v = c.neg.version ∧
      rdNegAlgs c.cc ⟨t, 2⟩ = .ok m r' ∧ c2.rt = (offerCtx m ((v :: 0xE3 :: t).take r'.used) c).rt ∧ c1 = addA b (withOpaque m c2)) := by
    unfold Does M.wp
    by_cases hok : c.rt.state = .afterCapabilities ∧ SpdmVersion.ofCode v = c.neg.version ∧ ∃ m r', rdNegAlgs c.cc ⟨t, 2⟩ = .ok m r'
    · obtain ⟨hst, hv, m, r', hr⟩ := hok
      rw [algorithmRsp_eq (k := 0xE3) hst hv hr]
      dsimp only
      have hu := uses_negAlgs _ _ _ _ hr
      dsimp only at hu
      have h1 : ((v :: 0xE3 :: t).take r'.used).length ≤ 48 := by simp; omega
      have h3 : c.rt.messageA.length ≤ 56 := by rw [hh.a]; exact hh.lenC hst
      rw [if_neg (by omega)]
      cases hcc : Ctx.constructChains e (offerCtx m ((v :: 0xE3 :: t).take r'.used) c) with
      | panic => trivial
      | err st c2 => exact rfl
      | ok u c2 =>
        dsimp only
        have hb := ((constructChains_wp (e := e) _).ok hcc).1.same
        have hrt : c2.rt = (offerCtx m ((v :: 0xE3 :: t).take r'.used) c).rt := by rw [hb]
        have h4 : c2.rt.messageA.length ≤ 104 := by
          rw [hrt]; show (c.rt.messageA ++ _).length ≤ _
          rw [List.length_append]; omega
        have h5 : (algsBytes (withOpaque m c2).neg).length ≤ 52 := by
          unfold algsBytes; dsimp only; split <;> simp [putU32, putU16]
        rw [if_neg (by omega)]
        exact ⟨m, r', c2, hst, hv, hr, hrt, rfl⟩
    · rcases algorithmRsp_refused (e := e) (k := 0xE3) hok with h1 | ⟨r, c2, h1, h2, _⟩
      · rw [h1]; trivial
      · rw [h1]; exact h2
  obtain ⟨b, c1, pkt, ⟨m, r', c2, hst, hv, hr, hrt, rfl⟩, hs, h1, h2, rfl⟩ :=
    plain_positive hp rfl (codes_algorithmRsp _) (by decide) hq (wp_sent (rel_algorithmRsp _)) h ha
  have hu2 := good_used (rdNegAlgs_good _) hr
  obtain ⟨g1, g2⟩ := take_getD (v := v) (k := 0xE3) (t := t) hu2
  obtain ⟨w, hw⟩ := starts_drop hs
  refine ⟨_, b, ⟨consumed_same (f := .negAlgs) (fun _ => rfl) hv hr, h1, ⟨_, _, _, w, rfl, hw⟩⟩, ?_⟩
  generalize (v :: 0xE3 :: t).take r'.used = req at *
  obtain ⟨e1, e2⟩ := hh.early (by rw [hst]; decide)
  have ht : ts.after req b = { ts with a := ts.a ++ req ++ b, m := none } := by
    unfold Spec.Transcripts.after; rw [g2]; simp
  have hc5 : ts.cert = false := by
    have := hh.cert; rw [hst] at this
    cases hc : ts.cert with
    | false => rfl
    | true => exact absurd (this.2 hc) (by decide)
  rw [ht]
  refine ⟨⟨?_, ?_, ?_⟩, ?_, ?_, ?_, ?_⟩
  · show c2.rt.messageA ++ _ = _
    rw [hrt]; show c.rt.messageA ++ req ++ b = _; rw [hh.a]
  · show c2.rt.m1m2 = Option.map _ ts.b
    rw [hrt, e1]; show c.rt.m1m2 = none; rw [hh.b, e1]; rfl
  · show c2.rt.l1l2 = none
    rw [hrt]; rfl
  · simp [withState, afterState, ConnState.code, hc5]
  · exact fun _ => ⟨e1, rfl⟩
  · intro hx; simp [withState, afterState] at hx
  · intro hx; simp [withState, afterState] at hx

theorem resetDigests_eq (c : Ctx) : Ctx.resetBuffers .reqGetDigests none c = { c with rt := { c.rt with l1l2 := none, m1m2 := none } } := rfl
theorem resetCertificate_eq (c : Ctx) : Ctx.resetBuffers .reqGetCertificate none c = { c with rt := { c.rt with l1l2 := none } } := rfl
theorem resetChallenge_eq (c : Ctx) : Ctx.resetBuffers .reqChallenge none c = { c with rt := { c.rt with l1l2 := none } } := rfl
theorem resetExchange_eq {k : ReqRespCode} (hk : k = .reqKeyExchange ∨ k = .reqPskExchange) (c : Ctx) : Ctx.resetBuffers k none c =
    { c with rt := { c.rt with l1l2 := none, m1m2 := if c.rt.state.code < 5 then none else c.rt.m1m2 } } := by
  have : (Ctx.resetM none c).rt.state = c.rt.state := rfl
  rcases hk with rfl | rfl <;>
  · unfold Ctx.resetBuffers
    simp only [ne_eq, reduceCtorEq, not_false_eq_true, if_true, this]
    split <;> rfl

theorem addB_m1m2 {c : Ctx} {h : BaseHash} {o : Option Bytes} (msg : Bytes) (h1 : c.rt.m1m2 = o.map (⟨h, ·⟩)) (h2 : c.neg.baseHash = h) :
    (addB msg c).rt.m1m2 = some ⟨h, o.getD c.rt.messageA ++ msg⟩ := by
  unfold addB
  rw [h1]
  cases o with
  | none => simp [h2]
  | some x => simp

theorem addB_twice {c : Ctx} {h : BaseHash} {o : Option Bytes} (m1 m2 : Bytes) (h1 : c.rt.m1m2 = o.map (⟨h, ·⟩)) (h2 : c.neg.baseHash = h) :
    (addB m2 (addB m1 c)).rt.m1m2 = some ⟨h, o.getD c.rt.messageA ++ m1 ++ m2⟩ := by
  rw [addB_m1m2 (o := some (o.getD c.rt.messageA ++ m1)) _ (addB_m1m2 m1 h1 h2) h2]; rfl

theorem addM_l1l2 {c : Ctx} {h : BaseHash} {o : Option Bytes} (msg : Bytes) (h1 : c.rt.l1l2 = o.map (⟨h, ·⟩)) (h2 : c.neg.baseHash = h) :
    (addM none msg c).rt.l1l2 = some ⟨h, o.getD (if c.cc.ge12 then c.rt.messageA else []) ++ msg⟩ := by
  unfold addM nextM l1l2?
  dsimp only
  rw [h1]
  cases o with
  | none => simp [h2]
  | some x => simp

/-- the remaining invariants in the states after the negotiation. -/
theorem holds_late {ts : Spec.Transcripts} {c : Ctx} (h3 : 3 ≤ c.rt.state.code) (h : Covers ts c) (hc : 5 ≤ c.rt.state.code ↔ ts.cert = true) : Holds ts c :=
  ⟨h, hc, fun h => by omega, fun h => by rw [h] at h3; exact absurd h3 (by decide), fun h => by rw [h] at h3; exact absurd h3 (by decide)⟩

theorem cert_false {ts : Spec.Transcripts} {c : Ctx} (h : Holds ts c) (hc : c.rt.state.code < 5) : ts.cert = false := by
  cases hx : ts.cert with
  | false => rfl
  | true => have := h.cert.2 hx; omega

theorem step_digests {v : UInt8} {t rx : Bytes} {c c' : Ctx} {ts : Spec.Transcripts} (hl : HashLaw e) (hh : Holds ts c) (hp : Plain e rx (v :: 0x81 :: t))
    (h : processMessage e rx c = .ok true c') (ha : Answered e c c') :
    ∃ req rsp, Exchange e c (v :: 0x81 :: t) req rsp c' ∧ Holds (ts.after req rsp) c' := by
  obtain ⟨b, c1, pkt, ⟨hready, v', k', p1, p2, t', hs', hb, hv, -, -, rfl⟩, hs, h1, h2, rfl⟩ :=
    plain_positive hp rfl (codes_digestRsp hl none _) (by decide) (digest_does _ _) (wp_sent (sid := none) (k := true) (rel_digestRsp _)) h ha
  injection hb with hb1 hb2
  injection hb2 with hb2 hb3
  subst hb1 hb2 hb3
  obtain ⟨w, hw⟩ := starts_drop hs
  refine ⟨[v, 0x81, p1, p2], b, ⟨consumed_same (r := ⟨t', 4⟩) (x := fun _ => rdNoParams) (f := fun _ => .getDigests) (a := ()) (fun _ => rfl) hv (by simp [rdNoParams]),
    h1, ⟨_, _, _, w, rfl, hw⟩⟩, ?_⟩
  have ht : ts.after [v, 0x81, p1, p2] b = { ts with b := some (ts.a ++ [v, 0x81, p1, p2] ++ b), m := none } := by
    simp [Spec.Transcripts.after]
  rw [ht]
  have hst : ∀ st : ConnState, 3 ≤ st.code → 3 ≤ (afterState 0x01 st).code ∧ (5 ≤ (afterState 0x01 st).code ↔ 5 ≤ st.code) := by
    intro st; cases st <;> decide
  have hready : 3 ≤ c.rt.state.code := hready
  have := hst c.rt.state hready
  refine holds_late this.1 ⟨hh.a, ?_, rfl⟩ (this.2.trans hh.cert)
  refine (addB_twice (c := Ctx.resetBuffers .reqGetDigests none c) (h := c.neg.baseHash) (o := none) _ _ rfl rfl).trans ?_
  rw [resetDigests_eq]
  show some (HashCtx.mk _ (c.rt.messageA ++ _ ++ b)) = _
  rw [hh.a]; rfl

theorem step_certificate {v : UInt8} {t rx : Bytes} {c c' : Ctx} {ts : Spec.Transcripts} (hh : Holds ts c)
    (hsz : ∀ i ch, c.prov.chain i = some ch → ch.length < 65536) (hp : Plain e rx (v :: 0x82 :: t))
    (h : processMessage e rx c = .ok true c') (ha : Answered e c c') :
    ∃ req rsp, Exchange e c (v :: 0x82 :: t) req rsp c' ∧ Holds (ts.after req rsp) c' := by
  obtain ⟨b, c1, pkt, ⟨hready, v', k', p, off, len, t', chain, hb, hv, -, -, -, rfl⟩, hs, h1, h2, rfl⟩ :=
    plain_positive hp rfl (codes_certificateRsp none _) (by decide) (certificate_does _ _ hsz) (wp_sent (sid := none) (k := true) (rel_certificateRsp _)) h ha
  simp only [List.cons_append, List.nil_append] at hb
  injection hb with hb1 hb2
  injection hb2 with hb2 hb3
  subst hb1 hb2 hb3
  obtain ⟨w, hw⟩ := starts_drop hs
  have hlen : ([v, 0x82, 0, p] ++ putU16 off ++ putU16 len).length = 8 := by simp [putU16]
  have hread : GetCert.read ⟨0 :: p :: (putU16 off ++ putU16 len ++ t'), 2⟩ = .ok ⟨0, off, len⟩ ⟨t', 8⟩ := by
    unfold GetCert.read
    simp only [M.bind_ok, rdU8_ok, rdU16_ok, M.pure_ok]
    exact ⟨0, ⟨p :: (putU16 off ++ putU16 len ++ t'), 3⟩, ⟨rfl, rfl⟩, p, ⟨putU16 off ++ putU16 len ++ t', 4⟩, ⟨rfl, rfl⟩, off, ⟨putU16 len ++ t', 6⟩,
      ⟨by simp, by simp [putU16]⟩, len, ⟨t', 8⟩, ⟨rfl, by simp [putU16]⟩, rfl, rfl⟩
  have hreq : (v :: 0x82 :: 0 :: p :: (putU16 off ++ putU16 len ++ t')).take 8 = [v, 0x82, 0, p] ++ putU16 off ++ putU16 len := by
    have : v :: 0x82 :: 0 :: p :: (putU16 off ++ putU16 len ++ t') = ([v, 0x82, 0, p] ++ putU16 off ++ putU16 len) ++ t' := by simp
    rw [this, ← hlen, List.take_left]
  have hcons := consumed_same (k := 0x82) (c := c) (x := fun _ => GetCert.read) (f := .getCert) (fun _ => rfl) hv hread
  rw [hreq] at hcons
  have g2 : ([v, 0x82, 0, p] ++ putU16 off ++ putU16 len).getD 1 0 = 0x82 := by simp
  refine ⟨_, b, ⟨hcons, h1, ⟨_, _, _, w, rfl, hw⟩⟩, ?_⟩
  generalize [v, 0x82, 0, p] ++ putU16 off ++ putU16 len = req at *
  have ht : ts.after req b = { ts with b := some (ts.m1m2 ++ req ++ b), m := none, cert := true } := by
    unfold Spec.Transcripts.after; rw [g2]; simp
  rw [ht]
  have hst : ∀ st : ConnState, 5 ≤ (afterState 0x02 st).code := by
    intro st; cases st <;> decide
  have := hst c.rt.state
  refine holds_late (Nat.le_trans (by decide) this) ⟨hh.a, ?_, rfl⟩ ⟨fun _ => rfl, fun _ => this⟩
  refine (addB_twice (h := c.neg.baseHash) (o := ts.b) _ _ hh.b rfl).trans ?_
  rw [resetCertificate_eq]
  show some (HashCtx.mk _ (ts.b.getD c.rt.messageA ++ _ ++ b)) = _
  rw [hh.a]; rfl

theorem sendError_sends (hel : ErrorLaw e) {code : ErrorCode} {c c' : Ctx} (h : (sendError e code : H Unit) c = .ok () c') : ∃ pkt, c'.sent = c.sent ++ [pkt] := by
  unfold sendError at h
  rw [M.bind_apply, M.get_apply] at h
  dsimp only at h
  rw [M.bind_apply, writeError_nil c { code := code } rfl, M.unwrap_some] at h
  dsimp only at h
  have key : (sendMessage e (errorBytes c.neg.version code 0)).wp c (fun _ c' => ∃ pkt, c'.sent = c.sent ++ [pkt]) (fun _ c' => ∃ pkt, c'.sent = c.sent ++ [pkt]) := by
    have hp : ∀ code', (sendPlain e (errorBytes c.neg.version code' 0)).wp c (fun _ c' => ∃ pkt, c'.sent = c.sent ++ [pkt]) (fun _ c' => ∃ pkt, c'.sent = c.sent ++ [pkt]) := by
      intro code'
      obtain ⟨pkt, hpk⟩ := hel c.neg.version code' 0
      refine ((sendPlain_wp (starts_error c.neg.version code' 0) (by decide) c).and (?_ : (sendPlain e (errorBytes c.neg.version code' 0)).wp c (fun _ _ => True) (fun _ c' => c' ≠ c))).mono ?_ ?_
      · unfold sendPlain
        rw [M.wp_bind]
        rw [hpk]
        show (do Ctx.devSend e pkt; let op ← M.unwrap (errorBytes c.neg.version code' 0)[1]?; afterSend op : M Status Ctx Unit).wp c _ _
        rw [M.wp_bind]
        unfold Ctx.devSend
        rw [M.wp_bind, M.wp_get, M.wp_bind, M.wp_set]
        cases e.send c.sent.length pkt with
        | none =>
          simp only [M.wp_pure]
          rw [M.wp_bind, M.wp_unwrap]
          rintro a ha
          have ha : a = 0x7F := (Option.some.inj ha).symm
          subst ha
          unfold M.wp
          rw [afterSend_eq _ (by decide)]
          trivial
        | some st =>
          simp only [M.wp_fail]
          intro hx
          have := congrArg (fun c : Ctx => c.sent.length) hx
          simp at this
      · rintro _ c2 ⟨⟨p, _, _, rfl⟩, _⟩; exact ⟨p, rfl⟩
      · rintro _ c2 ⟨h1 | ⟨p, _, rfl⟩, h2⟩
        · exact absurd h1 h2
        · exact ⟨p, rfl⟩
    unfold sendMessage
    rw [M.wp_bind, M.wp_get]
    rw [M.wp_ite]
    refine ⟨fun _ => ?_, fun _ => hp code⟩
    rw [M.wp_bind, M.wp_unwrap]
    rw [writeError_nil c { code := .responseTooLarge } rfl]
    rintro a ha
    have ha : a = errorBytes c.neg.version .responseTooLarge 0 := (Option.some.inj ha).symm
    subst ha
    rw [M.wp_ite]
    exact ⟨fun _ => trivial, fun _ => hp _⟩
  unfold quiet at h
  cases hx : sendMessage e (errorBytes c.neg.version code 0) c with
  | panic => rw [hx] at h; cases h
  | ok u c2 => rw [hx] at h; cases h; exact key.ok hx
  | err u c2 => rw [hx] at h; cases h; exact key.err hx

theorem challengeSig_ok {c : Ctx} {x : HashCtx} {sig : Bytes} (hx : c.rt.m1m2 = some x) (h : challengeSig e c = .ok sig) :
    ∃ d, e.crypto.hash x.algo x.data = some d ∧ e.sign c.neg.baseHash c.neg.baseAsym (Spec.signedData .challengeAuth d) = some sig := by
  unfold challengeSig at h
  rw [hx] at h
  obtain ⟨y, h1, h2⟩ := Res.bind_ok.1 h
  cases h1
  obtain ⟨d, h3, h4⟩ := Res.bind_ok.1 h2
  obtain ⟨m, h5, h6⟩ := Res.bind_ok.1 h4
  have h3 := Res.ofOption_ok.1 h3
  have h6 := Res.ofOption_ok.1 h6
  have := C40_only_signed_data c.cc .challengeAuth d m h5
  rw [this.2.2] at h6
  exact ⟨d, h3, h6⟩

theorem measurementSig_ok {c : Ctx} {x : HashCtx} {sig : Bytes} (hx : c.rt.l1l2 = some x) (h : measurementSig e none c = .ok sig) :
    ∃ d, e.crypto.hash x.algo x.data = some d ∧ e.sign c.neg.baseHash c.neg.baseAsym (Spec.signedData .measurements d) = some sig := by
  unfold measurementSig at h
  have hx : l1l2? c none = some x := hx
  rw [hx] at h
  obtain ⟨y, h1, h2⟩ := Res.bind_ok.1 h
  cases h1
  obtain ⟨d, h3, h4⟩ := Res.bind_ok.1 h2
  obtain ⟨m, h5, h6⟩ := Res.bind_ok.1 h4
  have h3 := Res.ofOption_ok.1 h3
  have h6 := Res.ofOption_ok.1 h6
  have := C40_only_signed_data c.cc .measurements d m h5
  rw [this.2.2] at h6
  exact ⟨d, h3, h6⟩

/-- the signature of CHALLENGE_AUTH covers M1/M2 with the request and the response up to it. -/
def ChallengeSigned (e : Env) (c : Ctx) (ts : Spec.Transcripts) (req rsp : Bytes) : Prop :=
  ∃ slot certHash nonce sum d sig, rsp = challengeBody c.neg.version.get slot certHash nonce sum ++ sig ∧
    e.crypto.hash c.neg.baseHash (ts.m1m2 ++ req ++ challengeBody c.neg.version.get slot certHash nonce sum) = some d ∧
    e.sign c.neg.baseHash c.neg.baseAsym (Spec.signedData .challengeAuth d) = some sig

theorem step_challenge {v : UInt8} {t rx : Bytes} {c c' : Ctx} {ts : Spec.Transcripts} (hl : DialogueLaws e) (hh : Holds ts c) (hp : Plain e rx (v :: 0x83 :: t))
    (h : processMessage e rx c = .ok true c') (ha : Answered e c c') :
    ∃ req rsp, Exchange e c (v :: 0x83 :: t) req rsp c' ∧ Holds (ts.after req rsp) c' ∧ ChallengeSigned e c ts req rsp := by
  obtain ⟨b, c1, pkt, ⟨m, req, sum, certHash, nonce, asym, hv, hcase⟩, hs, h1, h2, rfl⟩ :=
    plain_positive hp rfl (codes_challengeRsp _) (by decide) (challenge_does hl.hash hl.summary _ _) (wp_sent (k := true) (rel_challengeRsp _)) h ha
  dsimp only at hcase
  have hsent : ∀ body, (challengeCtx c m req body).sent = c.sent := fun _ => rfl
  obtain ⟨sig, k1, k2, rfl, rfl⟩ : ∃ sig, challengeSig e (challengeCtx c m req (challengeBody c.neg.version.get m.slot certHash nonce sum)) = .ok sig ∧ sig.length = asym ∧
      b = challengeBody c.neg.version.get m.slot certHash nonce sum ++ sig ∧ c1 = Ctx.resetM1M2 (challengeCtx c m req (challengeBody c.neg.version.get m.slot certHash nonce sum)) := by
    rcases hcase with g | ⟨st, _, _, g⟩
    · exact g
    · obtain ⟨p, hp⟩ := sendError_sends hl.error g
      rw [h2, hsent] at hp
      have := congrArg List.length hp
      simp at this
  obtain ⟨v', k', t', r', hb, hver, hr, rfl⟩ := hv.wire
  injection hb with hb1 hb2
  injection hb2 with hb2 hb3
  subst hb1 hb2 hb3
  have hu2 := good_used (Challenge.read_good _) hr
  obtain ⟨g1, g2⟩ := take_getD (v := v) (k := 0x83) (t := t) hu2
  obtain ⟨w, hw⟩ := starts_drop hs
  refine ⟨_, _, ⟨consumed_same (f := .challenge) (fun _ => rfl) hver hr, h1, ⟨_, _, _, w, rfl, hw⟩⟩, ?_, ?_⟩
  · generalize (v :: 0x83 :: t).take r'.used = req at *
    have ht : ∀ b, ts.after req b = { ts with b := none, m := none, cert := true } := by
      intro b; unfold Spec.Transcripts.after; rw [g2]; simp
    rw [ht]
    have hst : ∀ st : ConnState, 5 ≤ (afterState 0x03 st).code := by
      intro st; cases st <;> decide
    have := hst c.rt.state
    exact holds_late (Nat.le_trans (by decide) this) ⟨hh.a, rfl, rfl⟩ ⟨fun _ => rfl, fun _ => this⟩
  · generalize (v :: 0x83 :: t).take r'.used = req at *
    have hm : ∀ body, (challengeCtx c m req body).rt.m1m2 = some ⟨c.neg.baseHash, ts.m1m2 ++ req ++ body⟩ := by
      intro body
      refine (addB_twice (h := c.neg.baseHash) (o := ts.b) _ _ hh.b rfl).trans ?_
      show some (HashCtx.mk _ (ts.b.getD c.rt.messageA ++ _ ++ body)) = _
      rw [hh.a]; rfl
    obtain ⟨d, k3, k4⟩ := challengeSig_ok (hm _) k1
    exact ⟨_, _, _, _, d, sig, rfl, k3, k4⟩

/-- the signature of MEASUREMENTS covers L1/L2 with the request and the response up to it. -/
def MeasurementsSigned (e : Env) (c : Ctx) (ts : Spec.Transcripts) (req rsp : Bytes) : Prop :=
  ∃ number param2 record nonce, let body := measBody c.neg.version.get number param2 record nonce
    if req.getD 2 0 &&& 1 ≠ 0 then
      ∃ d sig, rsp = body ++ sig ∧ e.crypto.hash c.neg.baseHash (ts.l1l2 c.neg.version.get ++ req ++ body) = some d ∧
        e.sign c.neg.baseHash c.neg.baseAsym (Spec.signedData .measurements d) = some sig
    else rsp = body

theorem getMeas_attr {cc : Cc} {v k : UInt8} {t : Bytes} {m : GetMeas} {r' : Reader} (h : GetMeas.read cc ⟨t, 2⟩ = .ok m r') :
    ((v :: k :: t).take r'.used).getD 2 0 = m.attr ∧ 2 ≤ r'.used := by
  unfold GetMeas.read at h
  obtain ⟨attr, r1, h1, h2⟩ := M.bind_ok.1 h
  rw [rdU8_ok] at h1
  obtain ⟨k1, k2⟩ := h1
  dsimp only at k1 k2
  have hg : Rd.Good (if attr > 3 then Rd.none else do
      let op ← MeasOperation.read
      if attr &&& 1 ≠ 0 then do
        let nonce ← rdNonce
        if cc.ge11 = true then do
          let slot ← rdU8
          pure (⟨attr, op, nonce, slot⟩ : GetMeas)
        else pure ⟨attr, op, nonce, 0⟩
      else pure ⟨attr, op, List.replicate 32 0, 0⟩) := by
    have h0 := MeasOperation.good
    unfold rdNonce; rd_good
  obtain ⟨bs, hb1, hb2⟩ := hg.after h2
  have hm : m.attr = attr := by
    obtain ⟨_, h4⟩ := M.guard_ok.1 h2
    obtain ⟨op, r2, _, h6⟩ := M.bind_ok.1 h4
    rw [M.ite_ok] at h6
    rcases h6 with ⟨_, h6⟩ | ⟨_, h6⟩
    · obtain ⟨n, r3, _, h7⟩ := M.bind_ok.1 h6
      rw [M.ite_ok] at h7
      rcases h7 with ⟨_, h7⟩ | ⟨_, h7⟩
      · obtain ⟨sl, r4, _, h8⟩ := M.bind_ok.1 h7
        cases h8; rfl
      · cases h7; rfl
    · cases h6; rfl
  have hu : 3 ≤ r'.used := by rw [hb2, k2]; simp
  obtain ⟨n, hn⟩ : ∃ n, r'.used = n + 3 := ⟨r'.used - 3, by omega⟩
  rw [hn, k1, hm]
  exact ⟨by simp, by omega⟩

theorem measStart_rt (c : Ctx) (s : Bool) : (measStart none c s).rt = { c.rt with m1m2 := if c.rt.state.code < 5 then none else c.rt.m1m2, needSig := s } ∧
    (measStart none c s).neg = c.neg ∧ (measStart none c s).sent = c.sent := by
  unfold measStart; rw [resetMeas_fields]; exact ⟨rfl, rfl, rfl⟩

theorem ge12_version (c : Ctx) : (c.cc.ge12 = true) = (0x12 ≤ c.neg.version.get) := by simp [Cc.ge12, Cc.ver, Ctx.cc]

/-- GET_MEASUREMENTS, KEY_EXCHANGE and PSK_EXCHANGE: M1/M2 unless a certificate was read. -/
theorem reset_b {ts : Spec.Transcripts} {c : Ctx} (hh : Holds ts c) :
    (if c.rt.state.code < 5 then none else c.rt.m1m2) = (if ts.cert = true then ts.b else none).map (⟨c.neg.baseHash, ·⟩) := by
  by_cases h5 : c.rt.state.code < 5
  · rw [if_pos h5, cert_false hh h5]; rfl
  · rw [if_neg h5, hh.cert.1 (by omega), hh.b]; rfl

theorem step_measurements {v : UInt8} {t rx : Bytes} {c c' : Ctx} {ts : Spec.Transcripts} (hl : DialogueLaws e) (hh : Holds ts c) (hp : Plain e rx (v :: 0xE0 :: t))
    (h : processMessage e rx c = .ok true c') (ha : Answered e c c') :
    ∃ req rsp, Exchange e c (v :: 0xE0 :: t) req rsp c' ∧ Holds (ts.after req rsp) c' ∧ MeasurementsSigned e c ts req rsp := by
  obtain ⟨b, c1, pkt, ⟨m, req, number, record, nonce, asym, hv, -, hcase⟩, hs, h1, h2, rfl⟩ :=
    plain_positive hp rfl (codes_measurementRsp _ _) (by decide) (measurement_does hl.record none _ _) (wp_sent (sid := none) (k := true) (rel_measurementRsp _)) h ha
  dsimp only at hcase
  obtain ⟨f1, f2, f3⟩ := measStart_rt c m.signed
  obtain ⟨v', k', t', r', hb, hver, hr, rfl⟩ := hv.wire
  injection hb with hb1 hb2
  injection hb2 with hb2 hb3
  subst hb1 hb2 hb3
  obtain ⟨g3, hu2⟩ := getMeas_attr (v := v) (k := 0xE0) hr
  obtain ⟨g1, g2⟩ := take_getD (v := v) (k := 0xE0) (t := t) hu2
  obtain ⟨w, hw⟩ := starts_drop hs
  have hready : 3 ≤ c.rt.state.code := hv.ready
  have hge : (measStart none c m.signed).cc.ge12 = true ↔ 0x12 ≤ v := by
    rw [ge12_version, f2, ← hver, SpdmVersion.get_ofCode]
  have hst : ∀ st, afterState 0x60 st = st := fun st => by simp [afterState]
  have hvg : c.neg.version.get = v := by rw [← hver, SpdmVersion.get_ofCode]
  refine ⟨_, b, ⟨consumed_same (f := .getMeas) (fun _ => rfl) hver hr, h1, ⟨_, _, _, w, rfl, hw⟩⟩, ?_⟩
  generalize (v :: 0xE0 :: t).take r'.used = req at *
  generalize hbody : measBody c.neg.version.get number (measParam2 c m.signed m.slot) record nonce = body at *
  have hl12 : ∀ msg, (addM none msg (addM none req (measStart none c m.signed))).rt.l1l2 = some ⟨c.neg.baseHash, ts.l1l2 v ++ req ++ msg⟩ := by
    intro msg
    have e1 : (addM none req (measStart none c m.signed)).rt.l1l2 = some ⟨c.neg.baseHash, ts.l1l2 v ++ req⟩ := by
      rw [addM_l1l2 (h := c.neg.baseHash) (o := ts.m) _ (by rw [f1]; exact hh.m) (by rw [f2])]
      simp only [hge]
      rw [f1]
      show some (HashCtx.mk _ (ts.m.getD (if 0x12 ≤ v then c.rt.messageA else []) ++ req)) = _
      rw [hh.a]; rfl
    rw [addM_l1l2 (h := c.neg.baseHash) (o := some (ts.l1l2 v ++ req)) _ e1 (by show (measStart none c m.signed).neg.baseHash = _; rw [f2])]
    rfl
  have hsg : m.signed = true ↔ req.getD 2 0 &&& 1 ≠ 0 := by
    rw [g3]; unfold GetMeas.signed; simp
  have hrt : (addM none body (addM none req (measStart none c m.signed))).rt =
      { c.rt with m1m2 := if c.rt.state.code < 5 then none else c.rt.m1m2, needSig := m.signed, l1l2 := some ⟨c.neg.baseHash, ts.l1l2 v ++ req ++ body⟩ } := by
    have := hl12 body
    unfold addM at this ⊢
    dsimp only at this ⊢
    rw [this, f1]
  have hneg : (addM none body (addM none req (measStart none c m.signed))).neg = c.neg := f2
  have hsn : (addM none body (addM none req (measStart none c m.signed))).sent = c.sent := f3
  have hl12' := hl12 body
  generalize addM none body (addM none req (measStart none c m.signed)) = c2 at *
  have ht : ts.after req b = { ts with b := if ts.cert then ts.b else none, m := if req.getD 2 0 &&& 1 ≠ 0 then none else some (ts.l1l2 v ++ req ++ b) } := by
    unfold Spec.Transcripts.after; rw [g1, g2]; simp
  by_cases hsig : m.signed = true
  · rw [if_pos hsig] at hcase
    rcases hcase with ⟨sig, k1, k2, rfl, rfl⟩ | ⟨st, _, _, g⟩
    · constructor
      · rw [ht, if_pos (hsg.1 hsig)]
        have e1 : (Ctx.resetM none c2).rt = { c2.rt with l1l2 := none } := rfl
        refine holds_late ?_ ⟨?_, ?_, ?_⟩ ?_
        · show 3 ≤ (afterState 0x60 c2.rt.state).code
          rw [hst, hrt]; exact hready
        · show c2.rt.messageA = _
          rw [hrt]; exact hh.a
        · show c2.rt.m1m2 = _
          rw [hrt]
          refine (reset_b hh).trans ?_
          show _ = Option.map (fun x => HashCtx.mk c2.neg.baseHash x) _
          rw [hneg]
        · rfl
        · show 5 ≤ (afterState 0x60 c2.rt.state).code ↔ _
          rw [hst, hrt]; exact hh.cert
      · refine ⟨number, measParam2 c m.signed m.slot, record, nonce, ?_⟩
        dsimp only
        rw [hbody, if_pos (hsg.1 hsig), hvg]
        obtain ⟨d, k3, k4⟩ := measurementSig_ok hl12' k1
        rw [hneg] at k4
        exact ⟨d, sig, rfl, k3, k4⟩
    · obtain ⟨p, hp⟩ := sendError_sends hl.error g
      rw [h2, hsn] at hp
      have := congrArg List.length hp
      simp at this
  · rw [if_neg hsig] at hcase
    obtain ⟨rfl, rfl⟩ := hcase
    have hns := mt hsg.2 hsig
    constructor
    · rw [ht, if_neg hns]
      refine holds_late ?_ ⟨?_, ?_, ?_⟩ ?_
      · show 3 ≤ (afterState 0x60 c1.rt.state).code
        rw [hst, hrt]; exact hready
      · show c1.rt.messageA = _
        rw [hrt]; exact hh.a
      · show c1.rt.m1m2 = _
        rw [hrt]
        refine (reset_b hh).trans ?_
        show _ = Option.map (fun x => HashCtx.mk c1.neg.baseHash x) _
        rw [hneg]
      · show c1.rt.l1l2 = Option.map (fun x => HashCtx.mk c1.neg.baseHash x) _
        rw [hrt, hneg]; rfl
      · show 5 ≤ (afterState 0x60 c1.rt.state).code ↔ _
        rw [hst, hrt]; exact hh.cert
    · refine ⟨number, measParam2 c m.signed m.slot, record, nonce, ?_⟩
      dsimp only
      rw [hbody, if_neg hns]

/-- an exchange that was answered, for the handlers of KEY_EXCHANGE and PSK_EXCHANGE. -/
theorem exchanged_positive {x : M Status Ctx Bytes} {v k r : UInt8} {t rx : Bytes} {c c' : Ctx} (hp : Plain e rx (v :: k :: t))
    (hd : dispatchCode e (ReqRespCode.ofCode k) (v :: k :: t) = (do let b ← x; sendMessage e b)) (hpost : Post (Starts r) x) (hr65 : r ≠ 0x65)
    (hsent : ∀ b c1, x c = .ok b c1 → c1.sent = c.sent) (h : processMessage e rx c = .ok true c') (ha : Answered e c c') :
    ∃ b c1 pkt, x c = .ok b c1 ∧ Starts r b ∧ SentOne e b c c' ∧ c' = withState (afterState r c1.rt.state) (withSent pkt c1) := by
  obtain ⟨b, c1, pkt, hx, he, rfl⟩ := plain_exchanged hp hd hpost hr65 h
  obtain ⟨g1, g2, g3⟩ := answered_small ⟨[], by rw [hsent _ _ hx]; simp⟩ he ha
  rw [g1]
  exact ⟨b, c1, pkt, hx, (hpost c).ok hx, ⟨pkt, g2, by show c1.sent ++ _ = _; rw [g3]⟩, rfl⟩

theorem keyEx_used {cc : Cc} {t : Bytes} {m : KeyEx} {r' : Reader} (h : KeyEx.read cc ⟨t, 2⟩ = .ok m r') : 2 ≤ r'.used := by
  cases hd : cc.dheSize? with
  | some n => exact good_used (KeyEx.read_good (by rw [hd]; rfl)) h
  | none =>
    exfalso
    unfold KeyEx.read at h
    obtain ⟨_, _, _, h⟩ := M.bind_ok.1 h
    obtain ⟨_, h⟩ := M.guard_ok.1 h
    obtain ⟨_, _, _, h⟩ := M.bind_ok.1 h
    obtain ⟨_, _, _, h⟩ := M.bind_ok.1 h
    obtain ⟨_, _, _, h⟩ := M.bind_ok.1 h
    obtain ⟨_, _, _, h⟩ := M.bind_ok.1 h
    obtain ⟨_, _, _, h⟩ := M.bind_ok.1 h
    obtain ⟨_, _, h1, h⟩ := M.bind_ok.1 h
    unfold rdDhe at h1
    rw [hd] at h1
    cases h1

/-- what both exchanges do to the transcripts. -/
theorem holds_exchange {ts : Spec.Transcripts} {c c1 : Ctx} {req b pkt : Bytes} {r k : UInt8} (hh : Holds ts c) (hready : 3 ≤ c.rt.state.code)
    (g2 : req.getD 1 0 = k) (hk : k = 0xE4 ∧ r = 0x64 ∨ k = 0xE6 ∧ r = 0x66)
    (h1 : c1.rt.messageA = c.rt.messageA) (h2 : c1.rt.m1m2 = if c.rt.state.code < 5 then none else c.rt.m1m2) (h3 : c1.rt.l1l2 = none)
    (h4 : c1.rt.state = c.rt.state) (h5 : c1.neg.baseHash = c.neg.baseHash) :
    Holds (ts.after req b) (withState (afterState r c1.rt.state) (withSent pkt c1)) := by
  have ht : ts.after req b = { ts with b := if ts.cert then ts.b else none, m := none } := by
    unfold Spec.Transcripts.after
    rw [g2]
    rcases hk with ⟨rfl, _⟩ | ⟨rfl, _⟩ <;> simp
  have hst : ∀ st, afterState r st = st := by
    rcases hk with ⟨_, rfl⟩ | ⟨_, rfl⟩ <;> exact fun st => by simp [afterState]
  rw [ht]
  refine holds_late ?_ ⟨h1.trans hh.a, ?_, h3⟩ ?_
  · show 3 ≤ (afterState r c1.rt.state).code
    rw [hst, h4]; exact hready
  · show c1.rt.m1m2 = Option.map (fun x => HashCtx.mk c1.neg.baseHash x) _
    rw [h2, h5]; exact reset_b hh
  · show 5 ≤ (afterState r c1.rt.state).code ↔ _
    rw [hst, h4]; exact hh.cert

theorem keyExchange_left {bytes b : Bytes} {c c' : Ctx} (ht : TableOk 0 c.sessions) (hl : c.sessions.length < 0xFFFD)
    (h : keyExchangeRsp e bytes c = .ok b c') :
    ∃ m req sum opaq certHash exchange final rspId, KeyExchangeValid e c bytes m req sum opaq certHash exchange final rspId ∧
      c'.rt.messageA = c.rt.messageA ∧ c'.rt.m1m2 = (if c.rt.state.code < 5 then none else c.rt.m1m2) ∧ c'.rt.l1l2 = none ∧ c'.rt.state = c.rt.state ∧
      c'.neg.baseHash = c.neg.baseHash ∧ c'.sent = c.sent := by
  obtain ⟨m, req, sum, opaq, certHash, exchange, final, rspId, s1, c2, root, master, hv, g1, g2, g3, g4, g5, g6⟩ := keyExchangeRsp_ok ht hl h
  obtain ⟨random, sig, th, th1, s2, k1, k2, k3, k4, k5, k6, k7, k8⟩ := keyExchangeBody_ok g5 (by rw [g3]; rfl) g6
  obtain ⟨l', rfl⟩ := g4
  refine ⟨m, req, sum, opaq, certHash, exchange, final, rspId, hv, ?_⟩
  have hx := resetExchange_eq (.inl rfl) c (k := .reqKeyExchange)
  have key : ∃ l ls, c' = { exchangeCtx c m with sessions := l, rt := { (exchangeCtx c m).rt with lastSession := ls } } := by
    cases hcl : ({ exchangeCtx c m with sessions := l' } : Ctx).cc.inClear with
    | true =>
      obtain ⟨_, _, _, _, l, hl⟩ := k7 hcl
      exact ⟨l, _, hl⟩
    | false =>
      obtain ⟨_, _, _, _, l, hl⟩ := k8 hcl
      exact ⟨l, _, hl⟩
  obtain ⟨l, ls, rfl⟩ := key
  unfold exchangeCtx
  rw [hx]
  exact ⟨rfl, rfl, rfl, rfl, rfl, rfl⟩

theorem pskExchange_left {bytes b : Bytes} {c c' : Ctx} (ht : TableOk 0 c.sessions) (hl : c.sessions.length < 0xFFFD)
    (h : pskExchangeRsp e bytes c = .ok b c') :
    ∃ m req sum opaq context rspId, PskExchangeValid e c bytes m req sum opaq context rspId ∧
      c'.rt.messageA = c.rt.messageA ∧ c'.rt.m1m2 = (if c.rt.state.code < 5 then none else c.rt.m1m2) ∧ c'.rt.l1l2 = none ∧ c'.rt.state = c.rt.state ∧
      c'.neg.baseHash = c.neg.baseHash ∧ c'.sent = c.sent := by
  obtain ⟨m, req, sum, opaq, context, rspId, s1, c2, slot, hv, g3, g4, g5, g6⟩ := pskExchangeRsp_ok ht hl h
  obtain ⟨l', rfl⟩ := g4
  have hctx : c.cc.pskNoContext = true → context = [] := by
    intro hc
    have := hv.context
    unfold PskContextIs at this
    rw [if_pos hc] at this
    exact this.2
  obtain ⟨th1, mac, s2, s', k1, k2, k3, rfl, k5, k6, l, hl⟩ := pskExchangeBody_ok g5 (by rw [g3]; rfl) hctx g6
  refine ⟨m, req, sum, opaq, context, rspId, hv, ?_⟩
  rw [hl]
  have hx := resetExchange_eq (.inr rfl) c (k := .reqPskExchange)
  unfold pskCtx
  rw [hx]
  exact ⟨rfl, rfl, rfl, rfl, rfl, rfl⟩

theorem step_keyExchange {v : UInt8} {t rx : Bytes} {c c' : Ctx} {ts : Spec.Transcripts} (hh : Holds ts c) (htab : TableOk 0 c.sessions)
    (hlen : c.sessions.length < 0xFFFD) (hp : Plain e rx (v :: 0xE4 :: t)) (h : processMessage e rx c = .ok true c') (ha : Answered e c c') :
    ∃ req rsp, Exchange e c (v :: 0xE4 :: t) req rsp c' ∧ Holds (ts.after req rsp) c' := by
  obtain ⟨b, c1, pkt, hx, hs, h1, rfl⟩ := exchanged_positive hp rfl (post_keyExchangeRsp _) (by decide)
    (fun b c1 hx => by obtain ⟨_, _, _, _, _, _, _, _, _, _, _, _, _, _, h⟩ := keyExchange_left htab hlen hx; exact h) h ha
  obtain ⟨m, req, sum, opaq, certHash, exchange, final, rspId, hv, e1, e2, e3, e4, e5, e6⟩ := keyExchange_left htab hlen hx
  obtain ⟨v', k', t', r', hb, hver, hr, rfl⟩ := hv.wire
  injection hb with hb1 hb2
  injection hb2 with hb2 hb3
  subst hb1 hb2 hb3
  obtain ⟨g1, g2⟩ := take_getD (v := v) (k := 0xE4) (t := t) (keyEx_used hr)
  obtain ⟨w, hw⟩ := starts_drop hs
  exact ⟨_, b, ⟨consumed_same (f := .keyEx) (fun _ => rfl) hver hr, h1, ⟨_, _, _, w, rfl, hw⟩⟩,
    holds_exchange hh hv.ready g2 (.inl ⟨rfl, rfl⟩) e1 e2 e3 e4 e5⟩

theorem step_pskExchange {v : UInt8} {t rx : Bytes} {c c' : Ctx} {ts : Spec.Transcripts} (hh : Holds ts c) (htab : TableOk 0 c.sessions)
    (hlen : c.sessions.length < 0xFFFD) (hp : Plain e rx (v :: 0xE6 :: t)) (h : processMessage e rx c = .ok true c') (ha : Answered e c c') :
    ∃ req rsp, Exchange e c (v :: 0xE6 :: t) req rsp c' ∧ Holds (ts.after req rsp) c' := by
  obtain ⟨b, c1, pkt, hx, hs, h1, rfl⟩ := exchanged_positive hp rfl (post_pskExchangeRsp _) (by decide)
    (fun b c1 hx => by obtain ⟨_, _, _, _, _, _, _, _, _, _, _, _, h⟩ := pskExchange_left htab hlen hx; exact h) h ha
  obtain ⟨m, req, sum, opaq, context, rspId, hv, e1, e2, e3, e4, e5, e6⟩ := pskExchange_left htab hlen hx
  obtain ⟨v', k', t', r', hb, hver, hr, rfl⟩ := hv.wire
  injection hb with hb1 hb2
  injection hb2 with hb2 hb3
  subst hb1 hb2 hb3
  obtain ⟨g1, g2⟩ := take_getD (v := v) (k := 0xE6) (t := t) (good_used (PskEx.read_good _) hr)
  obtain ⟨w, hw⟩ := starts_drop hs
  exact ⟨_, b, ⟨consumed_same (f := .pskEx) (fun _ => rfl) hver hr, h1, ⟨_, _, _, w, rfl, hw⟩⟩,
    holds_exchange hh hv.ready g2 (.inr ⟨rfl, rfl⟩) e1 e2 e3 e4 e5⟩

/-! ### the property -/

/-- A history without errors, outside sessions: GET_VERSION, GET_CAPABILITIES, NEGOTIATE_ALGORITHMS, GET_DIGESTS, GET_CERTIFICATE, CHALLENGE,
GET_MEASUREMENTS, KEY_EXCHANGE and PSK_EXCHANGE in any order, each answered by one packet that is not an ERROR. -/
inductive Talk (c0 : Ctx) : List (Env × Bytes) → Ctx → Prop
  | nil : Talk c0 [] c0
  | step {h c e rx v k t c'} : Talk c0 h c → DialogueLaws e → Plain e rx (v :: k :: t) → k ∈ [0x84, 0xE1, 0xE3, 0x81, 0x82, 0x83, 0xE0, 0xE4, 0xE6] →
      processMessage e rx c = .ok true c' → Answered e c c' → Talk c0 (h ++ [(e, rx)]) c'

/-- What was said in a history: the requests, and the responses sent. -/
inductive Dialogue (c0 : Ctx) : List (Bytes × Bytes) → Ctx → Prop
  | nil : Dialogue c0 [] c0
  | step {l c e rx bytes req rsp c'} : Dialogue c0 l c → Plain e rx bytes → processMessage e rx c = .ok true c' → Exchange e c bytes req rsp c' →
      Dialogue c0 (l ++ [(req, rsp)]) c'

theorem Talk.run {c0 c : Ctx} {h : List (Env × Bytes)} (ht : Talk c0 h c) : Run c0 h c ∧ ∀ p ∈ h, HashLaw p.1 := by
  induction ht with
  | nil => exact ⟨.nil, by simp⟩
  | step _ hl _ _ hx _ ih =>
    refine ⟨ih.1.ok hx, fun p hp => ?_⟩
    rw [List.mem_append, List.mem_singleton] at hp
    rcases hp with hp | rfl
    · exact ih.2 p hp
    · exact hl.hash

/-- a responder as it is set up, with chains no longer than the buffer that holds them. -/
structure Setup (c0 : Ctx) (n : Nat) : Prop where
  few : n < 0xFFFD
  new : ∃ cfg data root, c0 = Ctx.new cfg { chainData := data, peerRoot := root } n ∧ ∀ i d, data i = some d → d.length ≤ 4096

theorem Talk.small {c0 c : Ctx} {n : Nat} {h : List (Env × Bytes)} (hs : Setup c0 n) (ht : Talk c0 h c) : ∀ i ch, c.prov.chain i = some ch → ch.length < 65536 := by
  obtain ⟨cfg, data, root, rfl, hd⟩ := hs.new
  intro i ch hi
  obtain ⟨p, hp, d, hash, h1, b, en, rt, h2, h3, h4, h5, rfl⟩ := (C54_history_partial cfg data root n h c ht.run.1 ht.run.2).2 i ch hi
  have h6 := hd i d h1
  have h7 := hashSize_le (c := { neg := { baseHash := hash } }) (ht.run.2 p hp _ _ _ h5)
  simp [putU16]
  omega

theorem Talk.table {c0 c : Ctx} {n : Nat} {h : List (Env × Bytes)} (hs : Setup c0 n) (ht : Talk c0 h c) : c.sessions.length < 0xFFFD ∧ TableOk 0 c.sessions := by
  obtain ⟨cfg, data, root, rfl, -⟩ := hs.new
  have hr : Reachable n c := ⟨cfg, _, h, ht.run.1, ht.run.2⟩
  obtain ⟨h1, h2⟩ := hr.table hs.few
  exact ⟨by have := hs.few; omega, h2⟩

theorem holds_new {c0 : Ctx} {n : Nat} (hs : Setup c0 n) : Holds {} c0 := by
  obtain ⟨cfg, data, root, rfl, -⟩ := hs.new
  exact ⟨⟨rfl, rfl, rfl⟩, (show 5 ≤ (0 : Nat) ↔ false = true by decide), fun _ => ⟨rfl, rfl⟩, fun _ => by decide, fun _ => by decide⟩

theorem step_any {v k : UInt8} {t rx : Bytes} {c c' : Ctx} {ts : Spec.Transcripts} (hl : DialogueLaws e) (hh : Holds ts c) (htab : TableOk 0 c.sessions)
    (hlen : c.sessions.length < 0xFFFD) (hsz : ∀ i ch, c.prov.chain i = some ch → ch.length < 65536) (hp : Plain e rx (v :: k :: t))
    (hk : k ∈ [0x84, 0xE1, 0xE3, 0x81, 0x82, 0x83, 0xE0, 0xE4, 0xE6]) (h : processMessage e rx c = .ok true c') (ha : Answered e c c') :
    ∃ req rsp, Exchange e c (v :: k :: t) req rsp c' ∧ Holds (ts.after req rsp) c' := by
  simp only [List.mem_cons, List.not_mem_nil, or_false] at hk
  rcases hk with rfl | rfl | rfl | rfl | rfl | rfl | rfl | rfl | rfl
  · exact step_version hp h ha
  · exact step_capabilities hh hp h ha
  · exact step_algorithms hh hp h ha
  · exact step_digests hl.hash hh hp h ha
  · exact step_certificate hh hsz hp h ha
  · obtain ⟨req, rsp, h1, h2, _⟩ := step_challenge hl hh hp h ha
    exact ⟨req, rsp, h1, h2⟩
  · obtain ⟨req, rsp, h1, h2, _⟩ := step_measurements hl hh hp h ha
    exact ⟨req, rsp, h1, h2⟩
  · exact step_keyExchange hh htab hlen hp h ha
  · exact step_pskExchange hh htab hlen hp h ha

theorem Spec.Transcripts.of_snoc (l : List (Bytes × Bytes)) (x : Bytes × Bytes) : Spec.Transcripts.of (l ++ [x]) = (Spec.Transcripts.of l).after x.1 x.2 := by
  simp [Spec.Transcripts.of]

theorem Talk.holds {c0 c : Ctx} {n : Nat} {h : List (Env × Bytes)} (hs : Setup c0 n) (ht : Talk c0 h c) : ∃ l, Dialogue c0 l c ∧ Holds (Spec.Transcripts.of l) c := by
  induction ht with
  | nil => exact ⟨[], .nil, holds_new hs⟩
  | step hprev hl hp hk hx ha ih =>
    obtain ⟨l, hd, hh⟩ := ih
    obtain ⟨hlen, htab⟩ := hprev.table hs
    obtain ⟨req, rsp, h1, h2⟩ := step_any hl hh htab hlen (hprev.small hs) hp hk hx ha
    exact ⟨l ++ [(req, rsp)], .step hd hp hx h1, by rw [Spec.Transcripts.of_snoc]; exact h2⟩

/-- In every history without errors, of any length, the responder's transcripts are the concatenations the specification prescribes of the requests
it read and the responses it sent.  (Missing: histories with errors, `C23_refused_violated`, `C23_overflow_violated`; the restart of M1/M2, `C23_reset_violated`;
requests inside sessions.) -/
theorem C23_dialogue_partial {c0 c : Ctx} {n : Nat} {h : List (Env × Bytes)} (hs : Setup c0 n) (ht : Talk c0 h c) :
    ∃ l, Dialogue c0 l c ∧ Covers (Spec.Transcripts.of l) c := by
  obtain ⟨l, h1, h2⟩ := ht.holds hs
  exact ⟨l, h1, h2.toCovers⟩

/-- A CHALLENGE answered after any such history: CHALLENGE_AUTH ends with the signature of the hash of M1/M2: message A, the exchanges since the last
GET_DIGESTS, the CHALLENGE and the response up to the signature. -/
theorem C23_challenge_signature {c0 c c' : Ctx} {n : Nat} {h : List (Env × Bytes)} {rx t : Bytes} {v : UInt8} (hs : Setup c0 n) (ht : Talk c0 h c)
    (hl : DialogueLaws e) (hp : Plain e rx (v :: 0x83 :: t)) (hx : processMessage e rx c = .ok true c') (ha : Answered e c c') :
    ∃ l req rsp, Dialogue c0 l c ∧ Exchange e c (v :: 0x83 :: t) req rsp c' ∧ ChallengeSigned e c (Spec.Transcripts.of l) req rsp := by
  obtain ⟨l, h1, h2⟩ := ht.holds hs
  obtain ⟨req, rsp, h3, _, h4⟩ := step_challenge hl h2 hp hx ha
  exact ⟨l, req, rsp, h1, h3, h4⟩

/-- A GET_MEASUREMENTS answered after any such history: MEASUREMENTS is signed exactly if that was asked for, over the hash of L1/L2: message A
(from 1.2 on), the measurement exchanges since the last signature or other request, the request and the response up to the signature. -/
theorem C23_measurements_signature {c0 c c' : Ctx} {n : Nat} {h : List (Env × Bytes)} {rx t : Bytes} {v : UInt8} (hs : Setup c0 n) (ht : Talk c0 h c)
    (hl : DialogueLaws e) (hp : Plain e rx (v :: 0xE0 :: t)) (hx : processMessage e rx c = .ok true c') (ha : Answered e c c') :
    ∃ l req rsp, Dialogue c0 l c ∧ Exchange e c (v :: 0xE0 :: t) req rsp c' ∧ MeasurementsSigned e c (Spec.Transcripts.of l) req rsp := by
  obtain ⟨l, h1, h2⟩ := ht.holds hs
  obtain ⟨req, rsp, h3, _, h4⟩ := step_measurements hl h2 hp hx ha
  exact ⟨l, req, rsp, h1, h3, h4⟩

/-- A KEY_EXCHANGE answered after any such history, without HANDSHAKE_IN_THE_CLEAR: the signature covers the hash of message A, the digest of the
certificate chain, the request and the response up to the signature. -/
theorem C23_key_exchange_signature {c0 c c' : Ctx} {n : Nat} {h : List (Env × Bytes)} {rx t : Bytes} {v : UInt8} (hs : Setup c0 n) (ht : Talk c0 h c)
    (hp : Plain e rx (v :: 0xE4 :: t)) (hclear : c.cc.inClear = false) (hx : processMessage e rx c = .ok true c') :
    ∃ l m req sum opaq certHash exchange final rspId random d sig mac, Dialogue c0 l c ∧
      KeyExchangeValid e c (v :: 0xE4 :: t) m req sum opaq certHash exchange final rspId ∧
      let body := keyExchangeRspBody c.neg.version.get c.config.heartbeat rspId e.mutAuth random exchange sum opaq
      e.crypto.hash c.neg.baseHash ((Spec.Transcripts.of l).a ++ certHash ++ req ++ body) = some d ∧
      e.sign c.neg.baseHash c.neg.baseAsym (Spec.signedData .keyExchangeRsp d) = some sig ∧
      SentOne e (outgoing c (body ++ sig ++ mac)) c c' := by
  obtain ⟨l, h1, h2⟩ := ht.holds hs
  have hr : Reachable n c := by
    obtain ⟨cfg, data, root, rfl, -⟩ := hs.new
    exact ⟨cfg, _, h, ht.run.1, ht.run.2⟩
  obtain ⟨m, req, sum, opaq, certHash, exchange, final, rspId, random, th, sig, th1, mac, s, hv, hrn, k1, k2, k3, k4, k5, -⟩ :=
    C52_key_exchange_partial n hs.few c c' hr rx v t hp hclear hx
  rw [h2.a] at k1
  exact ⟨l, m, req, sum, opaq, certHash, exchange, final, rspId, random, th, sig, mac, h1, hv, k1, k2, k5⟩

/-! ### concrete cases -/

theorem intoBuf_put (b : Bytes) (cap : Nat) : Ctx.intoBuf (Toy.put b) cap = if b.length ≤ cap then .ok b else .err .encapFail := by
  unfold Ctx.intoBuf Toy.put
  rw [List.length_replicate]
  by_cases h : b.length ≤ cap
  · rw [if_pos h, if_pos h]
    dsimp only
    rw [if_pos h, List.take_left' rfl]
  · rw [if_neg h, if_neg h]

theorem toy_encap {b pkt : Bytes} (h : Ctx.encap Toy.env b = .ok pkt) : pkt = 5 :: b := by
  have h1 : Ctx.encap Toy.env b = if (5 :: b).length ≤ 4160 then .ok (5 :: b) else .err .encapFail := intoBuf_put (5 :: b) 4160
  rw [h1] at h
  by_cases hb : (5 :: b).length ≤ 4160
  · rw [if_pos hb] at h; exact (Res.ok.inj h).symm
  · rw [if_neg hb] at h; cases h

theorem toy_laws : DialogueLaws Toy.env where
  hash := toy_hashLaw
  summary v h s m t d hd := by
    unfold Toy.env at hd
    dsimp only at hd
    cases hn : BaseHash.size? h with
    | none => rw [hn] at hd; cases hd
    | some n => rw [hn] at hd; cases hd; simp
  record v s h i r hr := by
    unfold Toy.env at hr
    cases hr
    show [UInt8.ofNat i, 1, 2, 3].length ≤ 3500
    simp
  error v code data := by
    refine ⟨5 :: errorBytes v code data, ?_⟩
    have h1 : Ctx.encap Toy.env (errorBytes v code data) = if (5 :: errorBytes v code data).length ≤ 4160 then .ok (5 :: errorBytes v code data) else .err .encapFail :=
      intoBuf_put (5 :: errorBytes v code data) 4160
    rw [h1, if_pos]
    simp [errorBytes]

/-- run the toy responder as long as every request is answered, by something other than ERROR. -/
def toyTalk : List Bytes → Ctx → Option Ctx
  | [], c => some c
  | rx :: l, c =>
    match processMessage Toy.env rx c with
    | .ok true c' =>
      match received Toy.env rx with
      | some (_ :: k :: _, false) =>
        if k ∈ [0x84, 0xE1, 0xE3, 0x81, 0x82, 0x83, 0xE0, 0xE4, 0xE6] ∧ c'.sent.length = c.sent.length + 1 ∧ (c'.sent.getLastD []).getD 2 0 ≠ 0x7F ∧
          c'.sent.take c.sent.length = c.sent then toyTalk l c' else none
      | _ => none
    | _ => none

theorem toy_talk {c0 : Ctx} {l : List Bytes} : ∀ {h c c'}, Talk c0 h c → toyTalk l c = some c' → Talk c0 (h ++ l.map (Toy.env, ·)) c' := by
  induction l with
  | nil => intro h c c' ht hl; cases hl; simpa using ht
  | cons rx l ih =>
    intro h c c' ht hl
    unfold toyTalk at hl
    cases hx : processMessage Toy.env rx c with
    | err x y => rw [hx] at hl; cases hl
    | panic => rw [hx] at hl; cases hl
    | ok b c1 =>
      rw [hx] at hl
      cases b with
      | false => cases hl
      | true =>
        dsimp only at hl
        split at hl
        · rename_i v k t hr
          split at hl
          · rename_i hc
            obtain ⟨hk, hlen, hne, hpre⟩ := hc
            have ha : Answered Toy.env c c1 := by
              have hcut : c1.sent = c.sent ++ c1.sent.drop c.sent.length := by
                conv => lhs; rw [← List.take_append_drop c.sent.length c1.sent, hpre]
              have hl1 : (c1.sent.drop c.sent.length).length = 1 := by rw [List.length_drop]; omega
              obtain ⟨p, hp⟩ := List.length_eq_one_iff.1 hl1
              rw [hp] at hcut
              refine ⟨p, hcut, fun b hb he => ?_⟩
              have hp5 := toy_encap he
              rw [hcut] at hne
              subst hp5
              apply hne
              obtain ⟨w, t, rfl⟩ := hb
              simp
            have h2 := ih (Talk.step ht toy_laws (show Plain Toy.env rx (v :: k :: t) from hr) hk hx ha) hl
            simpa using h2
          · cases hl
        · cases hl

theorem toy_setup : Setup Toy.ctx0 2 where
  few := by decide
  new := ⟨Toy.cfg, _, _, rfl, fun i d h => by
    split at h
    · cases h; simp
    · cases h⟩

/-- GET_DIGESTS -/
def digestsPacket : Bytes := [5, 0x12, 0x81, 0, 0]
/-- GET_CERTIFICATE for slot 0, at an offset -/
def certificatePacket (off : UInt8) : Bytes := [5, 0x12, 0x82, 0, 0, off, 0, 0, 4]
/-- CHALLENGE for slot 0 -/
def challengePacket : Bytes := [5, 0x12, 0x83, 0, 0] ++ List.replicate 32 9
/-- GET_MEASUREMENTS for all measurements, unsigned or signed -/
def measurementsPacket : Bool → Bytes
  | false => [5, 0x12, 0xE0, 0, 0xFF]
  | true => [5, 0x12, 0xE0, 1, 0xFF] ++ List.replicate 32 9 ++ [0]

def dialoguePackets : List Bytes :=
  [Toy.version, Toy.capabilities, Toy.algorithms, digestsPacket, certificatePacket 0, challengePacket, measurementsPacket false, measurementsPacket true, Toy.keyExchange,
    digestsPacket, certificatePacket 0, measurementsPacket false]

/-- A dialogue with all kinds of requests meets the hypotheses of the theorems; after it there are all of message A, M1/M2 and L1/L2. -/
theorem dialogue_case : ((toyTalk dialoguePackets Toy.ctx0).map fun c => (c.rt.messageA.length, c.rt.m1m2.map (·.data.length), c.rt.l1l2.map (·.data.length))) =
    some (156, some 256, some 206) := by
  decide +kernel

/-- The signature over CHALLENGE_AUTH is one of a dialogue: the hypotheses of `C23_challenge_signature` are met, and so are those of
`C23_measurements_signature` and `C23_key_exchange_signature`. -/
example : ∃ h c, Talk Toy.ctx0 h c ∧ ∃ c', processMessage Toy.env challengePacket c = .ok true c' ∧ Answered Toy.env c c' := by
  have h0 : ∃ c, toyTalk (dialoguePackets.take 6) Toy.ctx0 = some c := Option.isSome_iff_exists.1 (by decide +kernel)
  obtain ⟨c', h1⟩ := h0
  have := toy_talk .nil h1
  generalize hg : [] ++ List.map (fun x => (Toy.env, x)) (dialoguePackets.take 6) = g at this
  cases this with
  | nil => exact absurd hg (by decide +kernel)
  | @step h c e rx v k t c' ht hl hp hk hx ha =>
    have h2 := (List.append_inj' (show (dialoguePackets.take 5).map (Toy.env, ·) ++ [(Toy.env, challengePacket)] = h ++ [(e, rx)] by rw [← hg]; rfl) rfl).2
    injection h2 with h2
    injection h2 with h2 h3
    subst h2 h3
    exact ⟨h, c, ht, c', hx, ha⟩

/-- what the responder holds of M1/M2 after the packets -/
def toyM1M2 (l : List Bytes) : Option (Option Bytes) := (Toy.runAll Toy.env Toy.ctx0 l).map fun c => c.rt.m1m2.map (·.data)

/-- GET_MEASUREMENTS ends an authentication that has not been completed: DSP0274 has M1/M2 start anew.  After GET_DIGESTS alone the responder does
that; after GET_CERTIFICATE it does not (finding F13). -/
theorem C23_reset_violated :
    toyM1M2 (dialoguePackets.take 4 ++ [measurementsPacket false]) = some none ∧
    (toyM1M2 (dialoguePackets.take 5)).bind id ≠ none ∧
    toyM1M2 (dialoguePackets.take 5 ++ [measurementsPacket false]) = toyM1M2 (dialoguePackets.take 5) := by
  decide +kernel

/-- A request that is refused leaves its bytes in M1/M2 (finding F27): here GET_CERTIFICATE with an offset behind the end of the chain. -/
theorem C23_refused_violated :
    (Toy.runAll Toy.env Toy.ctx0 (dialoguePackets.take 4 ++ [certificatePacket 99])).map (fun c => (c.sent.getLastD []).take 3) = some [5, 0x12, 0x7F] ∧
    toyM1M2 (dialoguePackets.take 4 ++ [certificatePacket 99]) =
      (toyM1M2 (dialoguePackets.take 4)).map (·.map (· ++ (certificatePacket 99).drop 1)) := by
  decide +kernel

/-- Message A holds 156 bytes.  A requester whose first NEGOTIATE_ALGORITHMS failed and that tries again gets ALGORITHMS, but the response is not
in message A (finding F29). -/
theorem C23_overflow_violated :
    (Toy.runAll Toy.env Toy.ctx0 [Toy.version, Toy.capabilities, algorithmsHash 0]).map (fun c => ((c.sent.getLastD []).take 3, c.rt.messageA.length)) =
      some ([5, 0x12, 0x7F], 104) ∧
    (Toy.runAll Toy.env Toy.ctx0 [Toy.version, Toy.capabilities, algorithmsHash 0, Toy.algorithms]).map
        (fun c => (c.rt.state, (c.sent.getLastD []).take 3, c.rt.messageA.drop 104)) =
      some (.negotiated, [5, 0x12, 0x63], Toy.algorithms.drop 1) := by
  decide +kernel

end Verif.Props
