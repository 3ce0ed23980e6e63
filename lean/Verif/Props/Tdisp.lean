/-
TDISP: the state of the interface (C43).
-/
import Verif.Spec.Tdisp

namespace Verif.Props
open Tdisp Spec.Tdi

theorem tdispError_eq (d : Device) (c : UInt16) (t : Tdi) :
    tdispError d c t = if d t.log .erase then .ok (answer 0x7F (putU16 c ++ [0, 0, 0, 0, 0, 0]) t) { t with state := .error, log := t.log ++ [(.erase, true)] } else .panic := by
  unfold tdispError
  simp only [M.bind_apply, M.get_apply, call]
  cases d t.log .erase <;> rfl

theorem code_answer (k : UInt8) (b : Bytes) (t : Tdi) : code (answer k b t).bytes = k := rfl

/-- what a request does, by the message type of the response. -/
structure Effect (d : Device) (k : UInt8) (t : Tdi) (a : Answer) (t' : Tdi) : Prop where
  /-- the response is the one to the request, or TDISP_ERROR -/
  code : code a.bytes = k - 0x80 ∨ code a.bytes = 0x7F
  /-- LOCK: from CONFIG_UNLOCKED, the device initialised and locked -/
  lock : Spec.Tdi.code a.bytes = 0x03 → k = 0x83 ∧ t.state = .configUnlocked ∧ t' = { t with state := .configLocked, log := t.log ++ [(.init, true), (.lock, true)] }
  /-- START: from CONFIG_LOCKED, the device tracks changes -/
  start : Spec.Tdi.code a.bytes = 0x06 → k = 0x86 ∧ t.state = .configLocked ∧ t' = { t with state := .run, log := t.log ++ [(.track, true)] }
  /-- STOP: from any state, confidential data erased and the device unlocked -/
  stop : Spec.Tdi.code a.bytes = 0x07 → k = 0x87 ∧ t' = { t with state := .configUnlocked, log := t.log ++ [(.erase, true), (.unlock, true)] }
  /-- TDISP_ERROR: confidential data erased last; a device that was locked on the way was locked by this LOCK -/
  error : Spec.Tdi.code a.bytes = 0x7F → ∃ l, t' = { t with state := .error, log := t.log ++ l ++ [(.erase, true)] }
  /-- anything else changes nothing -/
  other : ¬ moves (some (Spec.Tdi.code a.bytes)) → t' = t
  /-- the request is only served in RUN -/
  run : Spec.Tdi.code a.bytes = 0x08 ∨ Spec.Tdi.code a.bytes = 0x09 ∨ Spec.Tdi.code a.bytes = 0x0A → t.state = .run

theorem effect_error {d : Device} {k : UInt8} {c : UInt16} {l : List (Call × Bool)} {t t1 t' : Tdi} {a : Answer} (h1 : t1 = { t with log := t.log ++ l })
    (h : tdispError d c t1 = .ok a t') : Effect d k t a t' := by
  rw [tdispError_eq] at h
  cases hd : d t1.log .erase with
  | false => rw [hd] at h; cases h
  | true =>
    rw [hd] at h
    obtain ⟨rfl, rfl⟩ := Out.ok.inj h
    subst h1
    have hc : ∀ b : Bytes, code (answer 0x7F b { t with log := t.log ++ l }).bytes = 0x7F := fun b => rfl
    refine ⟨.inr (hc _), ?_, ?_, ?_, fun _ => ⟨l, rfl⟩, ?_, ?_⟩ <;> rw [hc] <;> intro h
    · exact absurd h (by decide)
    · exact absurd h (by decide)
    · exact absurd h (by decide)
    · exact absurd (.inr (.inr (.inr rfl))) h
    · exact absurd h (by decide)

theorem effect_reply {d : Device} {k r : UInt8} {f : Tdi → Bytes} {t t' : Tdi} {a : Answer} (hr : r = k - 0x80) (hm : ¬ moves (some r))
    (hs : r = 0x08 ∨ r = 0x09 ∨ r = 0x0A → t.state = .run) (h : reply r f t = .ok a t') : Effect d k t a t' := by
  obtain ⟨rfl, rfl⟩ := Out.ok.inj h
  have hc : ∀ b : Bytes, code (answer r b t).bytes = r := fun b => rfl
  refine ⟨.inl ((hc _).trans hr), ?_, ?_, ?_, ?_, ?_, ?_⟩ <;> rw [hc]
  · exact fun h => absurd (.inl (congrArg some h)) hm
  · exact fun h => absurd (.inr (.inl (congrArg some h))) hm
  · exact fun h => absurd (.inr (.inr (.inl (congrArg some h)))) hm
  · exact fun h => absurd (.inr (.inr (.inr (congrArg some h)))) hm
  · exact fun _ => rfl
  · exact hs

theorem onlyIn_ok {d : Device} {s : State} {x : M Status Tdi Answer} {t t' : Tdi} {a : Answer} (h : onlyIn d s x t = .ok a t') :
    (tdispError d invalidState t = .ok a t') ∨ t.state = s ∧ x t = .ok a t' := by
  unfold onlyIn at h
  rw [M.bind_apply, M.get_apply] at h
  dsimp only at h
  by_cases hs : t.state = s
  · rw [if_neg (by exact fun h => h hs)] at h
    exact .inr ⟨hs, h⟩
  · rw [if_pos hs] at h
    exact .inl h

theorem lock_effect {d : Device} {t t' : Tdi} {a : Answer} (hs : t.state = .configUnlocked) (h : lock d t = .ok a t') : Effect d 0x83 t a t' := by
  unfold lock at h
  simp only [M.bind_apply, M.get_apply, call] at h
  cases h1 : d t.log .init with
  | false => rw [h1] at h; exact effect_error (l := [(.init, false)]) rfl h
  | true =>
    rw [h1] at h
    simp only [if_true] at h
    cases h2 : d (t.log ++ [(.init, true)]) .lock with
    | false =>
      simp only [M.bind_apply, call, h2] at h
      exact effect_error (l := [(.init, true), (.lock, false)]) (by simp) h
    | true =>
      simp only [M.bind_apply, call, h2, if_true] at h
      obtain ⟨rfl, rfl⟩ := Out.ok.inj h
      have hc : ∀ b : Bytes, code (answer 0x03 b t).bytes = 0x03 := fun b => rfl
      refine ⟨.inl (hc _), ?_, ?_, ?_, ?_, ?_, ?_⟩ <;> rw [hc] <;> intro h
      · exact ⟨rfl, hs, by simp⟩
      · exact absurd h (by decide)
      · exact absurd h (by decide)
      · exact absurd h (by decide)
      · exact absurd (.inl rfl) h
      · exact absurd h (by decide)

theorem start_effect {d : Device} {t t' : Tdi} {a : Answer} (hs : t.state = .configLocked) (h : start d t = .ok a t') : Effect d 0x86 t a t' := by
  unfold start at h
  simp only [M.bind_apply, M.get_apply, call] at h
  cases h1 : d t.log .track with
  | false => rw [h1] at h; exact effect_error (l := [(.track, false)]) rfl h
  | true =>
    rw [h1] at h
    obtain ⟨rfl, rfl⟩ := Out.ok.inj h
    have hc : ∀ b : Bytes, code (answer 0x06 b t).bytes = 0x06 := fun b => rfl
    refine ⟨.inl (hc _), ?_, ?_, ?_, ?_, ?_, ?_⟩ <;> rw [hc] <;> intro h
    · exact absurd h (by decide)
    · exact ⟨rfl, hs, rfl⟩
    · exact absurd h (by decide)
    · exact absurd h (by decide)
    · exact absurd (.inr (.inl rfl)) h
    · exact absurd h (by decide)

theorem stop_effect {d : Device} {t t' : Tdi} {a : Answer} (h : stop d t = .ok a t') : Effect d 0x87 t a t' := by
  unfold stop at h
  simp only [M.bind_apply, M.get_apply, call] at h
  cases h1 : d t.log .erase with
  | false => rw [h1] at h; exact effect_error (l := [(.erase, false)]) rfl h
  | true =>
    rw [h1] at h
    simp only [if_true] at h
    cases h2 : d (t.log ++ [(.erase, true)]) .unlock with
    | false =>
      simp only [M.bind_apply, call, h2] at h
      exact effect_error (l := [(.erase, true), (.unlock, false)]) (by simp) h
    | true =>
      simp only [M.bind_apply, call, h2, if_true] at h
      obtain ⟨rfl, rfl⟩ := Out.ok.inj h
      have hc : ∀ b : Bytes, code (answer 0x07 b t).bytes = 0x07 := fun b => rfl
      refine ⟨.inl (hc _), ?_, ?_, ?_, ?_, ?_, ?_⟩ <;> rw [hc] <;> intro h
      · exact absurd h (by decide)
      · exact absurd h (by decide)
      · exact ⟨rfl, by simp⟩
      · exact absurd h (by decide)
      · exact absurd (.inr (.inr (.inl rfl))) h
      · exact absurd h (by decide)

theorem not_moves {r : UInt8} (h : r ≠ 0x03 ∧ r ≠ 0x06 ∧ r ≠ 0x07 ∧ r ≠ 0x7F) : ¬ moves (some r) := by
  unfold moves
  simp only [Option.some.injEq]
  rintro (g | g | g | g)
  · exact h.1 g
  · exact h.2.1 g
  · exact h.2.2.1 g
  · exact h.2.2.2 g

theorem act_effect {d : Device} {k : UInt8} {t t' : Tdi} {a : Answer} (hk : act d k t = .ok a t') : Effect d k t a t' := by
  unfold act at hk
  split at hk
  · exact effect_reply rfl (not_moves (by decide)) (fun h => absurd h (by decide)) hk
  · exact effect_reply rfl (not_moves (by decide)) (fun h => absurd h (by decide)) hk
  · rcases onlyIn_ok hk with h | ⟨hs, h⟩
    · exact effect_error (l := []) (by simp) h
    · exact lock_effect hs h
  · rw [M.bind_apply, M.get_apply] at hk
    dsimp only at hk
    rw [if_pos (by cases t.state <;> decide)] at hk
    exact effect_error (l := []) (by simp) hk
  · exact effect_reply rfl (not_moves (by decide)) (fun h => absurd h (by decide)) hk
  · rcases onlyIn_ok hk with h | ⟨hs, h⟩
    · exact effect_error (l := []) (by simp) h
    · exact start_effect hs h
  · exact stop_effect hk
  · rcases onlyIn_ok hk with h | ⟨hs, h⟩
    · exact effect_error (l := []) (by simp) h
    · exact effect_reply rfl (not_moves (by decide)) (fun _ => hs) h
  · rcases onlyIn_ok hk with h | ⟨hs, h⟩
    · exact effect_error (l := []) (by simp) h
    · exact effect_reply rfl (not_moves (by decide)) (fun _ => hs) h
  · rcases onlyIn_ok hk with h | ⟨hs, h⟩
    · exact effect_error (l := []) (by simp) h
    · exact effect_reply rfl (not_moves (by decide)) (fun _ => hs) h
  · exact effect_reply rfl (not_moves (by decide)) (fun h => absurd h (by decide)) hk
  · cases hk

theorem rdHdr_code {p : Bytes} {h : Hdr} {r : Reader} (hr : rdHdr (Reader.init p) = .ok h r) : h.code = code p := by
  obtain ⟨v, r1, h1, z1⟩ := M.bind_ok.1 hr
  obtain ⟨k, r2, h2, z2⟩ := M.bind_ok.1 z1
  obtain ⟨_, r3, h3, z3⟩ := M.bind_ok.1 z2
  obtain ⟨i, r4, h4, z4⟩ := M.bind_ok.1 z3
  obtain ⟨rfl, -⟩ := Out.ok.inj z4
  have a1 := (rdU8_ok.1 h1).1
  have a2 := (rdU8_ok.1 h2).1
  have hp : p = [v] ++ ([k] ++ r2.rest) := by rw [← a2]; exact a1
  rw [hp]
  rfl

/-- no error status, no panic unless the device failed to erase, and the form of the answer. -/
def Fine (d : Device) (t : Tdi) : Out Status Tdi Answer → Prop
  | .ok a _ => ∃ k b t1, a = answer k b t1 ∧ (k = 0x03 → b = List.replicate 16 0)
  | .err _ _ => False
  | .panic => ∃ l, d (t.log ++ l) .erase = false

theorem fine_error (d : Device) (c : UInt16) {t t1 : Tdi} {l : List (Call × Bool)} (h : t1 = { t with log := t.log ++ l }) : Fine d t (tdispError d c t1) := by
  rw [tdispError_eq]
  subst h
  cases hd : d (t.log ++ l) .erase with
  | false => exact ⟨l, hd⟩
  | true => exact ⟨_, _, _, rfl, fun h => absurd h (by decide)⟩

theorem fine_lock (d : Device) (t : Tdi) : Fine d t (lock d t) := by
  unfold lock
  simp only [M.bind_apply, M.get_apply, call]
  cases h1 : d t.log .init with
  | false => exact fine_error d _ (l := [(.init, false)]) rfl
  | true =>
    simp only [if_true]
    cases h2 : d (t.log ++ [(.init, true)]) .lock with
    | false =>
      simp only [M.bind_apply, call, h2]
      exact fine_error d _ (l := [(.init, true), (.lock, false)]) (by simp)
    | true => simp only [M.bind_apply, call, h2, if_true]; exact ⟨_, _, _, rfl, by simp⟩

theorem fine_start (d : Device) (t : Tdi) : Fine d t (start d t) := by
  unfold start
  simp only [M.bind_apply, M.get_apply, call]
  cases h1 : d t.log .track with
  | false => exact fine_error d _ (l := [(.track, false)]) rfl
  | true => exact ⟨_, _, _, rfl, fun h => absurd h (by decide)⟩

theorem fine_stop (d : Device) (t : Tdi) : Fine d t (stop d t) := by
  unfold stop
  simp only [M.bind_apply, M.get_apply, call]
  cases h1 : d t.log .erase with
  | false => exact fine_error d _ (l := [(.erase, false)]) rfl
  | true =>
    simp only [if_true]
    cases h2 : d (t.log ++ [(.erase, true)]) .unlock with
    | false =>
      simp only [M.bind_apply, call, h2]
      exact fine_error d _ (l := [(.erase, true), (.unlock, false)]) (by simp)
    | true => simp only [M.bind_apply, call, h2, if_true]; exact ⟨_, _, _, rfl, fun h => absurd h (by decide)⟩

theorem fine_onlyIn (d : Device) (s : State) (t : Tdi) {x : M Status Tdi Answer} (h : Fine d t (x t)) : Fine d t (onlyIn d s x t) := by
  unfold onlyIn
  rw [M.bind_apply, M.get_apply]
  dsimp only
  split
  · exact fine_error d _ (l := []) (by simp)
  · exact h

theorem fine_act (d : Device) {k : UInt8} (t : Tdi) (hk : 0x81 ≤ k ∧ k ≤ 0x8B) : Fine d t (act d k t) := by
  unfold act
  split
  · exact ⟨_, _, _, rfl, fun h => absurd h (by decide)⟩
  · exact ⟨_, _, _, rfl, fun h => absurd h (by decide)⟩
  · exact fine_onlyIn d _ t (fine_lock d t)
  · rw [M.bind_apply, M.get_apply]
    dsimp only
    rw [if_pos (by cases t.state <;> decide)]
    exact fine_error d _ (l := []) (by simp)
  · exact ⟨_, _, _, rfl, fun h => absurd h (by decide)⟩
  · exact fine_onlyIn d _ t (fine_start d t)
  · exact fine_stop d t
  · exact fine_onlyIn d _ t ⟨_, _, _, rfl, fun h => absurd h (by decide)⟩
  · exact fine_onlyIn d _ t ⟨_, _, _, rfl, fun h => absurd h (by decide)⟩
  · exact fine_onlyIn d _ t ⟨_, _, _, rfl, fun h => absurd h (by decide)⟩
  · exact ⟨_, _, _, rfl, fun h => absurd h (by decide)⟩
  · rename_i h1 h2 h3 h4 h5 h6 h7 h8 h9 h10 h11
    exfalso
    have : ∀ k : UInt8, 0x81 ≤ k → k ≤ 0x8B → k = 0x81 ∨ k = 0x82 ∨ k = 0x83 ∨ k = 0x84 ∨ k = 0x85 ∨ k = 0x86 ∨ k = 0x87 ∨ k = 0x88 ∨ k = 0x89 ∨ k = 0x8A ∨ k = 0x8B := by
      intro k a b
      have a := UInt8.le_iff_toNat_le.1 a
      have b := UInt8.le_iff_toNat_le.1 b
      simp only [← UInt8.toNat_inj]
      simp at *
      omega
    rcases this k hk.1 hk.2 with h | h | h | h | h | h | h | h | h | h | h
    · exact h1 h
    · exact h2 h
    · exact h3 h
    · exact h4 h
    · exact h5 h
    · exact h6 h
    · exact h7 h
    · exact h8 h
    · exact h9 h
    · exact h10 h
    · exact h11 h

/-- What one request does, in every state and for every device and request: nothing, if it is refused without an answer; otherwise what the
message type of the response says.  The responder panics only if the device fails to erase its confidential data. -/
theorem C43_step (d : Device) (n : UInt16) (p : Bytes) (t : Tdi) :
    (∀ a t', handle d n p t = .ok a t' → Effect d (code p) t a t') ∧ (∀ st t', handle d n p t = .err st t' → t' = t) ∧
    (handle d n p t = .panic → ∃ l, d (t.log ++ l) .erase = false) := by
  unfold handle
  by_cases hn : n.toNat < headerSize
  · rw [if_pos hn]
    exact ⟨fun a t' h => by (cases h), fun st t' h => by (cases h; rfl), fun h => by (cases h)⟩
  rw [if_neg hn]
  cases hr : rdHdr (Reader.init p) with
  | err _ _ => exact ⟨fun a t' h => by (cases h), fun st t' h => by (cases h; rfl), fun h => by (cases h)⟩
  | panic => exact ⟨fun a t' h => by (cases h), fun st t' h => by (cases h; rfl), fun h => by (cases h)⟩
  | ok hd r =>
    dsimp only
    rw [← rdHdr_code hr]
    by_cases hk : 0x81 ≤ hd.code ∧ hd.code ≤ 0x8B
    · rw [if_pos hk]
      have hf : Fine d t (serve d hd.code p t) ∧ ∀ a t', serve d hd.code p t = .ok a t' → Effect d hd.code t a t' := by
        unfold serve
        cases rdRequest hd.code (Reader.init p) with
        | ok _ _ => exact ⟨fine_act d t hk, fun a t' h => act_effect h⟩
        | err _ _ => exact ⟨fine_error d _ (l := []) (by simp), fun a t' h => effect_error (l := []) (by simp) h⟩
        | panic => exact ⟨fine_error d _ (l := []) (by simp), fun a t' h => effect_error (l := []) (by simp) h⟩
      refine ⟨hf.2, fun st t' h => ?_, fun h => ?_⟩
      · rw [h] at hf; exact hf.1.elim
      · rw [h] at hf; exact hf.1
    · rw [if_neg hk]
      exact ⟨fun a t' h => by (cases h), fun st t' h => by (cases h; rfl), fun h => by (cases h)⟩

theorem handle_form {d : Device} {n : UInt16} {p : Bytes} {t t' : Tdi} {a : Answer} (h : handle d n p t = .ok a t') :
    ∃ k b t1, a = answer k b t1 ∧ (k = 0x03 → b = List.replicate 16 0) := by
  unfold handle at h
  by_cases hn : n.toNat < headerSize
  · rw [if_pos hn] at h; cases h
  rw [if_neg hn] at h
  cases hr : rdHdr (Reader.init p) with
  | err _ _ => rw [hr] at h; cases h
  | panic => rw [hr] at h; cases h
  | ok hd r =>
    rw [hr] at h
    dsimp only at h
    by_cases hk : 0x81 ≤ hd.code ∧ hd.code ≤ 0x8B
    · rw [if_pos hk] at h
      have hf : Fine d t (serve d hd.code p t) := by
        unfold serve
        cases rdRequest hd.code (Reader.init p) with
        | ok _ _ => exact fine_act d t hk
        | err _ _ => exact fine_error d _ (l := []) (by simp)
        | panic => exact fine_error d _ (l := []) (by simp)
      rw [h] at hf
      exact hf
    · rw [if_neg hk] at h; cases h

/-- one step in terms of the specification. -/
theorem effect_next {d : Device} {k : UInt8} {t t' : Tdi} {a : Answer} (h : Effect d k t a t') : t'.state = next t.state (some (code a.bytes)) := by
  unfold next
  by_cases h1 : code a.bytes = 0x03
  · rw [if_pos (by rw [h1]), (h.lock h1).2.2]
  rw [if_neg (by exact fun g => h1 (Option.some.inj g))]
  by_cases h2 : code a.bytes = 0x06
  · rw [if_pos (by rw [h2]), (h.start h2).2.2]
  rw [if_neg (by exact fun g => h2 (Option.some.inj g))]
  by_cases h3 : code a.bytes = 0x07
  · rw [if_pos (by rw [h3]), (h.stop h3).2]
  rw [if_neg (by exact fun g => h3 (Option.some.inj g))]
  by_cases h4 : code a.bytes = 0x7F
  · obtain ⟨l, hl⟩ := h.error h4
    rw [if_pos (by rw [h4]), hl]
  rw [if_neg (by exact fun g => h4 (Option.some.inj g)), h.other (not_moves ⟨h1, h2, h3, h4⟩)]

theorem exposed_append (l l' : List (Call × Bool)) :
    exposed (l ++ l') = l'.foldl (fun b c => if c = (.lock, true) then true else if c = (.erase, true) then false else b) (exposed l) := by
  unfold exposed
  rw [List.foldl_append]

/-- the device is locked exactly in CONFIG_LOCKED and RUN. -/
def Locked (t : Tdi) : Prop := exposed t.log = true ↔ t.state = .configLocked ∨ t.state = .run

theorem effect_locked {d : Device} {k : UInt8} {t t' : Tdi} {a : Answer} (h : Effect d k t a t') (hl : Locked t) : Locked t' := by
  by_cases h1 : code a.bytes = 0x03
  · rw [(h.lock h1).2.2]
    unfold Locked
    simp [exposed_append]
  by_cases h2 : code a.bytes = 0x06
  · obtain ⟨-, hs, h2⟩ := h.start h2
    rw [h2]
    unfold Locked at *
    simp only [hs] at hl
    simpa [exposed_append] using hl
  by_cases h3 : code a.bytes = 0x07
  · rw [(h.stop h3).2]
    unfold Locked
    simp [exposed_append]
  by_cases h4 : code a.bytes = 0x7F
  · obtain ⟨l, hl⟩ := h.error h4
    rw [hl]
    unfold Locked
    simp [exposed_append]
  rw [h.other (not_moves ⟨h1, h2, h3, h4⟩)]
  exact hl

theorem steps_inv {d : Device} {t t' : Tdi} {l : List (UInt16 × Bytes)} {o : List (Option UInt8)} (h : Steps d t l o t') (hl : Locked t) :
    t'.state = o.foldl next t.state ∧ Locked t' := by
  induction h with
  | nil => exact ⟨rfl, hl⟩
  | ok h _ ih =>
    have he := (C43_step d _ _ _).1 _ _ h
    obtain ⟨h1, h2⟩ := ih (effect_locked he hl)
    rw [List.foldl_cons, ← effect_next he]
    exact ⟨h1, h2⟩
  | err h _ ih =>
    obtain rfl := (C43_step d _ _ _).2.1 _ _ h
    exact ih hl

/-- a new responder. -/
def fresh (i : Iface) : Tdi := { iface := i, log := [(.init, true)] }

theorem new_fresh {d : Device} {i : Iface} {t : Tdi} (h : Tdisp.new d i () = .ok t ()) : t = fresh i := by
  unfold Tdisp.new at h
  split at h
  · exact (Out.ok.inj h).1.symm
  · cases h

/-- In every history from a new responder on, the state of the interface is the one its responses announce, and the device holds
a locked configuration exactly in CONFIG_LOCKED and RUN: whenever the interface is back in CONFIG_UNLOCKED or in ERROR, the
confidential data has been erased since the last lock. -/
theorem C43_state {d : Device} {i : Iface} {t t' : Tdi} {l : List (UInt16 × Bytes)} {o : List (Option UInt8)} (h0 : Tdisp.new d i () = .ok t ()) (h : Steps d t l o t') :
    t'.state = stateAfter o ∧ (exposed t'.log = true ↔ t'.state = .configLocked ∨ t'.state = .run) := by
  obtain rfl := new_fresh h0
  exact steps_inv h (by unfold Locked fresh; simp [exposed])

/-- LOCK_INTERFACE_RESPONSE is only sent in CONFIG_UNLOCKED and START_INTERFACE_RESPONSE only in CONFIG_LOCKED. -/
def Legal (o : List (Option UInt8)) : Prop :=
  ∀ a b, (o = a ++ some 0x03 :: b → stateAfter a = .configUnlocked) ∧ (o = a ++ some 0x06 :: b → stateAfter a = .configLocked)

theorem steps_legal {d : Device} {t t' : Tdi} {l : List (UInt16 × Bytes)} {o : List (Option UInt8)} (h : Steps d t l o t') :
    ∀ a b, (o = a ++ some 0x03 :: b → a.foldl next t.state = .configUnlocked) ∧ (o = a ++ some 0x06 :: b → a.foldl next t.state = .configLocked) := by
  induction h with
  | nil => intro a b; constructor <;> intro h <;> simp at h
  | @ok t t1 t2 n p an l o h _ ih =>
    have he := (C43_step d _ _ _).1 _ _ h
    intro a b
    cases a with
    | nil =>
      refine ⟨fun g => ?_, fun g => ?_⟩
      · exact (he.lock (Option.some.inj (List.cons.inj g).1)).2.1
      · exact (he.start (Option.some.inj (List.cons.inj g).1)).2.1
    | cons x a =>
      obtain ⟨h1, h2⟩ := ih a b
      rw [effect_next he] at h1 h2
      refine ⟨fun g => ?_, fun g => ?_⟩ <;> obtain ⟨g1, g2⟩ := List.cons.inj g <;> rw [List.foldl_cons, ← g1]
      · exact h1 g2
      · exact h2 g2
  | err h _ ih =>
    obtain rfl := (C43_step d _ _ _).2.1 _ _ h
    intro a b
    cases a with
    | nil => constructor <;> intro g <;> cases g
    | cons x a =>
      obtain ⟨h1, h2⟩ := ih a b
      refine ⟨fun g => ?_, fun g => ?_⟩ <;> obtain ⟨g1, g2⟩ := List.cons.inj g <;> rw [List.foldl_cons, ← g1]
      · exact h1 g2
      · exact h2 g2

theorem next_cases (s : State) (r : Option UInt8) :
    (r = some 0x03 ∧ next s r = .configLocked) ∨ (r = some 0x06 ∧ next s r = .run) ∨ (r = some 0x07 ∧ next s r = .configUnlocked) ∨
    (r = some 0x7F ∧ next s r = .error) ∨ (¬ moves r ∧ next s r = s) := by
  unfold next moves
  by_cases h1 : r = some 0x03
  · rw [if_pos h1]; exact .inl ⟨h1, rfl⟩
  rw [if_neg h1]
  by_cases h2 : r = some 0x06
  · rw [if_pos h2]; exact .inr (.inl ⟨h2, rfl⟩)
  rw [if_neg h2]
  by_cases h3 : r = some 0x07
  · rw [if_pos h3]; exact .inr (.inr (.inl ⟨h3, rfl⟩))
  rw [if_neg h3]
  by_cases h4 : r = some 0x7F
  · rw [if_pos h4]; exact .inr (.inr (.inr (.inl ⟨h4, rfl⟩)))
  rw [if_neg h4]
  exact .inr (.inr (.inr (.inr ⟨by rintro (g | g | g | g) <;> contradiction, rfl⟩)))

/-- a state other than the first one was entered by its response, and nothing moved the interface since. -/
theorem entered {s : State} (hs : s ≠ .configUnlocked) {k : UInt8} (hk : ∀ s' r, next s' r = s → r = some k ∨ (¬ moves r ∧ s' = s)) (l : List (Option UInt8)) :
    stateAfter l = s → ∃ a b, l = a ++ some k :: b ∧ ∀ r ∈ b, ¬ moves r := by
  suffices h : ∀ (l : List (Option UInt8)) s0, l.foldl next s0 = s → (s0 = s ∧ ∀ r ∈ l, ¬ moves r) ∨ ∃ a b, l = a ++ some k :: b ∧ ∀ r ∈ b, ¬ moves r by
    intro h1
    rcases h l _ h1 with ⟨h2, -⟩ | h2
    · exact absurd h2.symm hs
    · exact h2
  intro l
  induction l with
  | nil => intro s0 h; exact .inl ⟨h, fun r hr => by cases hr⟩
  | cons r l ih =>
    intro s0 h
    rw [List.foldl_cons] at h
    rcases ih _ h with ⟨h1, h2⟩ | ⟨a, b, h1, h2⟩
    · rcases hk s0 r h1 with rfl | ⟨h3, h4⟩
      · exact .inr ⟨[], l, rfl, h2⟩
      · refine .inl ⟨h4, fun x hx => ?_⟩
        rcases List.mem_cons.1 hx with rfl | hx
        · exact h3
        · exact h2 x hx
    · exact .inr ⟨r :: a, b, by rw [h1]; rfl, h2⟩

/-- The interface is in RUN only after LOCK_INTERFACE and then START_INTERFACE were answered, with neither STOP_INTERFACE, LOCK_INTERFACE nor
an error in between or since. -/
theorem C43_run {d : Device} {i : Iface} {t t' : Tdi} {l : List (UInt16 × Bytes)} {o : List (Option UInt8)} (h0 : Tdisp.new d i () = .ok t ()) (h : Steps d t l o t')
    (hr : t'.state = .run) : ∃ a b c, o = a ++ some 0x03 :: b ++ some 0x06 :: c ∧ ∀ r ∈ b ++ c, ¬ moves r := by
  obtain ⟨h1, -⟩ := C43_state h0 h
  obtain rfl := new_fresh h0
  rw [hr] at h1
  obtain ⟨a, c, rfl, hc⟩ := entered (s := .run) (by decide) (k := 0x06) (by
    intro s' r g
    rcases next_cases s' r with ⟨g1, g2⟩ | ⟨g1, g2⟩ | ⟨g1, g2⟩ | ⟨g1, g2⟩ | ⟨g1, g2⟩
    · rw [g] at g2; cases g2
    · exact .inl g1
    · rw [g] at g2; cases g2
    · rw [g] at g2; cases g2
    · exact .inr ⟨g1, by rw [← g2, g]⟩) o h1.symm
  have h2 := (steps_legal h a c).2 rfl
  obtain ⟨a, b, rfl, hb⟩ := entered (s := .configLocked) (by decide) (k := 0x03) (by
    intro s' r g
    rcases next_cases s' r with ⟨g1, g2⟩ | ⟨g1, g2⟩ | ⟨g1, g2⟩ | ⟨g1, g2⟩ | ⟨g1, g2⟩
    · exact .inl g1
    · rw [g] at g2; cases g2
    · rw [g] at g2; cases g2
    · rw [g] at g2; cases g2
    · exact .inr ⟨g1, by rw [← g2, g]⟩) a h2
  refine ⟨a, b, c, rfl, fun r hr => ?_⟩
  rcases List.mem_append.1 hr with hr | hr
  · exact hb r hr
  · exact hc r hr

/- A concrete device on which nothing fails, and one that refuses to lock. -/

/-- header of a request of type `k` to interface 0x0100, and enough payload. -/
def tdiRequest (k : UInt8) : UInt16 × Bytes := (64, [0x10, k, 0, 0, 0, 1, 0, 0, 0, 0, 0, 0] ++ List.replicate 64 0)

/-- runs requests; the types of the responses and the final state. -/
def tdiRun (d : Device) : Tdi → List (UInt16 × Bytes) → Option (List (Option UInt8) × Tdi)
  | t, [] => some ([], t)
  | t, (n, p) :: l => match handle d n p t with
    | .ok a t' => (tdiRun d t' l).map fun x => (some (code a.bytes) :: x.1, x.2)
    | .err _ t' => (tdiRun d t' l).map fun x => (none :: x.1, x.2)
    | .panic => none

theorem tdiRun_steps {d : Device} {l : List (UInt16 × Bytes)} {t t' : Tdi} {o : List (Option UInt8)} (h : tdiRun d t l = some (o, t')) : Steps d t l o t' := by
  induction l generalizing t o with
  | nil => obtain ⟨rfl, rfl⟩ := Prod.mk.inj (Option.some.inj h); exact .nil _
  | cons x l ih =>
    obtain ⟨n, p⟩ := x
    unfold tdiRun at h
    cases hx : handle d n p t with
    | panic => rw [hx] at h; cases h
    | ok a t1 =>
      rw [hx] at h
      obtain ⟨⟨o1, t2⟩, h1, h2⟩ := Option.map_eq_some_iff.1 h
      obtain ⟨rfl, rfl⟩ := Prod.mk.inj h2
      exact .ok hx (ih h1)
    | err st t1 =>
      rw [hx] at h
      obtain ⟨⟨o1, t2⟩, h1, h2⟩ := Option.map_eq_some_iff.1 h
      obtain ⟨rfl, rfl⟩ := Prod.mk.inj h2
      exact .err hx (ih h1)

/-- the hypotheses of `C43_state` and `C43_run` are met: version, lock, state, start, bind. -/
example : Tdisp.new (fun _ _ => true) ⟨0x0100, none⟩ () = .ok (fresh ⟨0x0100, none⟩) () ∧
    ∃ t, Steps (fun _ _ => true) (fresh ⟨0x0100, none⟩) ([0x81, 0x83, 0x85, 0x86, 0x88].map tdiRequest) [some 0x01, some 0x03, some 0x05, some 0x06, some 0x08] t ∧ t.state = .run := by
  refine ⟨rfl, ?_⟩
  have h : (tdiRun (fun _ _ => true) (fresh ⟨0x0100, none⟩) ([0x81, 0x83, 0x85, 0x86, 0x88].map tdiRequest)).map (fun x => (x.1, x.2.state)) =
      some ([some 0x01, some 0x03, some 0x05, some 0x06, some 0x08], .run) := by decide +kernel
  obtain ⟨⟨o, t⟩, h1, h2⟩ := Option.map_eq_some_iff.1 h
  obtain ⟨rfl, hs⟩ := Prod.mk.inj h2
  exact ⟨t, tdiRun_steps h1, hs⟩

/- a device that refuses to lock: ERROR, and STOP gets out of it; a malformed START: ERROR; START without LOCK: ERROR; a device that fails to erase: panic -/
example : (tdiRun (fun _ c => c != .lock) (fresh ⟨0x0100, none⟩) ([0x83, 0x86, 0x87].map tdiRequest)).map (·.1) = some [some 0x7F, some 0x7F, some 0x07] ∧
    (tdiRun (fun _ _ => true) (fresh ⟨0x0100, none⟩) [tdiRequest 0x83, (64, [0x10, 0x86, 0, 0, 0, 1, 0, 0, 0, 0, 0, 0])]).map (·.1) = some [some 0x03, some 0x7F] ∧
    tdiRun (fun _ c => c != .erase) (fresh ⟨0x0100, none⟩) [tdiRequest 0x86] = none := by decide +kernel

/- What a user of TDISP would expect and the code does not do. -/

/-- GET_DEVICE_INTERFACE_REPORT is never answered with a report: in every state, including CONFIG_LOCKED and RUN, it is a TDISP error, which
erases the confidential data and moves the interface to ERROR (finding T1). -/
theorem C43_report_violated (d : Device) (n : UInt16) (p : Bytes) (t : Tdi) (a : Answer) (t' : Tdi) (hk : code p = 0x84) (h : handle d n p t = .ok a t') :
    code a.bytes = 0x7F ∧ t'.state = .error ∧ exposed t'.log = false := by
  have he := (C43_step d n p t).1 a t' h
  have hc : code a.bytes = 0x7F := by
    unfold handle at h
    by_cases hn : n.toNat < headerSize
    · rw [if_pos hn] at h; cases h
    rw [if_neg hn] at h
    cases hr : rdHdr (Reader.init p) with
    | err _ _ => rw [hr] at h; cases h
    | panic => rw [hr] at h; cases h
    | ok hd r =>
      rw [hr] at h
      dsimp only at h
      rw [rdHdr_code hr, hk, if_pos (by decide)] at h
      have hx : ∀ c, tdispError d c t = .ok a t' → code a.bytes = 0x7F := by
        intro c h
        rw [tdispError_eq] at h
        split at h
        · rw [← (Out.ok.inj h).1]; rfl
        · cases h
      unfold serve at h
      cases hq : rdRequest 0x84 (Reader.init p) with
      | err _ _ => rw [hq] at h; exact hx _ h
      | panic => rw [hq] at h; exact hx _ h
      | ok _ _ =>
        rw [hq] at h
        refine hx invalidState ?_
        rw [← h]
        show tdispError d invalidState t = (if t.state ≠ .run ∨ t.state ≠ .configLocked then tdispError d invalidState else reply 0x04 fun _ => [0, 0, 0, 0]) t
        rw [if_pos (by cases t.state <;> decide)]
  obtain ⟨l, hl⟩ := he.error hc
  exact ⟨hc, by rw [hl], by rw [hl]; simp [exposed_append]⟩

theorem rdIface_bytes (i : Iface) (rest : Bytes) (n : Nat) : rdIface ⟨i.bytes ++ rest, n⟩ = .ok i ⟨rest, n + 8⟩ := by
  obtain ⟨id, seg⟩ := i
  unfold rdIface rdFunction Iface.bytes
  cases seg with
  | none => simp [rdU16_put, rdU8_cons, rdU32_cons, M.bind_apply]
  | some s => simp [rdU16_put, rdU8_cons, rdU32_cons, M.bind_apply]

/-- The interface a request names is not looked at: a request for any other interface does the same (finding T5). -/
theorem C43_interface_violated (d : Device) (n : UInt16) (v k x y : UInt8) (i j : Iface) (rest : Bytes) (t : Tdi) :
    handle d n ([v, k, x, y] ++ i.bytes ++ rest) t = handle d n ([v, k, x, y] ++ j.bytes ++ rest) t := by
  have hh : ∀ i : Iface, rdHdr (Reader.init ([v, k, x, y] ++ i.bytes ++ rest)) = .ok ⟨v, k, i⟩ ⟨rest, 12⟩ := by
    intro i
    unfold rdHdr Reader.init
    simp [rdU8_cons, rdU16_cons, M.bind_apply, rdIface_bytes]
  have hq : ∀ i : Iface, rdRequest k (Reader.init ([v, k, x, y] ++ i.bytes ++ rest)) = rdPayload k ⟨rest, 12⟩ := by
    intro i
    unfold rdRequest
    rw [M.bind_apply, hh]
  unfold handle serve
  rw [hh i, hh j]
  dsimp only
  rw [hq i, hq j]

/-- The nonce in LOCK_INTERFACE_RESPONSE is always zero, half as long as the one START_INTERFACE carries, and START_INTERFACE is accepted with
any nonce (finding T3). -/
theorem C43_nonce_violated (d : Device) (n : UInt16) (v x y : UInt8) (i : Iface) (nonce nonce' rest : Bytes) (t : Tdi) (h : nonce.length = 32) (h' : nonce'.length = 32) :
    handle d n ([v, 0x86, x, y] ++ i.bytes ++ (nonce ++ rest)) t = handle d n ([v, 0x86, x, y] ++ i.bytes ++ (nonce' ++ rest)) t ∧
    (∀ p a t', handle d n p t = .ok a t' → code a.bytes = 0x03 → a.bytes.drop 12 = List.replicate 16 0) := by
  constructor
  · have hh : ∀ rest, rdHdr (Reader.init ([v, 0x86, x, y] ++ i.bytes ++ rest)) = .ok ⟨v, 0x86, i⟩ ⟨rest, 12⟩ := by
      intro rest
      unfold rdHdr Reader.init
      simp [rdU8_cons, rdU16_cons, M.bind_apply, rdIface_bytes]
    have hq : ∀ nonce : Bytes, nonce.length = 32 → rdRequest 0x86 (Reader.init ([v, 0x86, x, y] ++ i.bytes ++ (nonce ++ rest))) = .ok () ⟨rest, 44⟩ := by
      intro nonce h
      unfold rdRequest
      rw [M.bind_apply, hh]
      show (rdBytes 32 >>= fun _ => pure ()) _ = _
      rw [M.bind_apply, show rdBytes 32 ⟨nonce ++ rest, 12⟩ = .ok nonce ⟨rest, 44⟩ from rdBytes_ok.2 ⟨h, by rw [Reader.After, h]; exact ⟨rfl, rfl⟩⟩]
      rfl
    unfold handle serve
    rw [hh, hh]
    dsimp only
    rw [hq _ h, hq _ h']
  · intro p a t' h hc
    obtain ⟨k, b, t1, rfl, hb⟩ := handle_form h
    have hk : k = 0x03 := hc
    rw [hb hk]
    unfold answer Hdr.bytes Iface.bytes
    cases t1.iface.segment <;> simp [putU16]

/-- The length field of every answer is zero, although it has at least a header: the VENDOR_DEFINED_RESPONSE carries none of it (finding T2). -/
theorem C43_silent_violated (d : Device) (n : UInt16) (p : Bytes) (t : Tdi) (a : Answer) (t' : Tdi) (h : handle d n p t = .ok a t') :
    a.length = 0 ∧ 12 ≤ a.bytes.length := by
  obtain ⟨k, b, t1, rfl, -⟩ := handle_form h
  refine ⟨rfl, ?_⟩
  unfold answer Hdr.bytes Iface.bytes
  cases t1.iface.segment <;> simp [putU16] <;> omega

/-- No request of the requester in this crate reaches a handler of the responder in this crate: the requester writes a protocol identifier
first, which the responder takes for the version, and so the version for the message type (finding T4). -/
theorem C43_unheard_violated (d : Device) (n : UInt16) (k : UInt8) (tr : Tdi) (payload : Bytes) (t : Tdi) (hv : tr.version = 0x10) :
    handle d n (requesterBytes k tr payload) t = .err .invalidMsgField t := by
  unfold handle
  by_cases hn : n.toNat < headerSize
  · rw [if_pos hn]; rfl
  rw [if_neg hn]
  cases hr : rdHdr (Reader.init (requesterBytes k tr payload)) with
  | err _ _ => rfl
  | panic => rfl
  | ok hd r =>
    dsimp only
    rw [rdHdr_code hr]
    have : code (requesterBytes k tr payload) = 0x10 := hv
    rw [this, if_neg (by decide)]
    rfl

end Verif.Props
