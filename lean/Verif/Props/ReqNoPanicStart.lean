/-
C76, starting sessions: KEY_EXCHANGE and PSK_EXCHANGE never make a requester panic, whatever a device answers, when the connection selected
algorithms of known sizes.
-/
import Verif.Requester.CalmHand
import Verif.Props.ReqNoPanicIn

namespace Verif.Props
open Verif Req M Res

variable {e : REnv} {n : Neg}

/-- the requests of `Asked`, and the two that start sessions. -/
def AskedOrStarted (meas : Bool) (op : Op) : Prop := Asked meas op ∨ (∃ slot t, op = .keyExchange slot t) ∨ ∃ t hint, op = .pskExchange t hint

theorem started_calm (hk : KnownAll n) {meas : Bool} (hm : meas = true → (MeasHash.size? n.measHash).isSome = true) (he : SecurePeripherals e) {op : Op} (ho : AskedOrStarted meas op)
    {c : Ctx} (hc : In n c) (ht : TableOrdered c) :
    (Loops e op c ∧ op.run e c = .panic) ∨ (op.run e).Tot c (fun _ c' => In n c') (fun _ c' => In n c') := by
  rcases ho with ho | ⟨slot, t, rfl⟩ | ⟨t, hint, rfl⟩
  · exact asked_calm hk.toKnown hm he ho hc
  · exact .inr ((tot_keyExchange hk he.carrier slot t hc ht).bind fun _ _ h => tot_pure h)
  · exact .inr ((tot_pskExchange hk he.carrier t hint hc ht).bind fun _ _ h => tot_pure h)

theorem tabled_op {op : Op} {c c' : Ctx} (hl : op.run e c = .ok () c' ∨ ∃ st, op.run e c = .err st c') (h : TableOrdered c) : TableOrdered c' := by
  have hk : TableKept c c' := by
    rcases hl with hl | ⟨st, hl⟩
    · exact (rt_op op).ok hl
    · exact (rt_op op).err hl
  exact ⟨by rw [hk.1]; exact h.1, hk.2 h.1 h.2⟩

theorem runs_started (hk : KnownAll n) {meas : Bool} (hm : meas = true → (MeasHash.size? n.measHash).isSome = true) {h : List (REnv × Op)} {c c' : Ctx} (hr : Runs c h c')
    (hh : ∀ p ∈ h, SecurePeripherals p.1 ∧ AskedOrStarted meas p.2) (hc : In n c) (ht : TableOrdered c) : In n c' ∧ TableOrdered c' := by
  induction hr with
  | nil => exact ⟨hc, ht⟩
  | cons hl _ ih =>
    rename_i c c1 c' e op h _
    obtain ⟨he, ho⟩ := hh (e, op) List.mem_cons_self
    refine ih (fun p hp => hh p (List.mem_cons_of_mem _ hp)) ?_ (tabled_op hl ht)
    rcases started_calm hk hm he ho hc ht with ⟨-, hp⟩ | ht
    · rcases hl with hl | ⟨st, hl⟩ <;> rw [hp] at hl <;> cases hl
    · rcases hl with hl | ⟨st, hl⟩
      · exact ht.of_ok hl
      · exact ht.of_err hl

/-- the connection selected an AEAD and a DHE group of known sizes. -/
def KeysChosen (n : Neg) : Prop :=
  (Aead.keySize? n.aead).isSome = true ∧ (Aead.ivSize? n.aead).isSome = true ∧ (Aead.tagSize? n.aead).isSome = true ∧ (Dhe.size? n.dhe).isSome = true

/-- **C76**, starting sessions: a connected requester whose session table is in order and whose connection selected an AEAD and a DHE group
asks for anything `AskedOrStarted`, any number of times and with any outcome, and no request panics, whatever the device delivers.  The
exception is the loop of C55 again. -/
theorem C76_starting {e : REnv} {c c' : Ctx} {h : List (REnv × Op)} {op : Op} (ha : Attached c) (hs : KeysChosen c.neg) (ht : c.sessions.length < 0xFFFD ∧ ReqTable 0 c.sessions)
    (hr : Runs c h c') (hh : ∀ p ∈ h, SecurePeripherals p.1 ∧ AskedOrStarted c.cc.measCap p.2) (he : SecurePeripherals e) (ho : AskedOrStarted c.cc.measCap op) (hp : op.run e c' = .panic) :
    ∃ fuel sid slot ps y, op = .certificate fuel sid slot ∧ Fetches e sid slot ps (fetchStart sid c') y ∧ ps.length = fuel ∧ (4096 ≤ fuel → 0 ∈ ps) := by
  obtain ⟨hk, hm, hi⟩ := ha.base
  obtain ⟨h1, h2, h3, h4⟩ := hs
  have hk : KnownAll c.neg := ⟨hk, h1, h2, h3, h4⟩
  obtain ⟨hc, ht⟩ := runs_started hk hm hr hh hi ht
  rcases started_calm hk hm he ho hc ht with ⟨⟨fuel, sid, slot, ps, y, h1, h2, h3⟩, -⟩ | ht
  · refine ⟨fuel, sid, slot, ps, y, h1, h2, h3, fun hf => ?_⟩
    refine Classical.byContradiction fun hz => ?_
    have h4 := (C55_progress_partial sid slot c' ps y h2).2
    rw [List.filter_eq_self.2 fun a ha => by
      have : a ≠ 0 := fun h => hz (h ▸ ha)
      simpa using this] at h4
    omega
  · exact absurd hp ht.ne

/-- a table in order, to be evaluated. -/
def tabledCheck : Nat → List Session → Bool
  | _, [] => true
  | i, s :: l => (decide (s.id = 0) || decide (Ctx.half true s.id = 0xFFFD - UInt16.ofNat i)) && tabledCheck (i + 1) l

theorem tabled_of : ∀ {l : List Session} {i : Nat}, tabledCheck i l = true → ReqTable i l
  | [], _, _ => trivial
  | _ :: _, _, h => by
    unfold tabledCheck at h
    simp only [Bool.and_eq_true, Bool.or_eq_true, decide_eq_true_eq] at h
    exact ⟨h.1, tabled_of h.2⟩

instance (n : Neg) : Decidable (KeysChosen n) := by unfold KeysChosen; infer_instance

/-- **C76**, a case: a requester in the middle of a session starts another, and the device delivers anything that fits: no panic. -/
theorem C76_starting_case (g : List Bytes → Option Bytes) (hg : ∀ l p, g l = some p → p.length ≤ 4160) (slot : UInt8) (t : SummaryHashType) :
    ∃ c, Runs Toy.req0 ((.connect :: insideOps).map fun o => (mctpDevice, o)) c ∧ (c.session? 0xFFFDFFFD).map (·.state) = some .established ∧
      (Op.keyExchange slot t).run { boundedDevice with recv := g } c ≠ .panic := by
  have hx : ∃ c1 c r, (Op.connect).run mctpDevice Toy.req0 = .ok () c1 ∧ Toy.runOps mctpDevice c1 insideOps = some (r, c) ∧ c1.neg = c.neg ∧ KeysChosen c.neg ∧
      attachedCheck c = true ∧ (c.session? 0xFFFDFFFD).map (·.state) = some .established ∧ c.sessions.length < 0xFFFD ∧ tabledCheck 0 c.sessions = true := by
    have h : (match (Op.connect).run mctpDevice Toy.req0 with
        | .ok _ c1 => (match Toy.runOps mctpDevice c1 insideOps with
          | some (_, c) => decide (c1.neg = c.neg) && decide (KeysChosen c.neg) && attachedCheck c && decide ((c.session? 0xFFFDFFFD).map (·.state) = some .established) &&
              decide (c.sessions.length < 0xFFFD) && tabledCheck 0 c.sessions
          | none => false)
        | _ => false) = true := by decide +kernel
    split at h
    · rename_i c1 h1
      split at h
      · rename_i r c h2
        simp only [Bool.and_eq_true, decide_eq_true_eq] at h
        exact ⟨c1, c, r, h1, h2, h.1.1.1.1.1, h.1.1.1.1.2, h.1.1.1.2, h.1.1.2, h.1.2, h.2⟩
      · cases h
    · cases h
  obtain ⟨c1, c, r, h1, h2, h3, h4, h5, h6, h7, h8⟩ := hx
  have hr : ∀ l p, mctpDevice.recv l = some p → p.length ≤ 4160 := fun l p h => by
    change ((Toy.answer boundedDevice.toEnv Toy.rsp0 l).bind fun p => if p.length ≤ 4160 then some p else none) = some p at h
    obtain ⟨q, -, hq⟩ := Option.bind_eq_some_iff.1 h
    split at hq
    · cases hq; assumption
    · cases hq
  have hat : Attached c := attached_of (fun _ => rfl) (secure_of (e := mctpDevice) rfl hr).carrier h1 h3.symm h5
  refine ⟨c, .cons (.inl h1) (runOps_runs _ h2), h6, fun hp => ?_⟩
  obtain ⟨fuel, sid, slot', ps, y, h, -⟩ := C76_starting hat h4 ⟨h7, tabled_of h8⟩ (h := []) .nil (fun _ h => by cases h) (secure_of (e := { boundedDevice with recv := g }) rfl hg)
    (.inr (.inl ⟨slot, t, rfl⟩)) hp
  cases h

end Verif.Props
