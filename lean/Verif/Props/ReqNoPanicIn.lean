/-
C76, inside sessions: nothing a device delivers makes a requester with sessions panic, as long as the sessions in use have
algorithms of known sizes.
-/
import Verif.Requester.CalmSess
import Verif.Props.ReqNoPanic
import Verif.Props.NoPanic
import Verif.Props.ReqAuth

namespace Verif.Props
open Verif Req M Res

/-- what a requester with sessions relies on, in addition to `Peripherals`: the transport's framing of secured messages fits the buffers, and
the AEAD provider keeps sizes. -/
structure SecurePeripherals (e : REnv) : Prop extends Peripherals e where
  secures : ∃ lim, Secures e lim

/-- the requests of a requester that has a connection and maybe sessions, in the clear or in a session. -/
def Asked (meas : Bool) : Op → Prop
  | .digests _ | .certificate _ _ _ | .challenge _ _ | .heartbeat _ | .keyUpdate _ _ | .endSession _ | .receiveApp _ => True
  | .measurements _ _ _ _ => meas = true
  | .sendApp _ data => data.length ≤ 4096
  | _ => False

variable {e : REnv} {n : Neg}

theorem asked_calm (hk : Known n) {meas : Bool} (hm : meas = true → (MeasHash.size? n.measHash).isSome = true) (he : SecurePeripherals e) {op : Op} (ho : Asked meas op)
    {c : Ctx} (hc : In n c) :
    (Loops e op c ∧ op.run e c = .panic) ∨ (op.run e).Tot c (fun _ c' => In n c') (fun _ c' => In n c') := by
  obtain ⟨lim, hs⟩ := he.secures
  have ht : ∀ sid, Transacts n (Equipped n.baseHash) e sid := transacts_in he.carrier hs
  match op, ho with
  | .digests sid, _ => exact .inr (Calm.drop (calm_getDigests equipped_lasts hk (ht sid)) hc)
  | .challenge slot t, _ => exact .inr (Calm.drop (calm_challenge equipped_lasts hk he.carrier slot t) hc)
  | .measurements sid slot attr op, ho =>
    exact .inr (Calm.drop ((calm_getMeasurements equipped_lasts hk (hm ho) (ht sid) slot attr op).bind fun _ _ => Calm.pure trivial) hc)
  | .certificate fuel sid slot, _ => exact certificate_calm equipped_lasts hk he.located (ht sid) fuel slot hc
  | .heartbeat sid, _ => exact .inr (Calm.drop (calm_heartbeat he.carrier hs sid) hc)
  | .keyUpdate sid op, _ => exact .inr (Calm.drop (calm_keyUpdate hs sid op) hc)
  | .endSession sid, _ => exact .inr (Calm.drop (calm_endSession he.carrier hs sid) hc)
  | .sendApp sid data, ho => exact .inr (Calm.drop (calm_sendSecured hs sid ho true) hc)
  | .receiveApp sid, _ => exact .inr (Calm.drop ((calm_receiveSecured hs sid).bind fun _ _ => Calm.pure trivial) hc)

theorem runs_in (hk : Known n) {meas : Bool} (hm : meas = true → (MeasHash.size? n.measHash).isSome = true) {h : List (REnv × Op)} {c c' : Ctx} (hr : Runs c h c')
    (hh : ∀ p ∈ h, SecurePeripherals p.1 ∧ Asked meas p.2) (hc : In n c) : In n c' := by
  induction hr with
  | nil => exact hc
  | cons hl _ ih =>
    rename_i c c1 c' e op h _
    obtain ⟨he, ho⟩ := hh (e, op) List.mem_cons_self
    refine ih (fun p hp => hh p (List.mem_cons_of_mem _ hp)) ?_
    rcases asked_calm hk hm he ho hc with ⟨-, hp⟩ | ht
    · rcases hl with hl | ⟨st, hl⟩ <;> rw [hp] at hl <;> cases hl
    · rcases hl with hl | ⟨st, hl⟩
      · exact ht.of_ok hl
      · exact ht.of_err hl

/-- a state of a requester that has connected: it has what was negotiated then, its stored chains hold more than their head, and its sessions in
use have the negotiated hash and an AEAD of known sizes, and a hint if they use a PSK. -/
structure Attached (c : Ctx) : Prop where
  connected : ∃ e0 c0 c1, (∀ i, c0.peer.chain i = none) ∧ Carrier e0 ∧ (Op.connect).run e0 c0 = .ok () c1 ∧ c.neg = c1.neg
  chains : ∀ i ch hs, c.peer.chain i = some ch → BaseHash.size? c.neg.baseHash = some hs → 4 + hs ≤ ch.length
  sessions : ∀ s ∈ c.sessions, s.state ≠ .notStarted ∨ s.th.isSome = true →
    s.hash = c.neg.baseHash ∧ ((BaseHash.size? s.hash).isSome = true ∧ (Aead.keySize? s.aead).isSome = true ∧ (Aead.ivSize? s.aead).isSome = true ∧ (Aead.tagSize? s.aead).isSome = true) ∧ (s.usePsk = true → s.pskHint.isSome = true)

theorem Attached.base {c : Ctx} (h : Attached c) : Known c.neg ∧ (c.cc.measCap = true → (MeasHash.size? c.neg.measHash).isSome = true) ∧ In c.neg c := by
  obtain ⟨e0, c0, c1, hn, he0, h0, hneg⟩ := h.connected
  obtain ⟨hk, hm, -⟩ := connected_known he0 hn h0
  refine ⟨hneg ▸ hk, fun hc => ?_, ⟨⟨rfl, h.chains⟩, fun s hs hst => ?_⟩⟩
  · rw [hneg]
    refine hm ?_
    unfold Cc.measCap at hc ⊢
    rw [show c1.cc.neg.rspCaps = c.cc.neg.rspCaps from by show c1.neg.rspCaps = c.neg.rspCaps; rw [hneg]]
    exact hc
  · obtain ⟨h0, ⟨h1, h2, h3, h5⟩, h4⟩ := h.sessions s hs hst
    exact ⟨⟨⟨h1, h2, h3, h5⟩, h4⟩, h0⟩

/-- **C76**, with sessions: whatever a connected requester asks, in the clear or in sessions, any number of times and with any outcome —
digests, chains, measurements, challenge, heartbeat, key update, application data in both directions, ending a session — does not panic,
whatever the device delivers.  The exception is the loop of C55 again. -/
theorem C76_inside {e : REnv} {c c' : Ctx} {h : List (REnv × Op)} {op : Op} (ha : Attached c) (hr : Runs c h c')
    (hh : ∀ p ∈ h, SecurePeripherals p.1 ∧ Asked c.cc.measCap p.2) (he : SecurePeripherals e) (ho : Asked c.cc.measCap op) (hp : op.run e c' = .panic) :
    ∃ fuel sid slot ps y, op = .certificate fuel sid slot ∧ Fetches e sid slot ps (fetchStart sid c') y ∧ ps.length = fuel ∧ (4096 ≤ fuel → 0 ∈ ps) := by
  obtain ⟨hk, hm, hi⟩ := ha.base
  rcases asked_calm hk hm he ho (runs_in hk hm hr hh hi) with ⟨⟨fuel, sid, slot, ps, y, h1, h2, h3⟩, -⟩ | ht
  · refine ⟨fuel, sid, slot, ps, y, h1, h2, h3, fun hf => ?_⟩
    refine Classical.byContradiction fun hz => ?_
    have h4 := (C55_progress_partial sid slot c' ps y h2).2
    rw [List.filter_eq_self.2 fun a ha => by
      have : a ≠ 0 := fun h => hz (h ▸ ha)
      simpa using this] at h4
    omega
  · exact absurd hp ht.ne

/-- over MCTP nothing more than an AEAD that keeps sizes is needed. -/
theorem secures_mctp {e : REnv} (ht : e.tr = Mctp.transport) (ha : Session.AeadFits e.crypto) (hr : ∀ l p, e.recv l = some p → p.length ≤ 4160) : Secures e 4160 := by
  refine ⟨by rw [ht]; exact Rsp.roomy_mctp, ha, fun l p h => ⟨hr l p h, fun q hq => ?_⟩⟩
  unfold Rsp.received at hq
  cases hx : Ctx.intoBuf2 (e.tr.decap p) 4160 with
  | ok r =>
    rw [hx] at hq
    cases hq
    have := Rsp.intoBuf2_le hx
    dsimp only at this
    omega
  | err _ => rw [hx] at hq; cases hq
  | panic => rw [hx] at hq; cases hq

/-- over PCI DOE the device must not deliver a record of more than 4120 bytes. -/
theorem secures_doe {e : REnv} (ht : e.tr = PciDoe.transport) (ha : Session.AeadFits e.crypto)
    (hr : ∀ l p, e.recv l = some p → p.length ≤ 4160 ∧ ∀ q, Rsp.received e.toEnv p = some (q, true) → q.length ≤ 4120) : Secures e 4096 :=
  ⟨by rw [ht]; exact Rsp.roomy_doe, ha, hr⟩

/-! ### A concrete history -/

theorem secure_of {e : REnv} (h : e.toEnv = boundedDevice.toEnv) (hr : ∀ l p, e.recv l = some p → p.length ≤ 4160) : SecurePeripherals e := by
  refine ⟨peripherals_of h hr, 4160, secures_mctp (by rw [h]; rfl) ?_ hr⟩
  rw [h]
  exact (toy_serves mctpToy rfl rfl rfl rfl rfl rfl fun _ _ => rfl).aead

/-- a responder reached over MCTP, by a device of the receive buffer's size. -/
def mctpDevice : REnv :=
  { boundedDevice with recv := fun l => (Toy.answer boundedDevice.toEnv Toy.rsp0 l).bind fun p => if p.length ≤ 4160 then some p else none }

/-- the requester of the case fetches a chain and starts a session. -/
def insideOps : List Op := [.digests none, .certificate 5 none 0, .keyExchange 0 .none, .finish none 0xFFFDFFFD]

/-- what `Attached` asks of sessions and chains, to be evaluated. -/
def attachedCheck (c : Ctx) : Bool :=
  decide (BaseHash.size? c.neg.baseHash = some 32) && (List.finRange 8).all (fun i => match c.peer.chain i with | none => true | some ch => decide (36 ≤ ch.length)) &&
  c.sessions.all fun s => decide (s.state ≠ .notStarted ∨ s.th.isSome = true → s.hash = c.neg.baseHash ∧ ((BaseHash.size? s.hash).isSome = true ∧ (Aead.keySize? s.aead).isSome = true ∧ (Aead.ivSize? s.aead).isSome = true ∧
    (Aead.tagSize? s.aead).isSome = true) ∧ (s.usePsk = true → s.pskHint.isSome = true))

theorem attached_of {e0 : REnv} {c0 c1 c : Ctx} (hn : ∀ i, c0.peer.chain i = none) (he : Carrier e0) (h : (Op.connect).run e0 c0 = .ok () c1) (hneg : c.neg = c1.neg)
    (hc : attachedCheck c = true) : Attached c := by
  unfold attachedCheck at hc
  simp only [Bool.and_eq_true, List.all_eq_true, decide_eq_true_eq] at hc
  obtain ⟨⟨h1, h2⟩, h3⟩ := hc
  refine ⟨⟨e0, c0, c1, hn, he, h, hneg⟩, fun i ch hs hi hh => ?_, fun s hs hst => h3 s hs hst⟩
  have := h2 i (List.mem_finRange i)
  rw [hi] at this
  rw [h1] at hh
  cases hh
  simpa using this

/-- **C76**, a case: a requester in the middle of a session, established over MCTP, then asks anything but certificates, and the device delivers
anything that fits: no panic. -/
theorem C76_inside_case (g : List Bytes → Option Bytes) (hg : ∀ l p, g l = some p → p.length ≤ 4160) (op : Op) (ho : Asked true op)
    (hc : ∀ fuel sid slot, op ≠ .certificate fuel sid slot) :
    ∃ c, Runs Toy.req0 ((.connect :: insideOps).map fun o => (mctpDevice, o)) c ∧ (c.session? 0xFFFDFFFD).map (·.state) = some .established ∧ op.run { boundedDevice with recv := g } c ≠ .panic := by
  have hx : ∃ c1 c r, (Op.connect).run mctpDevice Toy.req0 = .ok () c1 ∧ Toy.runOps mctpDevice c1 insideOps = some (r, c) ∧ c1.neg = c.neg ∧ c.cc.measCap = true ∧
      attachedCheck c = true ∧ (c.session? 0xFFFDFFFD).map (·.state) = some .established := by
    have h : (match (Op.connect).run mctpDevice Toy.req0 with
        | .ok _ c1 => (match Toy.runOps mctpDevice c1 insideOps with
          | some (_, c) => decide (c1.neg = c.neg) && c.cc.measCap && attachedCheck c && decide ((c.session? 0xFFFDFFFD).map (·.state) = some .established)
          | none => false)
        | _ => false) = true := by decide +kernel
    split at h
    · rename_i c1 h1
      split at h
      · rename_i r c h2
        simp only [Bool.and_eq_true, decide_eq_true_eq] at h
        exact ⟨c1, c, r, h1, h2, h.1.1.1, h.1.1.2, h.1.2, h.2⟩
      · cases h
    · cases h
  obtain ⟨c1, c, r, h1, h2, h3, h4, h5, h6⟩ := hx
  have hr : ∀ l p, mctpDevice.recv l = some p → p.length ≤ 4160 := fun l p h => by
    change ((Toy.answer boundedDevice.toEnv Toy.rsp0 l).bind fun p => if p.length ≤ 4160 then some p else none) = some p at h
    obtain ⟨q, -, hq⟩ := Option.bind_eq_some_iff.1 h
    split at hq
    · cases hq; assumption
    · cases hq
  have hat : Attached c := attached_of (fun _ => rfl) (secure_of (e := mctpDevice) rfl hr).carrier h1 h3.symm h5
  refine ⟨c, .cons (.inl h1) (runOps_runs _ h2), h6, fun hp => ?_⟩
  obtain ⟨fuel, sid, slot, ps, y, h, -⟩ := C76_inside hat (h := []) .nil (fun _ h => by cases h) (secure_of (e := { boundedDevice with recv := g }) rfl hg) (by rw [h4]; exact ho) hp
  exact hc fuel sid slot h

/-- a responder that asks every requester to authenticate, also one without a signature algorithm of its own. -/
def askingDevice : REnv :=
  { boundedDevice with recv := fun l => Toy.answer { boundedDevice.toEnv with asksMutual := true } Toy.rsp0 l }

/-- the requests up to the one in doubt. -/
def unableOps : List Op := [.connect, .digests none, .certificate 5 none 0, .keyExchange 0 .none]

/-- A responder that asks a requester to authenticate although no signature algorithm was negotiated for requesters has its KEY_EXCHANGE_RSP
accepted, and aborts the requester when that sends FINISH: the size of the signature of no algorithm is asked for. -/
theorem C76_finish_violated :
    ((Toy.runOps askingDevice Toy.req0 unableOps).map fun x => (x.1, x.2.neg.reqAsym, (x.2.session? 0xFFFDFFFD).map (·.mutAuth))) = some ([none, none, none, none], 0, some 4) ∧
    Toy.runOps askingDevice Toy.req0 (unableOps ++ [.finish none 0xFFFDFFFD]) = none := by
  constructor
  · decide +kernel
  · have h : (Toy.runOps askingDevice Toy.req0 (unableOps ++ [.finish none 0xFFFDFFFD])).isNone = true := by decide +kernel
    exact Option.isNone_iff_eq_none.1 h

end Verif.Props
