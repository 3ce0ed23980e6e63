/-
C76: nothing a device delivers makes a requester panic as long as it asks outside sessions.
-/
import Verif.Requester.CalmOps
import Verif.Props.CertLoop
import Verif.Spec.ToyReq

namespace Verif.Props
open Verif Req M Res

/-- what a requester relies on: packets of its transport fit the buffers, the device delivers no more than the receive buffer
holds, and certificates are located inside the array they were looked for in. -/
structure Peripherals (e : REnv) : Prop where
  carrier : Carrier e
  located : Located e

/-- both transports of the library with any device that respects the receive buffer. -/
theorem carrier_mctp {e : REnv} (ht : e.tr = Mctp.transport) (hr : ∀ l p, e.recv l = some p → p.length ≤ 4160) : Carrier e :=
  ⟨fun msg _ => by rw [ht]; exact Rsp.mctp_encap msg false _, fun rx _ => by rw [ht]; exact Rsp.mctp_decap rx _, hr⟩

theorem carrier_doe {e : REnv} (ht : e.tr = PciDoe.transport) (hr : ∀ l p, e.recv l = some p → p.length ≤ 4160) : Carrier e :=
  ⟨fun msg h => by rw [ht]; exact Rsp.doe_encap msg false _ (by omega), fun rx _ => by rw [ht]; exact Rsp.doe_decap rx _, hr⟩

/-- **C76**: connecting never panics, from any state and whatever the device delivers. -/
theorem C76_connect {e : REnv} (he : Carrier e) (c : Ctx) : (Op.connect).run e c ≠ .panic :=
  (calm_initConnection (I := fun _ => True) (fun _ _ _ _ => trivial) he c trivial).ne

/-- the requests without a session; measurements only of a responder that has said it has them. -/
def Outside (meas : Bool) : Op → Prop
  | .digests none | .certificate _ none _ | .challenge _ _ => True
  | .measurements none _ _ _ => meas = true
  | _ => False

variable {e : REnv} {n : Neg}

/-- the loop of GET_CERTIFICATE returns, or has used its fuel up on accepted responses. -/
theorem loop_calm {P : List Session → Prop} {g : BaseHash} (hP : Lasts g P) {sid : Option UInt32} (he : Transacts n P e sid) (slot : UInt8) : ∀ (fuel : Nat) (x : Fetch), Base n P x.ctx →
    (∃ ps y, Fetches e sid slot ps x y ∧ ps.length = fuel) ∨
    (certificateLoop e sid slot fuel x.total x.offset x.length).Tot x.ctx (fun _ c' => Base n P c') (fun _ c' => Base n P c')
  | 0, x, _ => .inl ⟨[], x, .nil, rfl⟩
  | fuel + 1, x, hx => by
    rw [certificateLoop]
    by_cases hl : x.length = 0
    · rw [if_pos hl]
      exact .inr (tot_pure hx)
    · rw [if_neg hl]
      have h := calm_partial (n := n) hP he slot x.total x.offset x.length x.ctx hx
      cases hp : getCertificatePartial e sid slot x.total x.offset x.length x.ctx with
      | panic => exact absurd hp h.ne
      | err st c' =>
        refine .inr (Tot.err (r := st) (s' := c') ?_ (h.of_err hp))
        rw [M.bind_apply, hp]
      | ok p c' =>
        obtain ⟨portion, remainder⟩ := p
        rcases loop_calm hP he slot fuel ⟨if x.total = 0 then portion + remainder else x.total, x.offset + portion, if remainder > 512 then 512 else remainder, c'⟩ (h.of_ok hp).1 with ⟨ps, y, h1, h2⟩ | h1
        · exact .inl ⟨portion :: ps, y, .cons hl hp h1, by rw [List.length_cons, h2]⟩
        · refine .inr ?_
          unfold M.Tot at h1 ⊢
          rw [M.bind_apply, hp]
          exact h1

/-- the GET_CERTIFICATE loop has used its fuel up. -/
def Loops (e : REnv) (op : Op) (c : Ctx) : Prop :=
  ∃ fuel sid slot ps y, op = .certificate fuel sid slot ∧ Fetches e sid slot ps (fetchStart sid c) y ∧ ps.length = fuel

theorem certificate_calm {P : List Session → Prop} {g : BaseHash} (hP : Lasts g P) (hk : Known n) (hl : Located e) {sid : Option UInt32} (he : Transacts n P e sid) (fuel : Nat) (slot : UInt8)
    {c : Ctx} (hc : Base n P c) :
    (Loops e (.certificate fuel sid slot) c ∧ (Op.certificate fuel sid slot).run e c = .panic) ∨
    ((Op.certificate fuel sid slot).run e).Tot c (fun _ c' => Base n P c') (fun _ c' => Base n P c') := by
  cases hi : Ctx.slot? slot with
  | none =>
    refine .inr ?_
    show (getCertificate e fuel sid slot).Tot c _ _
    unfold getCertificate
    rw [hi]
    exact tot_fail hc
  | some i =>
    have hs : Base n P (fetchStart sid c).ctx := by
      have h1 : Base n P (Ctx.resetBuffers .reqGetCertificate sid c) := calm_reset (base_stable hP) _ _ c hc
      exact base_stable hP _ _ h1 rfl rfl rfl (lasting_refl _)
    rcases loop_calm hP he slot fuel (fetchStart sid c) hs with ⟨ps, y, h1, h2⟩ | h1
    · refine .inl ⟨⟨fuel, sid, slot, ps, y, rfl, h1, h2⟩, ?_⟩
      have h3 := fetches_loop h1 0
      rw [Nat.add_zero, h2] at h3
      have h3 : certificateLoop e sid slot fuel 0 0 512 (fetchStart sid c).ctx = .panic := h3
      show getCertificate e fuel sid slot c = .panic
      unfold getCertificate
      rw [hi]
      change (certificateLoop e sid slot fuel 0 0 512 >>= fun t => storeChain e i t) (fetchStart sid c).ctx = .panic
      rw [M.bind_apply, h3]
    · refine .inr ?_
      show (getCertificate e fuel sid slot).Tot c _ _
      unfold getCertificate
      rw [hi]
      change ((do
        M.modify (Ctx.resetBuffers .reqGetCertificate sid)
        M.modify fun c => { c with peer := { c.peer with temp := some [] } }
        let total ← certificateLoop e sid slot fuel 0 0 512
        storeChain e i total : M Status Ctx Unit)).Tot c _ _
      refine tot_modify_bind (tot_modify_bind ?_)
      exact Tot.bind h1 fun total c' h => (calm_storeChain hP hk hl i total c' h).mono (fun _ _ h => h.1) fun _ _ h => h

theorem Calm.drop {P : List Session → Prop} {x : M Status Ctx Unit} (h : Calm (Base n P) x (fun _ => True)) {c : Ctx} (hc : Base n P c) :
    x.Tot c (fun _ c' => Base n P c') (fun _ c' => Base n P c') := (h c hc).mono (fun _ _ h => h.1) fun _ _ h => h

/-- no condition on sessions. -/
def Any : List Session → Prop := fun _ => True
theorem any_lasts : Lasts 0 Any := fun _ _ _ _ => trivial

/-- one request of a connected requester. -/
theorem outside_calm (hk : Known n) {meas : Bool} (hm : meas = true → (MeasHash.size? n.measHash).isSome = true) (he : Peripherals e) {op : Op} (ho : Outside meas op)
    {c : Ctx} (hc : Base n Any c) :
    (Loops e op c ∧ op.run e c = .panic) ∨ (op.run e).Tot c (fun _ c' => Base n Any c') (fun _ c' => Base n Any c') := by
  have ht : Transacts n Any e none := transacts_none any_lasts he.carrier
  match op, ho with
  | .digests none, _ => exact .inr (Calm.drop (calm_getDigests any_lasts hk ht) hc)
  | .challenge slot t, _ => exact .inr (Calm.drop (calm_challenge any_lasts hk he.carrier slot t) hc)
  | .measurements none slot attr op, ho =>
    exact .inr (Calm.drop ((calm_getMeasurements any_lasts hk (hm ho) ht slot attr op).bind fun _ _ => Calm.pure trivial) hc)
  | .certificate fuel none slot, _ => exact certificate_calm any_lasts hk he.located ht fuel slot hc

/-- what connecting leaves behind. -/
theorem connected_known {e : REnv} {c c1 : Ctx} (he : Carrier e) (hn : ∀ i, c.peer.chain i = none) (h : (Op.connect).run e c = .ok () c1) :
    Known c1.neg ∧ (c1.cc.measCap = true → (MeasHash.size? c1.neg.measHash).isSome = true) ∧ Req.Set c1.neg c1 := by
  have hch : c1.peer.chain = c.peer.chain :=
    ((calm_initConnection (I := fun c' => c'.peer.chain = c.peer.chain) (fun _ _ h h2 => h2.trans h) he c rfl).of_ok h).1
  obtain ⟨_, ca, h1, h2⟩ := M.bind_ok.1 h
  obtain ⟨_, cb, h3, h4⟩ := M.bind_ok.1 h2
  obtain ⟨pkt, bytes, t, l, -, -, hs⟩ := C33_settled_partial h4
  refine ⟨⟨?_, ?_⟩, fun hm => ?_, ⟨rfl, fun i ch k hi => ?_⟩⟩
  · have := hs.hash.1
    revert this
    generalize c1.neg.baseHash = x
    intro hx
    simp only [List.mem_cons, List.not_mem_nil, or_false] at hx
    rcases hx with rfl | rfl | rfl <;> decide
  · have := hs.asym.1
    revert this
    generalize c1.neg.baseAsym = x
    intro hx
    simp only [List.mem_cons, List.not_mem_nil, or_false] at hx
    rcases hx with rfl | rfl | rfl | rfl | rfl | rfl | rfl | rfl <;> decide
  · have hm' : cb.cc.measCap = true := by
      have hr := hs.rest
      have : c1.neg.rspCaps = cb.neg.rspCaps := by rw [hr]
      unfold Cc.measCap at hm ⊢
      rw [show c1.cc.neg.rspCaps = cb.cc.neg.rspCaps from this] at hm
      exact hm
    have h0 := hs.measHash.2 hm'
    have := hs.measHash.1
    revert this h0
    generalize c1.neg.measHash = x
    intro h0 hx
    simp only [List.mem_cons, List.not_mem_nil, or_false] at hx
    rcases hx with rfl | rfl | rfl | rfl | rfl | rfl | rfl
    · exact absurd rfl h0
    all_goals decide
  · rw [hch, hn i] at hi
    cases hi

theorem runs_set (hk : Known n) {meas : Bool} (hm : meas = true → (MeasHash.size? n.measHash).isSome = true) {h : List (REnv × Op)} {c c' : Ctx} (hr : Runs c h c')
    (hh : ∀ p ∈ h, Peripherals p.1 ∧ Outside meas p.2) (hc : Base n Any c) : Base n Any c' := by
  induction hr with
  | nil => exact hc
  | cons hl _ ih =>
    rename_i c c1 c' e op h _
    obtain ⟨he, ho⟩ := hh (e, op) List.mem_cons_self
    refine ih (fun p hp => hh p (List.mem_cons_of_mem _ hp)) ?_
    rcases outside_calm hk hm he ho hc with ⟨-, hp⟩ | ht
    · rcases hl with hl | ⟨st, hl⟩ <;> rw [hp] at hl <;> cases hl
    · rcases hl with hl | ⟨st, hl⟩
      · exact ht.of_ok hl
      · exact ht.of_err hl

/-- **C76**: a requester that has connected, and since then fetched digests, certificate chains, measurements and challenged the
peer, any number of times and with any outcome, does not panic on its next such request, whatever the device has delivered and
delivers.  The one exception is the endless loop of C55, which the model shows as a panic after `fuel` rounds: then `fuel` CERTIFICATE
responses were accepted for one chain and, from 4096 rounds on, one of them was empty. -/
theorem C76_outside {e0 e : REnv} {c0 c1 c : Ctx} {h : List (REnv × Op)} {op : Op} (hn : ∀ i, c0.peer.chain i = none) (he0 : Carrier e0)
    (h0 : (Op.connect).run e0 c0 = .ok () c1) (hr : Runs c1 h c) (hh : ∀ p ∈ h, Peripherals p.1 ∧ Outside c1.cc.measCap p.2)
    (he : Peripherals e) (ho : Outside c1.cc.measCap op) (hp : op.run e c = .panic) :
    ∃ fuel slot ps y, op = .certificate fuel none slot ∧ Fetches e none slot ps (fetchStart none c) y ∧ ps.length = fuel ∧ (4096 ≤ fuel → 0 ∈ ps) := by
  obtain ⟨hk, hm, hs⟩ := connected_known he0 hn h0
  rcases outside_calm hk hm he ho (runs_set hk hm hr hh ⟨hs, trivial⟩) with ⟨⟨fuel, sid, slot, ps, y, h1, h2, h3⟩, -⟩ | ht
  · subst h1
    obtain rfl : sid = none := by cases sid with | none => rfl | some i => exact ho.elim
    refine ⟨fuel, slot, ps, y, rfl, h2, h3, fun hf => ?_⟩
    refine Classical.byContradiction fun hz => ?_
    have h4 := (C55_progress_partial none slot c ps y h2).2
    rw [List.filter_eq_self.2 fun a ha => by
      have : a ≠ 0 := fun h => hz (h ▸ ha)
      simpa using this] at h4
    omega
  · exact absurd hp ht.ne

/-- **C76**: so digests, challenge and measurements never panic. -/
theorem C76_answered {e0 e : REnv} {c0 c1 c : Ctx} {h : List (REnv × Op)} {op : Op} (hn : ∀ i, c0.peer.chain i = none) (he0 : Carrier e0)
    (h0 : (Op.connect).run e0 c0 = .ok () c1) (hr : Runs c1 h c) (hh : ∀ p ∈ h, Peripherals p.1 ∧ Outside c1.cc.measCap p.2)
    (he : Peripherals e) (ho : Outside c1.cc.measCap op) (hc : ∀ fuel slot, op ≠ .certificate fuel none slot) : op.run e c ≠ .panic := fun hp => by
  obtain ⟨fuel, slot, -, -, h1, -⟩ := C76_outside hn he0 h0 hr hh he ho hp
  exact hc fuel slot h1

/-! ### A concrete history, and what is not covered -/

/-- an MCTP device of the receive buffer's size behind which the toy responder answers. -/
def boundedDevice : REnv :=
  { Toy.renv with tr := Mctp.transport, recv := fun l => (Toy.renv.recv l).bind fun p => if p.length ≤ 4160 then some p else none }

theorem peripherals_of {e : REnv} (h : e.toEnv = boundedDevice.toEnv) (hr : ∀ l p, e.recv l = some p → p.length ≤ 4160) : Peripherals e := by
  refine ⟨carrier_mctp (by rw [h]; rfl) hr, fun d b en hd => ?_⟩
  rw [h] at hd
  change (if (0 : Int) = 0 ∧ 4 ≤ d.length then some (0, 4) else none) = some (b, en) at hd
  split at hd
  · cases hd; omega
  · cases hd

theorem bounded_peripherals : Peripherals boundedDevice := by
  refine peripherals_of rfl fun l p h => ?_
  change ((Toy.renv.recv l).bind fun p => if p.length ≤ 4160 then some p else none) = some p at h
  cases hr : Toy.renv.recv l with
  | none => rw [hr] at h; cases h
  | some q =>
    rw [hr] at h
    change (if q.length ≤ 4160 then some q else none) = some p at h
    split at h
    · cases h; assumption
    · cases h

/-- what the requester of the case has done after connecting. -/
def boundedOps : List Op := [.digests none, .certificate 5 none 0, .challenge 0 .all]

/-- **C76**, a case: a requester that has connected, fetched a chain and challenged its peer then asks for measurements, and the device
delivers anything that fits: no panic. -/
theorem C76_case (g : List Bytes → Option Bytes) (hg : ∀ l p, g l = some p → p.length ≤ 4160) (slot attr : UInt8) (op : MeasOperation) :
    ∃ c1 c, (Op.connect).run boundedDevice Toy.req0 = .ok () c1 ∧ Runs c1 (boundedOps.map fun o => (boundedDevice, o)) c ∧ (c.peer.chain 0).isSome = true ∧
      (Op.measurements none slot attr op).run { boundedDevice with recv := g } c ≠ .panic := by
  have hx : ∃ c1 c2 c3 c4, (Op.connect).run boundedDevice Toy.req0 = .ok () c1 ∧ (Op.digests none).run boundedDevice c1 = .ok () c2 ∧
      (Op.certificate 5 none 0).run boundedDevice c2 = .ok () c3 ∧ (Op.challenge 0 .all).run boundedDevice c3 = .ok () c4 ∧ c1.cc.measCap = true ∧ (c4.peer.chain 0).isSome = true := by
    have h : ((Toy.runOps boundedDevice Toy.req0 (.connect :: boundedOps)).map fun x => x.1) = some [none, none, none, none] := by decide +kernel
    have hm : ((Toy.runOps boundedDevice Toy.req0 [.connect]).map fun x => (x.1, x.2.cc.measCap)) = some ([none], true) := by decide +kernel
    have hp : ((Toy.runOps boundedDevice Toy.req0 (.connect :: boundedOps)).map fun x => (x.2.peer.chain 0).isSome) = some true := by decide +kernel
    simp only [Toy.runOps, boundedOps] at h hm hp
    cases h1 : (Op.connect).run boundedDevice Toy.req0 with
    | ok u c1 =>
      rw [h1] at h hm hp
      dsimp only at h hm hp
      cases h2 : (Op.digests none).run boundedDevice c1 with
      | ok u c2 =>
        rw [h2] at h hp
        dsimp only at h hp
        cases h3 : (Op.certificate 5 none 0).run boundedDevice c2 with
        | ok u c3 =>
          rw [h3] at h hp
          dsimp only at h hp
          cases h4 : (Op.challenge 0 .all).run boundedDevice c3 with
          | ok u c4 =>
            rw [h4] at h hp
            exact ⟨c1, c2, c3, c4, rfl, h2, h3, h4, by simpa using hm, by simpa using hp⟩
          | err st c => rw [h4] at h; simp at h
          | panic => rw [h4] at h; simp at h
        | err st c => rw [h3] at h; dsimp only at h; split at h <;> simp at h
        | panic => rw [h3] at h; simp at h
      | err st c => rw [h2] at h; dsimp only at h; split at h <;> try simp at h
      | panic => rw [h2] at h; simp at h
    | err st c => rw [h1] at hm; simp at hm
    | panic => rw [h1] at hm; simp at hm
  obtain ⟨c1, c2, c3, c4, h1, h2, h3, h4, hm, hp⟩ := hx
  have hr : Runs c1 (boundedOps.map fun o => (boundedDevice, o)) c4 := .cons (.inl h2) (.cons (.inl h3) (.cons (.inl h4) .nil))
  refine ⟨c1, c4, h1, hr, hp, C76_answered (fun _ => rfl) bounded_peripherals.carrier h1 hr ?_ (peripherals_of rfl hg) hm fun _ _ h => by cases h⟩
  intro p hp
  simp only [boundedOps, List.map_cons, List.map_nil, List.mem_cons, List.not_mem_nil, or_false] at hp
  rcases hp with rfl | rfl | rfl <;> exact ⟨bounded_peripherals, trivial⟩

/-- a responder without MEAS_CAP and without a measurement hash that answers GET_MEASUREMENTS all the same, with a digest. -/
def deniedRecv (l : List Bytes) : Option Bytes :=
  let q : Bytes := l.getLast?.getD []
  if q.getD 2 0 = 224 then some [5, 18, 0x60, 0, 0, 1, 7, 0, 0, 1, 1, 3, 0, 0, 0, 0]
  else (boundedDevice.recv l).map fun p => if p.getD 2 0 = 0x61 then p.set 9 0xC6 else if p.getD 2 0 = 0x63 then (p.set 9 0).set 7 0 else p

/-- Asking a responder that has announced no measurements for some aborts the requester when the answer holds a measurement digest: the size
of an unselected measurement hash is asked for. -/
theorem C76_measurements_violated :
    ((Toy.runOps { boundedDevice with recv := deniedRecv } Toy.req0 [.connect]).map fun x => (x.1, x.2.cc.measCap, x.2.neg.measHash)) = some ([none], false, 0) ∧
    Toy.runOps { boundedDevice with recv := deniedRecv } Toy.req0 [.connect, .measurements none 0 0 .queryTotalNumber] = none := by
  constructor
  · decide +kernel
  · have h : (Toy.runOps { boundedDevice with recv := deniedRecv } Toy.req0 [.connect, .measurements none 0 0 .queryTotalNumber]).isNone = true := by decide +kernel
    exact Option.isNone_iff_eq_none.1 h

end Verif.Props
