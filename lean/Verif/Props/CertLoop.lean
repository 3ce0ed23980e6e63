/-
C55: how many requests it takes to fetch a certificate chain.
-/
import Verif.Props.AgreeSession
import Verif.Requester.Goes

namespace Verif.Props
open Verif Req

variable {e : REnv}

/-- where the fetching of a chain stands: the size it is taken to have, the offset and the length that are asked for next. -/
structure Fetch where
  total : UInt16
  offset : UInt16
  length : UInt16
  ctx : Ctx

/-- fetching continues from `x` to `y` with accepted CERTIFICATE responses that carried portions of the lengths `ps`
(the loop of requester/get_certificate_req.rs:202-216, spelled out). -/
inductive Fetches (e : REnv) (sid : Option UInt32) (slot : UInt8) : List UInt16 → Fetch → Fetch → Prop
  | nil {x : Fetch} : Fetches e sid slot [] x x
  | cons {x y : Fetch} {ps : List UInt16} {portion remainder : UInt16} {c : Ctx} (hl : x.length ≠ 0)
      (h : getCertificatePartial e sid slot x.total x.offset x.length x.ctx = .ok (portion, remainder) c)
      (ht : Fetches e sid slot ps ⟨if x.total = 0 then portion + remainder else x.total, x.offset + portion, if remainder > 512 then 512 else remainder, c⟩ y) :
      Fetches e sid slot (portion :: ps) x y

/-- where it starts. -/
def fetchStart (sid : Option UInt32) (c : Ctx) : Fetch :=
  ⟨0, 0, 512, { Ctx.resetBuffers .reqGetCertificate sid c with peer := { (Ctx.resetBuffers .reqGetCertificate sid c).peer with temp := some [] } }⟩

/-- the loop of the model does these exchanges, and is then where they lead. -/
theorem fetches_loop {sid : Option UInt32} {slot : UInt8} {ps : List UInt16} {x y : Fetch} (h : Fetches e sid slot ps x y) (k : Nat) :
    certificateLoop e sid slot (ps.length + k) x.total x.offset x.length x.ctx = certificateLoop e sid slot k y.total y.offset y.length y.ctx := by
  induction h with
  | nil => simp
  | cons hl h _ ih =>
    rename_i x y ps portion remainder c _
    rw [← ih, List.length_cons, Nat.add_right_comm]
    show certificateLoop e sid slot ((ps.length + k) + 1) _ _ _ _ = _
    rw [certificateLoop, if_neg hl, M.bind_apply, h]

/-- **C55**: each accepted portion costs one packet. -/
theorem C55_packets (sid : Option UInt32) (slot : UInt8) (ps : List UInt16) (x y : Fetch) (h : Fetches e sid slot ps x y) :
    y.ctx.sent.length = x.ctx.sent.length + ps.length := by
  induction h with
  | nil => simp
  | cons hl h _ ih =>
    rename_i x y ps portion remainder c _
    obtain ⟨bytes, c2, p, m, temp', k1, k2, k3, k4, k5, k6, k7, k8⟩ := getCertificatePartial_ok h
    have hs : c.sent.length = x.ctx.sent.length + 1 := by
      have : c.sent = c2.sent := by rw [k8]; dsimp only; split <;> rfl
      rw [this]
      obtain ⟨pkt, p, -, hc⟩ := k1
      cases sid with
      | none => obtain ⟨-, -, rfl⟩ := hc; simp [Rsp.withSent]
      | some i => obtain ⟨s, -, -, -, -, rfl⟩ := hc; simp [Rsp.withSent, Ctx.updSession]
    rw [ih, hs, List.length_cons]
    omega

theorem fetches_sum {sid : Option UInt32} {slot : UInt8} {ps : List UInt16} {x y : Fetch} (h : Fetches e sid slot ps x y) (ho : x.offset.toNat ≤ 4096) :
    x.offset.toNat + (ps.map UInt16.toNat).sum = y.offset.toNat ∧ y.offset.toNat ≤ 4096 ∧ (ps ≠ [] → y.offset.toNat + y.length.toNat < 4096) := by
  induction h with
  | nil => simp [ho]
  | cons hl h ht ih =>
    rename_i x y ps portion remainder c
    obtain ⟨bytes, c2, p, m, temp', k1, k2, k3, k4, k5, k6, k7, k8⟩ := getCertificatePartial_ok h
    obtain ⟨rfl, rfl⟩ := Prod.mk.inj k6
    obtain ⟨b1, b2, b3, _⟩ := accepted_bound k3 ho
    have hadd : (x.offset + m.portion).toNat = x.offset.toNat + m.portion.toNat := by rw [UInt16.toNat_add]; omega
    obtain ⟨i1, i2, i3⟩ := ih (by show (x.offset + m.portion).toNat ≤ _; omega)
    have i1 : (x.offset + m.portion).toNat + _ = _ := i1
    refine ⟨by simp only [List.map_cons, List.sum_cons]; omega, i2, fun _ => ?_⟩
    cases ps with
    | cons a l => exact i3 (by simp)
    | nil =>
      cases ht
      show (x.offset + m.portion).toNat + (if m.remainder > 512 then 512 else m.remainder : UInt16).toNat < _
      have : (if m.remainder > 512 then 512 else m.remainder : UInt16).toNat ≤ m.remainder.toNat := by
        split
        · rename_i h; exact Nat.le_of_lt (UInt16.lt_iff_toNat_lt.1 h)
        · exact Nat.le_refl _
      omega

theorem filter_sum (ps : List UInt16) : (ps.filter (· ≠ 0)).length ≤ (ps.map UInt16.toNat).sum := by
  induction ps with
  | nil => simp
  | cons a l ih =>
    by_cases h : a = 0
    · subst h; simpa using ih
    · have : 0 < a.toNat := Nat.pos_of_ne_zero fun hx => h (UInt16.toNat_inj.1 hx)
      rw [List.filter_cons_of_pos (by simpa using h), List.length_cons, List.map_cons, List.sum_cons]
      omega

/-- **C55**: whatever the peer, fewer than 4096 responses with anything in them are accepted for one chain. -/
theorem C55_progress_partial (sid : Option UInt32) (slot : UInt8) (c : Ctx) (ps : List UInt16) (y : Fetch) (h : Fetches e sid slot ps (fetchStart sid c) y) :
    (ps.map UInt16.toNat).sum < 4096 ∧ (ps.filter (· ≠ 0)).length < 4096 := by
  obtain ⟨h1, h2, h3⟩ := fetches_sum h (Nat.zero_le _)
  have h1 : 0 + (ps.map UInt16.toNat).sum = _ := h1
  have hs : (ps.map UInt16.toNat).sum < 4096 := by
    by_cases hp : ps = []
    · subst hp; simp
    · have := h3 hp; omega
  exact ⟨hs, Nat.lt_of_le_of_lt (filter_sum ps) hs⟩

/-! ### The loop that does not end -/

/-- the response that makes no progress: CERTIFICATE of the slot with an empty portion and `rem` bytes to come. -/
def emptyPortion (v slot : UInt8) (rem : UInt16) : Bytes := v :: 0x02 :: slot :: 0 :: 0 :: 0 :: putU16 rem

/-- a peer that answers everything with that response, over a transport and a device that take the requests. -/
structure Stalls (e : REnv) (v slot : UInt8) (rem : UInt16) : Prop where
  packet : ∃ p, (∀ sent, e.recv sent = some p) ∧ p.length ≤ 4160 ∧ Ctx.decap e.toEnv p 4096 = .ok (emptyPortion v slot rem)
  goes : ∀ m : Bytes, m.length = 8 → ∃ pkt, Ctx.encap e.toEnv m = .ok pkt ∧ ∀ n, e.send n pkt = none

theorem emptyPortion_read (slot : UInt8) (rem : UInt16) : CertRsp.read ⟨slot :: 0 :: 0 :: 0 :: putU16 rem, 2⟩ = .ok ⟨slot, 0, rem, []⟩ ⟨[], 8⟩ := by
  have h := CertRsp.read_rt (m := ⟨slot, 0, rem, []⟩) ⟨rfl, by simp⟩ [] 2
  simpa [CertRsp.wire, putU16] using h

theorem stall_step {slot v : UInt8} {rem total : UInt16} {c : Ctx} (hst : Stalls e v slot rem) (hrem : rem < 4096)
    (hf : c.neg.rspDts = 0 ∨ 8 ≤ c.neg.rspDts.toNat) (hv : SpdmVersion.ofCode v = c.neg.version)
    (hh : (e.crypto.hash c.neg.baseHash []).isSome) (ht : c.peer.temp = some []) (htot : total = 0 ∨ total = rem) :
    ∃ c', getCertificatePartial e none slot total 0 512 c = .ok (0, rem) c' ∧ c'.neg = c.neg ∧ c'.peer.temp = some [] := by
  obtain ⟨p, h1, h2, h3⟩ := hst.packet
  obtain ⟨pkt, h4, h5⟩ := hst.goes (certAsk c.neg.version.get slot 0 512) (by simp [certAsk, putU16])
  have hok : portionRefused total 0 512 ⟨slot, 0, rem, []⟩ = false := by
    unfold portionRefused
    simp only [Bool.or_eq_false_iff, Bool.and_eq_false_iff, decide_eq_false_iff_not]
    refine ⟨⟨⟨by decide, by decide⟩, ?_⟩, ?_⟩
    · show ¬ (4096 - 0 - 0 : UInt16) ≤ rem
      rw [UInt16.not_le]; exact hrem
    · rcases htot with rfl | rfl
      · exact .inl (by simp)
      · exact .inr (by simp)
  refine ⟨_, getCertificatePartial_goes (temp := []) hf h4 (h5 _) (h1 _) h2 h3 hv (emptyPortion_read slot rem) hok rfl ht (.inr hh), rfl, ?_⟩
  show some (storePortion 0 ⟨slot, 0, rem, []⟩ []) = some []
  simp [storePortion]

theorem stall_from {slot v : UInt8} {rem : UInt16} (hst : Stalls e v slot rem) (hrem : rem < 4096) (hbig : 512 ≤ rem) (n : Nat) :
    ∀ (total : UInt16) (c : Ctx), c.neg.rspDts = 0 ∨ 8 ≤ c.neg.rspDts.toNat → SpdmVersion.ofCode v = c.neg.version →
    (e.crypto.hash c.neg.baseHash []).isSome → c.peer.temp = some [] → total = 0 ∨ total = rem →
    ∃ y : Fetch, Fetches e none slot (List.replicate n 0) ⟨total, 0, 512, c⟩ y ∧ y.offset = 0 ∧ y.length = 512 := by
  induction n with
  | zero => intro total c _ _ _ _ _; exact ⟨_, .nil, rfl, rfl⟩
  | succ n ih =>
    intro total c hf hv hh ht htot
    obtain ⟨c', h1, h2, h3⟩ := stall_step hst hrem hf hv hh ht htot
    obtain ⟨y, h4, h5, h6⟩ := ih rem c' (by rw [h2]; exact hf) (by rw [h2]; exact hv) (by rw [h2]; exact hh) h3 (.inr rfl)
    refine ⟨y, ?_, h5, h6⟩
    rw [List.replicate_succ]
    refine .cons (by simp) h1 ?_
    have e1 : (if total = 0 then (0 : UInt16) + rem else total) = rem := by
      rcases htot with h | h
      · rw [if_pos h, UInt16.zero_add]
      · split
        · exact UInt16.zero_add _
        · exact h
    have e2 : (if rem > 512 then 512 else rem : UInt16) = 512 := by
      split
      · rfl
      · rename_i h
        exact UInt16.le_antisymm (UInt16.not_lt.1 h) hbig
    show Fetches e none slot _ ⟨if total = 0 then 0 + rem else total, 0 + 0, if rem > 512 then 512 else rem, c'⟩ y
    rw [e1, e2]
    exact h4

/-- **C55** fails: a peer that keeps answering with an empty portion and at least 512 bytes to come is asked for ever.  For every
number of requests there is a run with that many, all answered acceptably, after which the next request is the first one again;
the loop with any fuel runs out of it. -/
theorem C55_endless_violated {slot v : UInt8} {rem : UInt16} {c : Ctx} (hst : Stalls e v slot rem) (hrem : rem < 4096) (hbig : 512 ≤ rem)
    (hf : c.neg.rspDts = 0 ∨ 8 ≤ c.neg.rspDts.toNat) (hv : SpdmVersion.ofCode v = c.neg.version) (hh : (e.crypto.hash c.neg.baseHash []).isSome)
    (hslot : slot < 8) :
    (∀ n, ∃ y : Fetch, Fetches e none slot (List.replicate n 0) (fetchStart none c) y ∧ y.offset = 0 ∧ y.length = 512) ∧
    ∀ fuel, getCertificate e fuel none slot c = .panic := by
  have hr : ∀ n, ∃ y : Fetch, Fetches e none slot (List.replicate n 0) (fetchStart none c) y ∧ y.offset = 0 ∧ y.length = 512 := fun n =>
    stall_from hst hrem hbig n 0 _ hf hv hh rfl (.inl rfl)
  refine ⟨hr, fun fuel => ?_⟩
  obtain ⟨y, h1, -, -⟩ := hr fuel
  have h2 := fetches_loop h1 0
  rw [List.length_replicate] at h2
  have h2 : certificateLoop e none slot fuel 0 0 512 (fetchStart none c).ctx = .panic := h2
  have hi : ∃ i, Ctx.slot? slot = some i := by
    unfold Ctx.slot?
    rw [dif_pos (by exact UInt8.lt_iff_toNat_lt.1 hslot)]
    exact ⟨_, rfl⟩
  obtain ⟨i, hi⟩ := hi
  unfold getCertificate
  rw [hi, M.bind_apply]
  dsimp only [M.ofOption]
  show (M.modify _ >>= fun _ => M.modify _ >>= fun _ => certificateLoop e none slot fuel 0 0 512 >>= fun total => storeChain e i total) c = _
  rw [M.bind_apply, M.modify_apply]
  dsimp only
  rw [M.bind_apply, M.modify_apply]
  dsimp only
  rw [M.bind_apply]
  have h2 : certificateLoop e none slot fuel 0 0 512 { Ctx.resetBuffers .reqGetCertificate none c with peer := { (Ctx.resetBuffers .reqGetCertificate none c).peer with temp := some [] } } = .panic := h2
  rw [h2]

/-! ### An honest responder -/

variable {f : Env} {r0 : Ctx}

/-- one exchange with a responder of this library. -/
theorem honest_step (hl : Linked e f r0) {c c' rc : Ctx} {slot : UInt8} {total off len portion rem : UInt16} {chain : Bytes}
    (hrun : Toy.runAll f r0 c.sent = some rc) (hsz : ∀ i ch, rc.prov.chain i = some ch → ch.length < 65536) (hc : rc.prov.chain 0 = some chain)
    (h : getCertificatePartial e none slot total off len c = .ok (portion, rem) c') :
    ∃ rc', Toy.runAll f r0 c'.sent = some rc' ∧ rc'.prov = rc.prov ∧ off.toNat ≤ chain.length ∧ portion.toNat = min (min len.toNat 512) (chain.length - off.toNat) ∧
      rem.toNat = chain.length - off.toNat - portion.toNat := by
  obtain ⟨rc', ch, temp, -, h2, h3, h4, h5, ⟨h6, h7, -⟩, -⟩ := linked_portion hl hrun hsz h
  rw [hc] at h2
  cases h2
  exact ⟨rc', h4, h5.prov, h3, h6, by rw [h7, h6]⟩

theorem honest_from (hl : Linked e f r0) {slot : UInt8} {chain : Bytes} {ps : List UInt16} {x y : Fetch} (h : Fetches e none slot ps x y) :
    ∀ rc, Toy.runAll f r0 x.ctx.sent = some rc → (∀ i ch, rc.prov.chain i = some ch → ch.length < 65536) → rc.prov.chain 0 = some chain →
    x.offset.toNat ≤ chain.length → x.length.toNat = min 512 (chain.length - x.offset.toNat) →
    ps.length + (chain.length - y.offset.toNat + 511) / 512 = (chain.length - x.offset.toNat + 511) / 512 ∧
      y.length.toNat = min 512 (chain.length - y.offset.toNat) ∧ y.offset.toNat ≤ chain.length := by
  induction h with
  | nil => intro rc _ _ _ ho hlen; exact ⟨by simp, hlen, ho⟩
  | cons hx h _ ih =>
    rename_i x y ps portion rem c _
    intro rc hrun hsz hc ho hlen
    have hx0 : x.length.toNat ≠ 0 := fun hz => hx (UInt16.toNat_inj.1 hz)
    obtain ⟨rc', g1, g2, g3, g4, g5⟩ := honest_step hl hrun hsz hc h
    have hlt := hsz 0 chain hc
    have hadd : (x.offset + portion).toNat = x.offset.toNat + portion.toNat := by rw [UInt16.toNat_add]; omega
    have hlen' : (if rem > 512 then 512 else rem : UInt16).toNat = min 512 (chain.length - (x.offset + portion).toNat) := by
      split
      · rename_i hr
        have := UInt16.lt_iff_toNat_lt.1 hr
        have h512 : (512 : UInt16).toNat = 512 := rfl
        rw [h512] at this ⊢
        omega
      · rename_i hr
        have := UInt16.le_iff_toNat_le.1 (UInt16.not_lt.1 hr)
        have h512 : (512 : UInt16).toNat = 512 := rfl
        rw [h512] at this
        omega
    obtain ⟨i1, i2, i3⟩ := ih rc' g1 (by rw [g2]; exact hsz) (by rw [g2]; exact hc) (by show (x.offset + portion).toNat ≤ _; omega) hlen'
    refine ⟨?_, i2, i3⟩
    have i1 : ps.length + (chain.length - y.offset.toNat + 511) / 512 = (chain.length - (x.offset + portion).toNat + 511) / 512 := i1
    rw [List.length_cons]
    omega

/-- **C55**: a responder of this library that holds a chain of `n` bytes is never asked more than `max 1 ⌈n / 512⌉` times for it,
and exactly that often when the fetch is complete. -/
theorem C55_honest (hl : Linked e f r0) (slot : UInt8) (chain : Bytes) (ps : List UInt16) (c rc : Ctx) (y : Fetch)
    (hrun : Toy.runAll f r0 c.sent = some rc) (hsz : ∀ i ch, rc.prov.chain i = some ch → ch.length < 65536) (hc : rc.prov.chain 0 = some chain)
    (h : Fetches e none slot ps (fetchStart none c) y) :
    ps.length ≤ max 1 ((chain.length + 511) / 512) ∧ (y.length = 0 → ps.length = max 1 ((chain.length + 511) / 512)) := by
  cases h with
  | nil => exact ⟨by simp, fun h0 => absurd (show (512 : UInt16) = 0 from h0) (by decide)⟩
  | cons hx h ht =>
    rename_i ps portion rem c1
    have hrun' : Toy.runAll f r0 (fetchStart none c).ctx.sent = some rc := hrun
    obtain ⟨rc', g1, g2, g3, g4, g5⟩ := honest_step hl hrun' hsz hc h
    have hlt := hsz 0 chain hc
    have g4 : portion.toNat = min (min 512 512) (chain.length - 0) := g4
    have g5 : rem.toNat = chain.length - 0 - portion.toNat := g5
    have hadd : ((fetchStart none c).offset + portion).toNat = portion.toNat := by
      show ((0 : UInt16) + portion).toNat = _
      rw [UInt16.zero_add]
    have h512 : (512 : UInt16).toNat = 512 := rfl
    have hlen' : (if rem > 512 then 512 else rem : UInt16).toNat = min 512 (chain.length - ((fetchStart none c).offset + portion).toNat) := by
      rw [hadd]
      split
      · rename_i hr
        have := UInt16.lt_iff_toNat_lt.1 hr
        rw [h512] at this ⊢
        omega
      · rename_i hr
        have := UInt16.le_iff_toNat_le.1 (UInt16.not_lt.1 hr)
        rw [h512] at this
        omega
    obtain ⟨i1, i2, i3⟩ := honest_from hl ht rc' g1 (by rw [g2]; exact hsz) (by rw [g2]; exact hc) (by rw [hadd]; omega) hlen'
    have i1 : ps.length + (chain.length - y.offset.toNat + 511) / 512 = (chain.length - ((fetchStart none c).offset + portion).toNat + 511) / 512 := i1
    rw [hadd] at i1
    rw [List.length_cons]
    refine ⟨by omega, fun h0 => ?_⟩
    rw [h0] at i2
    have : (0 : UInt16).toNat = 0 := rfl
    omega

/-! ### Concrete cases -/

/-- a responder with a 600-byte chain to serve, 636 bytes with its header. -/
def longRsp : Ctx := Ctx.new { Toy.cfg with rspCaps := 0x6AF6 } { chainData := fun i => if i = 0 then some (List.replicate 600 7) else none } 2
/-- that responder at the other end of MCTP. -/
def longEnv : REnv := { onWire Mctp.transport with recv := peer (onWire Mctp.transport) longRsp }
/-- a requester connected to it. -/
def longReq : Ctx := match initConnection longEnv Toy.req0 with | .ok () c => c | _ => Toy.req0
/-- its first two portions. -/
def longTwo : Option (UInt16 × UInt16 × UInt16 × UInt16) :=
  match getCertificatePartial longEnv none 0 0 0 512 (fetchStart none longReq).ctx with
  | .ok (a, b) c => (match getCertificatePartial longEnv none 0 (a + b) a b c with | .ok (a', b') _ => some (a, b, a', b') | _ => none)
  | _ => none

/-- the hypotheses of `C55_honest` are met: 512 and then 124 bytes are fetched, and the fetch is complete. -/
theorem C55_honest_case : Linked longEnv (onWire Mctp.transport) longRsp ∧
    (∃ rc chain, Toy.runAll (onWire Mctp.transport) longRsp longReq.sent = some rc ∧ (∀ i ch, rc.prov.chain i = some ch → ch.length < 65536) ∧
      rc.prov.chain 0 = some chain ∧ chain.length = 636) ∧
    ∃ y : Fetch, Fetches longEnv none 0 [512, 124] (fetchStart none longReq) y ∧ y.length = 0 := by
  refine ⟨linked_peer rfl carries_mctp, ?_, ?_⟩
  · have h : ((Toy.runAll (onWire Mctp.transport) longRsp longReq.sent).map fun rc => ((List.finRange 8).map fun i => (rc.prov.chain i).map (·.length))) =
        some [some 636, none, none, none, none, none, none, none] := by decide +kernel
    cases hr : Toy.runAll (onWire Mctp.transport) longRsp longReq.sent with
    | none => rw [hr] at h; cases h
    | some rc =>
      rw [hr] at h
      have h := Option.some.inj h
      have hall : ∀ i, (rc.prov.chain i).map (·.length) = if i = 0 then some 636 else none := by
        have hx : ∀ i, (rc.prov.chain i).map (·.length) = (([some 636, none, none, none, none, none, none, none] : List (Option Nat))[i.val]?).getD none := by
          intro i
          rw [← h]
          simp
        intro i
        rw [hx i]
        revert i
        decide
      have h0 := hall 0
      cases hc : rc.prov.chain 0 with
      | none => rw [hc] at h0; cases h0
      | some chain =>
        rw [hc] at h0
        refine ⟨rc, chain, rfl, fun i ch hi => ?_, hc, Option.some.inj h0⟩
        have := hall i
        rw [hi] at this
        by_cases h : i = 0
        · rw [if_pos h] at this
          have : ch.length = 636 := Option.some.inj this
          omega
        · rw [if_neg h] at this; cases this
  · have h : longTwo = some (512, 124, 124, 0) := by decide +kernel
    unfold longTwo at h
    cases h1 : getCertificatePartial longEnv none 0 0 0 512 (fetchStart none longReq).ctx with
    | err _ _ => rw [h1] at h; cases h
    | panic => rw [h1] at h; cases h
    | ok r c =>
      obtain ⟨a, b⟩ := r
      rw [h1] at h
      dsimp only at h
      cases h2 : getCertificatePartial longEnv none 0 (a + b) a b c with
      | err _ _ => rw [h2] at h; cases h
      | panic => rw [h2] at h; cases h
      | ok r' c' =>
        obtain ⟨a', b'⟩ := r'
        rw [h2] at h
        have h := Option.some.inj h
        simp only [Prod.mk.injEq] at h
        obtain ⟨rfl, rfl, rfl, rfl⟩ := h
        exact ⟨⟨636, 636, 0, c'⟩, .cons (by decide) h1 (.cons (show (124 : UInt16) ≠ 0 by decide) h2 .nil), rfl⟩

/-- the toy peer that answers everything with an empty portion. -/
def stalling : REnv := { Toy.renv with recv := fun _ => some (5 :: emptyPortion 0x12 0 600) }

/-- **C55** fails for a reachable requester: one that has connected and fetches the chain of slot 0 from such a peer. -/
theorem C55_stalling_violated : Req.Reachable 2 (toyReq [.connect]) ∧ Stalls stalling 0x12 0 600 ∧
    ∀ fuel, getCertificate stalling fuel none 0 (toyReq [.connect]) = .panic := by
  have hst : Stalls stalling 0x12 0 600 := ⟨⟨_, fun _ => rfl, by decide, by decide +kernel⟩, fun m hm => by
    refine ⟨5 :: m, ?_, fun _ => rfl⟩
    have h1 : Ctx.encap stalling.toEnv m = if (5 :: m).length ≤ 4160 then .ok (5 :: m) else .err .encapFail := intoBuf_put (5 :: m) 4160
    rw [h1, if_pos (by rw [List.length_cons, hm]; decide)]⟩
  refine ⟨⟨Toy.reqCfg, {}, _, toyReq_runs _ (by decide +kernel)⟩, hst, ?_⟩
  exact (C55_endless_violated hst (by decide) (by decide) (by decide +kernel) (by decide +kernel) (by decide +kernel) (by decide)).2

end Verif.Props
