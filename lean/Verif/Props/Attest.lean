/-
C49, C50, C51: what DIGESTS, CHALLENGE_AUTH and MEASUREMENTS say, byte for byte.
-/
import Verif.Props.Transcript

namespace Verif

theorem Challenge.read_exact {c : Cc} {r r' : Reader} {m : Challenge} (h : Challenge.read c r = .ok m r') : m.WF c ∧ r.After m.wire r' := by
  refine ⟨Challenge.read_wf h, ?_⟩
  simp only [Challenge.read, Rd.none, rdNonce, M.bind_ok, M.guard_ok, M.pure_ok, rdU8_ok, SummaryHashType.read_ok, rdBytes_ok] at h
  obtain ⟨_, _, h1, _, _, h2, h3, _, _, ⟨h4, h5⟩, rfl, rfl⟩ := h
  exact (h1.trans h2.2).trans h5

theorem GetMeas.read_exact {c : Cc} {r r' : Reader} {m : GetMeas} (h : GetMeas.read c r = .ok m r') : m.WF c ∧ r.After (m.wire c) r' := by
  refine ⟨GetMeas.read_wf h, ?_⟩
  simp only [GetMeas.read, Rd.none, rdNonce, M.bind_ok, M.guard_ok, rdU8_ok, MeasOperation.read_ok] at h
  obtain ⟨a, _, h1, ha, op, _, ⟨h2, h2'⟩, h⟩ := h
  simp only [M.ite_ok, M.bind_ok, rdBytes_ok, rdU8_ok, M.pure_ok] at h
  unfold GetMeas.wire
  rcases h with ⟨g, n, _, ⟨h3, h3'⟩, ⟨hv, sl, _, h4, rfl, rfl⟩ | ⟨hv, rfl, rfl⟩⟩ | ⟨g, rfl, rfl⟩
  · simp only [g, hv, if_true, ne_eq, not_false_eq_true]
    exact (h1.trans h2').trans (h3'.trans h4)
  · have hv' : c.ge11 = false := by simpa using hv
    simp only [g, hv', if_true, ne_eq, not_false_eq_true, Bool.false_eq_true, if_false]
    rw [List.append_nil]
    exact (h1.trans h2').trans h3'
  · simp only [g, if_false]
    rw [List.append_nil]
    exact h1.trans h2'

namespace Props
open Rsp

variable {e : Env}

/-- the certificate chain the responder has in slot `slot`. -/
def chainIn (c : Ctx) (slot : UInt8) : Option Bytes := if h : slot.toNat < 8 then c.prov.chain ⟨slot.toNat, h⟩ else none

theorem localChain_eq (c : Ctx) (slot : UInt8) : localChain c slot = chainIn c slot := by
  unfold localChain chainIn Ctx.slot?
  split <;> rfl

/-- the measurement summary hash for a summary type (0 none, 1 TCB, 0xFF all): empty for none, what the device reports for the others,
which may be asked for only of a responder that can report measurements. -/
def SummaryFor (e : Env) (c : Ctx) (ty : UInt8) (sum : Bytes) : Prop :=
  (ty = 0 ∧ sum = []) ∨
  (c.neg.rspCaps &&& 0x18 ≠ 0 ∧ sum ≠ [] ∧
    ((ty = 1 ∧ e.summary c.neg.version c.neg.baseHash c.neg.measSpec c.neg.measHash .tcb = some sum) ∨
     (ty = 0xFF ∧ e.summary c.neg.version c.neg.baseHash c.neg.measSpec c.neg.measHash .all = some sum)))

theorem summaryFor {c : Ctx} {t : SummaryHashType} {sum : Bytes} (h : summaryRefused c.cc t = false) (hs : SummaryIs e c t sum) : SummaryFor e c t.get sum := by
  have hcap : (!Cap.has c.cc.neg.rspCaps Cap.measSig && !Cap.has c.cc.neg.rspCaps Cap.measNoSig) = false → c.neg.rspCaps &&& 0x18 ≠ 0 := by
    intro h h0
    have hb : ∀ x : UInt32, (0x18 : UInt32) &&& x = x → x ≠ 0 → Cap.has c.neg.rspCaps x = false := by
      intro x hx hx0
      unfold Cap.has
      rw [← hx, ← UInt32.and_assoc, h0]
      simp [hx, Ne.symm hx0]
    have e1 := hb Cap.measSig (by decide) (by decide)
    have e2 := hb Cap.measNoSig (by decide) (by decide)
    have h : (!Cap.has c.neg.rspCaps Cap.measSig && !Cap.has c.neg.rspCaps Cap.measNoSig) = false := h
    rw [e1, e2] at h
    cases h
  cases t with
  | none => exact .inl ⟨rfl, hs⟩
  | tcb => exact .inr ⟨hcap h, hs.2, .inl ⟨rfl, hs.1⟩⟩
  | all => exact .inr ⟨hcap h, hs.2, .inr ⟨rfl, hs.1⟩⟩
  | unknown b => cases h

/-- CHALLENGE_AUTH for `slot`, up to the signature: the slot, slot mask 1, the digest of the certificate chain, a nonce, the measurement summary hash,
no opaque data. -/
def challengeAuth (v slot : UInt8) (certHash nonce sum : Bytes) : Bytes := [v, 0x03, slot, 1] ++ certHash ++ nonce ++ sum ++ [0, 0]

/-- **C50**: a CHALLENGE that is answered, by something other than ERROR, in any state: the request names a slot with a certificate chain, and the answer says
exactly what it is to say, with a nonce drawn for it. -/
theorem C50_challenge (hl : DialogueLaws e) (c c' : Ctx) (rx : Bytes) (v : UInt8) (t : Bytes) (hp : Plain e rx (v :: 0x83 :: t))
    (h : processMessage e rx c = .ok true c') (ha : Answered e c c') :
    ∃ slot ty theirs rest chain certHash nonce sum sig asym,
      v = c.neg.version.get ∧ 3 ≤ c.rt.state.code ∧ t = [slot, ty] ++ theirs ++ rest ∧ theirs.length = 32 ∧
      chainIn c slot = some chain ∧ e.crypto.hash c.neg.baseHash chain = some certHash ∧ Ctx.random e 32 = some nonce ∧ SummaryFor e c ty sum ∧
      c.cc.asymSize? = some asym ∧ sig.length = asym ∧
      SentOne e (challengeAuth v slot certHash nonce sum ++ sig) c c' ∧ c'.rt.state = .authenticated := by
  obtain ⟨b, c1, pkt, ⟨m, req, sum, certHash, nonce, asym, hv, hcase⟩, hs, h1, h2, rfl⟩ :=
    plain_positive hp rfl (codes_challengeRsp _) (by decide) (challenge_does hl.hash hl.summary _ _) (wp_sent (k := true) (rel_challengeRsp _)) h ha
  dsimp only at hcase
  have hsent : ∀ body, (challengeCtx c m req body).sent = c.sent := fun _ => rfl
  obtain ⟨sig, k1, k2, rfl, rfl⟩ : ∃ sig, challengeSig e (challengeCtx c m req (challengeBody c.neg.version.get m.slot certHash nonce sum)) = .ok sig ∧ sig.length = asym ∧
      b = challengeBody c.neg.version.get m.slot certHash nonce sum ++ sig ∧ c1 = Ctx.resetM1M2 (challengeCtx c m req (challengeBody c.neg.version.get m.slot certHash nonce sum)) := by
    rcases hcase with g | ⟨st, _, _, g⟩
    · exact g
    · obtain ⟨p, hp⟩ := sendError_sends hl.error g
      rw [h2, hsent] at hp
      have := congrArg List.length hp
      simp at this
  obtain ⟨v', k', t', r', hb, hver, hr, rfl⟩ := hv.wire
  injection hb with hb1 hb2
  injection hb2 with hb2 hb3
  subst hb1 hb2 hb3
  obtain ⟨hwf, haft, -⟩ := Challenge.read_exact hr
  obtain ⟨chain, hch, hcert⟩ := hv.chain
  have hvg : v = c.neg.version.get := by rw [← hver, SpdmVersion.get_ofCode]
  rw [← hvg] at h1
  exact ⟨m.slot, m.summary.get, m.nonce, r'.rest, chain, certHash, nonce, sum, sig, asym, hvg, hv.ready, by simpa [Challenge.wire] using haft, hwf.1,
    by rw [← localChain_eq]; exact hch, hcert, hv.nonce, summaryFor hwf.2 hv.summary, hv.asym, k2, h1, rfl⟩

/-! ### MEASUREMENTS -/

/-- what the device reports under index `i` (0: how many measurements there are; 0xFF: all of them). -/
def Reports (e : Env) (c : Ctx) (i : Nat) (r : MeasRecord) : Prop := e.measure c.neg.version c.neg.measSpec c.neg.measHash i = some r

/-- the number and the record a MEASUREMENTS response gives for operation `op`. -/
def Reported (e : Env) (c : Ctx) (op : UInt8) (number : UInt8) (r : MeasRecord) : Prop :=
  ∃ total, Reports e c 0 total ∧
    if op = 0 then number = total.blocks ∧ r = ⟨0, []⟩
    else if op = 0xFF then number = total.blocks ∧ Reports e c 0xFF r
    else op ≤ total.blocks ∧ number = 1 ∧ Reports e c op.toNat r

/-- GET_MEASUREMENTS after its first two bytes: attributes, operation and, if a signature is asked for, a nonce and from 1.1 on a slot. -/
def getMeasurementsTail (v attr op slot : UInt8) (nonce : Bytes) : Bytes :=
  [attr, op] ++ (if attr &&& 1 ≠ 0 then nonce ++ (if 0x11 ≤ v then [slot] else []) else [])

/-- MEASUREMENTS up to the signature: number, the slot and whether contents changed (signed responses only), number of blocks,
three-byte length, the record, a nonce, no opaque data. -/
def measurements (v number param2 : UInt8) (r : MeasRecord) (nonce : Bytes) : Bytes :=
  [v, 0x60, if number = 1 then 0 else number, param2] ++ [r.blocks] ++ putU24 r.data.length.toUInt32 ++ r.data ++ nonce ++ [0, 0]

theorem reported {c : Ctx} {op : MeasOperation} {number : UInt8} {r : MeasRecord} (hw : op.WF) (h : MeasuredAs e c op number r) : Reported e c op.get number r := by
  obtain ⟨total, h1, h2⟩ := h
  refine ⟨total, h1, ?_⟩
  cases op with
  | queryTotalNumber => exact h2
  | requestAll => exact h2
  | unknown i =>
    have h0 : i ≠ 0 ∧ i ≠ 0xFF := by
      constructor <;> · rintro rfl; exact absurd hw (by decide)
    show if i = 0 then _ else if i = 0xFF then _ else _
    rw [if_neg h0.1, if_neg h0.2]
    exact ⟨h2.2.1, h2.1, h2.2.2⟩

/-- the second parameter of a MEASUREMENTS response: from 1.1 on the slot of a signed response, from 1.2 on with the content-changed bits, if the responder is
configured to report them. -/
def measurementsParam2 (c : Ctx) (attr slot : UInt8) : UInt8 :=
  if attr &&& 1 = 0 then 0
  else if 0x12 ≤ c.neg.version.get then slot ||| (if c.config.contentChange then c.rt.contentChanged else 0)
  else if 0x11 ≤ c.neg.version.get then slot else 0

theorem param2_eq (c : Ctx) (m : GetMeas) : measParam2 c m.signed m.slot = measurementsParam2 c m.attr m.slot := by
  unfold measParam2 measurementsParam2 contentChanged GetMeas.signed
  have h12 : c.cc.ge12 = decide (0x12 ≤ c.neg.version.get) := rfl
  have h11 : c.cc.ge11 = decide (0x11 ≤ c.neg.version.get) := rfl
  rw [h12, h11]
  by_cases h : m.attr &&& 1 = 0
  · simp [h]
  · have : (m.attr &&& 1 != 0) = true := by simpa using h
    rw [this]
    simp only [Bool.true_eq_false, if_false, h, decide_eq_true_eq]
    split
    · rename_i hv; simp [hv]
    · rfl

/-- **C51**: a GET_MEASUREMENTS outside sessions that is answered, by something other than ERROR, in any state: the answer gives exactly what the device
reports, with a nonce drawn for it, and is signed exactly if that was asked for, in which case the slot named has a certificate chain. -/
theorem C51_measurements (hl : DialogueLaws e) (c c' : Ctx) (rx : Bytes) (v : UInt8) (t : Bytes) (hp : Plain e rx (v :: 0xE0 :: t))
    (h : processMessage e rx c = .ok true c') (ha : Answered e c c') :
    ∃ attr op slot theirs rest number r nonce sig asym,
      v = c.neg.version.get ∧ 3 ≤ c.rt.state.code ∧ t = getMeasurementsTail v attr op slot theirs ++ rest ∧ attr ≤ 3 ∧ theirs.length = 32 ∧
      Reported e c op number r ∧ Ctx.random e 32 = some nonce ∧ c.cc.asymSize? = some asym ∧
      (if attr &&& 1 = 0 then sig = [] else (∃ chain, chainIn c slot = some chain) ∧ sig.length = asym) ∧
      SentOne e (measurements v number (measurementsParam2 c attr slot) r nonce ++ sig) c c' ∧ c'.rt.state = c.rt.state := by
  obtain ⟨b, c1, pkt, ⟨m, req, number, record, nonce, asym, hv, -, hcase⟩, hs, h1, h2, rfl⟩ :=
    plain_positive hp rfl (codes_measurementRsp _ _) (by decide) (measurement_does hl.record none _ _) (wp_sent (sid := none) (k := true) (rel_measurementRsp _)) h ha
  dsimp only at hcase
  obtain ⟨f1, f2, f3⟩ := measStart_rt c m.signed
  obtain ⟨v', k', t', r', hb, hver, hr, rfl⟩ := hv.wire
  injection hb with hb1 hb2
  injection hb2 with hb2 hb3
  subst hb1 hb2 hb3
  obtain ⟨hwf, haft, -⟩ := GetMeas.read_exact hr
  have hvg : v = c.neg.version.get := by rw [← hver, SpdmVersion.get_ofCode]
  have hst : ∀ st, afterState 0x60 st = st := fun st => by simp [afterState]
  have hbody : ∀ sig, measBody c.neg.version.get number (measParam2 c m.signed m.slot) record nonce ++ sig =
      measurements v number (measurementsParam2 c m.attr m.slot) record nonce ++ sig := by
    intro sig
    rw [param2_eq, ← hvg]
    simp [measBody, measurements]
  have htail : t = getMeasurementsTail v m.attr m.op.get m.slot m.nonce ++ r'.rest := by
    have h11 : c.cc.ge11 = decide (0x11 ≤ v) := by rw [hvg]; rfl
    have : t = GetMeas.wire c.cc m ++ r'.rest := haft
    rw [this]
    unfold GetMeas.wire getMeasurementsTail
    rw [h11]
    simp
  have hfields : ∀ sig : Bytes, (if m.attr &&& 1 = 0 then sig = [] else (∃ chain, chainIn c m.slot = some chain) ∧ sig.length = asym) →
      ∀ c2 : Ctx, c2.rt.state = c.rt.state → SentOne e (measurements v number (measurementsParam2 c m.attr m.slot) record nonce ++ sig) c
        (withState (afterState 0x60 c2.rt.state) (withSent pkt c2)) → _ := fun sig hsig c2 hst2 hsent =>
    (⟨m.attr, m.op.get, m.slot, m.nonce, r'.rest, number, record, nonce, sig, asym, hvg, hv.ready, htail, hwf.1, hwf.2.2.1, reported hwf.2.1 hv.measured, hv.nonce, hv.asym,
      hsig, hsent, by show afterState 0x60 c2.rt.state = _; rw [hst, hst2]⟩ :
      ∃ attr op slot theirs rest number r nonce sig asym,
      v = c.neg.version.get ∧ 3 ≤ c.rt.state.code ∧ t = getMeasurementsTail v attr op slot theirs ++ rest ∧ attr ≤ 3 ∧ theirs.length = 32 ∧
      Reported e c op number r ∧ Ctx.random e 32 = some nonce ∧ c.cc.asymSize? = some asym ∧
      (if attr &&& 1 = 0 then sig = [] else (∃ chain, chainIn c slot = some chain) ∧ sig.length = asym) ∧
      SentOne e (measurements v number (measurementsParam2 c attr slot) r nonce ++ sig) c (withState (afterState 0x60 c2.rt.state) (withSent pkt c2)) ∧
      (withState (afterState 0x60 c2.rt.state) (withSent pkt c2)).rt.state = c.rt.state)
  have hslot := hv.slot
  by_cases hsig : m.signed = true
  · rw [if_pos hsig] at hcase hslot
    have hne : ¬ m.attr &&& 1 = 0 := by unfold GetMeas.signed at hsig; simpa using hsig
    rcases hcase with ⟨sig, k1, k2, rfl, rfl⟩ | ⟨st, _, _, g⟩
    · rw [hbody] at h1
      obtain ⟨chain, hch⟩ := Option.isSome_iff_exists.1 hslot
      refine hfields sig (by rw [if_neg hne]; exact ⟨⟨chain, by rw [← localChain_eq]; exact hch⟩, k2⟩) _ ?_ h1
      show (measStart none c m.signed).rt.state = _
      rw [f1]
    · obtain ⟨p, hp⟩ := sendError_sends hl.error g
      rw [h2, show (addM none _ (addM none _ (measStart none c m.signed))).sent = c.sent from f3] at hp
      have := congrArg List.length hp
      simp at this
  · rw [if_neg hsig] at hcase
    have h0 : m.attr &&& 1 = 0 := by unfold GetMeas.signed at hsig; simpa using hsig
    obtain ⟨rfl, rfl⟩ := hcase
    have h1' := h1
    rw [← List.append_nil (measBody _ _ _ _ _), hbody] at h1
    refine hfields [] (by rw [if_pos h0]) _ ?_ h1
    show (measStart none c m.signed).rt.state = _
    rw [f1]

/-! ### DIGESTS -/

/-- the slots that hold a certificate chain, lowest first. -/
def filled (p : Provision) : List (Fin 8) := (List.finRange 8).filter fun i => (p.chain i).isSome

theorem mask_bools : ∀ b0 b1 b2 b3 b4 b5 b6 b7 : Bool, ∀ i : Fin 8,
    let f : Fin 8 → Bool := fun j => [b0, b1, b2, b3, b4, b5, b6, b7].getD j.val false
    let m := (List.finRange 8).foldl (fun m j => if f j = true then m ||| ((1 : UInt8) <<< (UInt8.ofNat j.val)) else m) 0
    (m &&& (1 <<< UInt8.ofNat i.val) ≠ 0 ↔ f i = true) ∧ slotCount m = ((List.finRange 8).filter f).length := by
  set_option maxRecDepth 20000 in decide +kernel

theorem mask_spec (p : Provision) : (∀ i : Fin 8, slotMask p &&& (1 <<< UInt8.ofNat i.val) ≠ 0 ↔ (p.chain i).isSome = true) ∧ slotCount (slotMask p) = (filled p).length := by
  have key := mask_bools (p.chain 0).isSome (p.chain 1).isSome (p.chain 2).isSome (p.chain 3).isSome (p.chain 4).isSome (p.chain 5).isSome (p.chain 6).isSome (p.chain 7).isSome
  have hf : ∀ j : Fin 8, [(p.chain 0).isSome, (p.chain 1).isSome, (p.chain 2).isSome, (p.chain 3).isSome, (p.chain 4).isSome, (p.chain 5).isSome, (p.chain 6).isSome,
      (p.chain 7).isSome].getD j.val false = (p.chain j).isSome := by
    intro j
    match j with
    | 0 => rfl | 1 => rfl | 2 => rfl | 3 => rfl | 4 => rfl | 5 => rfl | 6 => rfl | 7 => rfl
  simp only [hf] at key
  exact ⟨fun i => (key i).1, (key 0).2⟩

/-- writing the digests: all go to the end, the last one stays. -/
theorem patchDigests_ok (hl : HashLaw e) {c : Ctx} {hs : Nat} (hh : BaseHash.size? c.neg.baseHash = some hs) : ∀ (is : List (Fin 8)) (front tail b : Bytes), tail.length = hs →
    patchDigests e c is (front ++ tail) = .ok b →
    ∃ last, b = front ++ last ∧ last.length = hs ∧
      match (is.filter fun i => (c.prov.chain i).isSome).getLast? with
      | none => last = tail
      | some i => ∃ ch, c.prov.chain i = some ch ∧ e.crypto.hash c.neg.baseHash ch = some last
  | [], front, tail, b, ht, h => by
    cases h
    exact ⟨tail, rfl, ht, rfl⟩
  | i :: is, front, tail, b, ht, h => by
    unfold patchDigests at h
    cases hc : c.prov.chain i with
    | none =>
      rw [hc] at h
      have hf : ((i :: is).filter fun i => (c.prov.chain i).isSome) = is.filter fun i => (c.prov.chain i).isSome := by simp [hc]
      rw [hf]
      exact patchDigests_ok hl hh is front tail b ht h
    | some ch =>
      rw [hc] at h
      obtain ⟨d, h1, h2⟩ := Res.bind_ok.1 h
      have h1 : e.crypto.hash c.neg.baseHash ch = some d := Res.unwrap_ok.1 h1
      obtain ⟨b', h3, h4⟩ := Res.bind_ok.1 h2
      obtain ⟨_, _, rfl⟩ := patchTail_ok h3
      have hd : d.length = hs := by have := hl _ _ _ h1; rw [hh] at this; cases this; rfl
      rw [show (front ++ tail).take ((front ++ tail).length - d.length) = front by rw [hd]; exact take_front hs _ _ ht] at h4
      obtain ⟨last, g1, g2, g3⟩ := patchDigests_ok hl hh is front d b hd h4
      refine ⟨last, g1, g2, ?_⟩
      have hf : ((i :: is).filter fun i => (c.prov.chain i).isSome) = i :: is.filter fun i => (c.prov.chain i).isSome := by simp [hc]
      rw [hf, List.getLast?_cons]
      cases hl2 : (is.filter fun i => (c.prov.chain i).isSome).getLast? with
      | none => rw [hl2] at g3; exact ⟨ch, hc, by rw [g3]; exact h1⟩
      | some j => rw [hl2] at g3; exact g3

theorem patchDigests_none {c : Ctx} : ∀ (is : List (Fin 8)) (b : Bytes), (∀ i ∈ is, c.prov.chain i = none) → patchDigests e c is b = .ok b
  | [], b, _ => rfl
  | i :: is, b, h => by
    unfold patchDigests
    rw [h i (by simp)]
    exact patchDigests_none is b fun j hj => h j (by simp [hj])

/-- `b` is a DIGESTS response: bit `i` of its mask is set exactly for the slots that hold a chain, it has room for one digest per such slot, the last digest
is that of the chain in the highest of them, and when there is only one this is all of it. -/
def SaysDigests (e : Env) (c : Ctx) (v : UInt8) (b : Bytes) : Prop :=
  ∃ mask digests hs, b = [v, 0x01, 0, mask] ++ digests ∧ c.cc.hashSize? = some hs ∧
    (∀ i : Fin 8, mask &&& (1 <<< UInt8.ofNat i.val) ≠ 0 ↔ (c.prov.chain i).isSome = true) ∧ digests.length = (filled c.prov).length * hs ∧
    (∀ i, (filled c.prov).getLast? = some i → ∃ ch d front, c.prov.chain i = some ch ∧ e.crypto.hash c.neg.baseHash ch = some d ∧ digests = front ++ d) ∧
    (∀ i, filled c.prov = [i] → ∃ ch, c.prov.chain i = some ch ∧ e.crypto.hash c.neg.baseHash ch = some digests)

theorem digests_said (hl : HashLaw e) {c : Ctx} {v : UInt8} {hs : Nat} {b : Bytes} (hhs : c.cc.hashSize? = some hs)
    (hpd : patchDigests e c (List.finRange 8) (digestFrame v c.prov hs) = .ok b) : SaysDigests e c v b := by
  obtain ⟨m1, m2⟩ := mask_spec c.prov
  have hh : BaseHash.size? c.neg.baseHash = some hs := hhs
  unfold digestFrame at hpd
  rw [m2] at hpd
  cases hn : (filled c.prov).length with
  | zero =>
    have hnil : filled c.prov = [] := List.length_eq_zero_iff.1 hn
    rw [hn, Nat.zero_mul, List.replicate_zero] at hpd
    rw [patchDigests_none _ _ (fun i hi => ?_)] at hpd
    · cases hpd
      refine ⟨slotMask c.prov, [], hs, rfl, hhs, m1, by simp [hn], ?_, ?_⟩
      · intro i hi; rw [hnil] at hi; cases hi
      · intro i hi; rw [hnil] at hi; cases hi
    · cases hx : c.prov.chain i with
      | none => rfl
      | some ch =>
        have : i ∈ filled c.prov := List.mem_filter.2 ⟨hi, by rw [hx]; rfl⟩
        rw [hnil] at this; cases this
  | succ n =>
    rw [hn, Nat.succ_mul, ← List.replicate_append_replicate, ← List.append_assoc] at hpd
    obtain ⟨last, rfl, g2, g3⟩ := patchDigests_ok hl hh _ _ _ _ (by simp) hpd
    have hlast : ∀ i, (filled c.prov).getLast? = some i → ∃ ch, c.prov.chain i = some ch ∧ e.crypto.hash c.neg.baseHash ch = some last := by
      intro i hi
      unfold filled at hi
      rw [hi] at g3
      exact g3
    refine ⟨slotMask c.prov, List.replicate (n * hs) 0xff ++ last, hs, by rw [List.append_assoc], hhs, m1, by simp [g2, hn, Nat.succ_mul], ?_, ?_⟩
    · intro i hi
      obtain ⟨ch, k1, k2⟩ := hlast i hi
      exact ⟨ch, last, _, k1, k2, rfl⟩
    · intro i hi
      obtain ⟨ch, k1, k2⟩ := hlast i (by rw [hi]; rfl)
      have : n = 0 := by rw [hi] at hn; simpa using hn.symm
      subst this
      exact ⟨ch, k1, by simpa using k2⟩

/-- **C49** (partial): a GET_DIGESTS that is answered, by something other than ERROR, in any state: DIGESTS has bit `i` of its mask set exactly for the slots that hold a
chain and has room for one digest per such slot; the last digest is that of the chain in the highest of them.  When there is only one this is all of
DIGESTS; for more see `C49_several_violated`. -/
theorem C49_digests_partial (hl : DialogueLaws e) (c c' : Ctx) (rx : Bytes) (v : UInt8) (t : Bytes) (hp : Plain e rx (v :: 0x81 :: t))
    (h : processMessage e rx c = .ok true c') (ha : Answered e c c') :
    ∃ p1 p2 rest mask digests hs, v = c.neg.version.get ∧ 3 ≤ c.rt.state.code ∧ t = p1 :: p2 :: rest ∧ c.cc.hashSize? = some hs ∧
      SentOne e ([v, 0x01, 0, mask] ++ digests) c c' ∧ (∀ i : Fin 8, mask &&& (1 <<< UInt8.ofNat i.val) ≠ 0 ↔ (c.prov.chain i).isSome = true) ∧
      digests.length = (filled c.prov).length * hs ∧
      (∀ i, (filled c.prov).getLast? = some i → ∃ ch d front, c.prov.chain i = some ch ∧ e.crypto.hash c.neg.baseHash ch = some d ∧ digests = front ++ d) ∧
      (∀ i, filled c.prov = [i] → ∃ ch, c.prov.chain i = some ch ∧ e.crypto.hash c.neg.baseHash ch = some digests) := by
  obtain ⟨b, c1, pkt, ⟨hready, v', k', p1, p2, t', hs, hb, hver, hhs, hpd, hc1⟩, hst, h1, h2, rfl⟩ :=
    plain_positive hp rfl (codes_digestRsp hl.hash none _) (by decide) (digest_does _ _) (wp_sent (sid := none) (k := true) (rel_digestRsp _)) h ha
  injection hb with hb1 hb2
  injection hb2 with hb2 hb3
  subst hb1 hb2 hb3
  have hvg : v = c.neg.version.get := by rw [← hver, SpdmVersion.get_ofCode]
  obtain ⟨mask, digests, hs', rfl, k1, k2, k3, k4, k5⟩ := digests_said hl.hash hhs hpd
  exact ⟨p1, p2, t', mask, digests, hs', hvg, hready, rfl, k1, h1, k2, k3, k4, k5⟩

/-! ### cases -/

/-- the toy responder answers packet `rx` with one packet that carries no ERROR. -/
def toyAnswers (c : Ctx) (rx : Bytes) : Bool :=
  match processMessage Toy.env rx c with
  | .ok true c' => decide (c'.sent.take c.sent.length = c.sent ∧ c'.sent.length = c.sent.length + 1 ∧ (c'.sent.getLastD []).getD 2 0 ≠ 0x7F)
  | _ => false

theorem toy_answers {c : Ctx} {rx : Bytes} (h : toyAnswers c rx = true) : ∃ c', processMessage Toy.env rx c = .ok true c' ∧ Answered Toy.env c c' := by
  unfold toyAnswers at h
  split at h
  · rename_i c' hx
    obtain ⟨hpre, hlen, hne⟩ := of_decide_eq_true h
    refine ⟨c', hx, ?_⟩
    have hcut : c'.sent = c.sent ++ c'.sent.drop c.sent.length := by
      conv => lhs; rw [← List.take_append_drop c.sent.length c'.sent, hpre]
    have hl1 : (c'.sent.drop c.sent.length).length = 1 := by rw [List.length_drop]; omega
    obtain ⟨p, hp⟩ := List.length_eq_one_iff.1 hl1
    rw [hp] at hcut
    refine ⟨p, hcut, fun b hb he => ?_⟩
    have hp5 := toy_encap he
    rw [hcut] at hne
    subst hp5
    apply hne
    obtain ⟨w, t, rfl⟩ := hb
    simp
  · cases h

/- the hypotheses of C49, C50 and C51 are met after negotiation: GET_DIGESTS, CHALLENGE, GET_MEASUREMENTS unsigned and signed -/
example : DialogueLaws Toy.env ∧ Plain Toy.env challengePacket (0x12 :: 0x83 :: (challengePacket.drop 3)) ∧
    ∃ c', processMessage Toy.env challengePacket Toy.negotiated = .ok true c' ∧ Answered Toy.env Toy.negotiated c' :=
  ⟨toy_laws, by unfold Plain; decide +kernel, toy_answers (by decide +kernel)⟩
example : Plain Toy.env digestsPacket [0x12, 0x81, 0, 0] ∧ ∃ c', processMessage Toy.env digestsPacket Toy.negotiated = .ok true c' ∧ Answered Toy.env Toy.negotiated c' :=
  ⟨by unfold Plain; decide +kernel, toy_answers (by decide +kernel)⟩
example : filled Toy.negotiated.prov = [0] := by decide +kernel
example : ∀ s, Plain Toy.env (measurementsPacket s) (0x12 :: 0xE0 :: (measurementsPacket s).drop 3) ∧
    ∃ c', processMessage Toy.env (measurementsPacket s) Toy.negotiated = .ok true c' ∧ Answered Toy.env Toy.negotiated c' := by
  intro s
  cases s
  · exact ⟨by unfold Plain; decide +kernel, toy_answers (by decide +kernel)⟩
  · exact ⟨by unfold Plain; decide +kernel, toy_answers (by decide +kernel)⟩

/-- the toy responder with certificate chains in slots 0 and 1, negotiated. -/
def twoChains : Option Ctx :=
  Toy.runAll Toy.env (Ctx.new Toy.cfg { chainData := fun i => if i = 0 then some [1, 2, 3, 4, 5, 6, 7, 8] else if i = 1 then some [8, 7, 6, 5, 4, 3, 2, 1] else none } 2)
    [Toy.version, Toy.capabilities, Toy.algorithms]

/-- **C49**, finding: with chains in two slots DIGESTS carries 32 bytes 0xFF where the digest of the chain in slot 0 belongs. -/
theorem C49_several_violated : ∃ c c' ch d0, Reachable 2 c ∧ processMessage Toy.env digestsPacket c = .ok true c' ∧ c.prov.chain 0 = some ch ∧
    Toy.env.crypto.hash c.neg.baseHash ch = some d0 ∧ ((c'.sent.getLastD []).drop 5).take 32 = List.replicate 32 0xFF ∧ d0 ≠ List.replicate 32 0xFF ∧ (c'.sent.getLastD []).getD 4 0 = 3 := by
  have h : (match twoChains with
    | some c => (match processMessage Toy.env digestsPacket c with
      | .ok true c' => (match c.prov.chain 0 with
        | some ch => (match Toy.env.crypto.hash c.neg.baseHash ch with
          | some d0 => decide (((c'.sent.getLastD []).drop 5).take 32 = List.replicate 32 0xFF ∧ d0 ≠ List.replicate 32 0xFF ∧ (c'.sent.getLastD []).getD 4 0 = 3)
          | none => false)
        | none => false)
      | _ => false)
    | none => false) = true := by decide +kernel
  split at h
  · rename_i c hc
    split at h
    · rename_i c' hx
      split at h
      · rename_i ch hch
        split at h
        · rename_i d0 hd
          exact ⟨c, c', ch, d0, ⟨_, _, _, runAll_run _ Run.nil hc, by simp; exact toy_hashLaw⟩, hx, hch, hd, of_decide_eq_true h⟩
        · cases h
      · cases h
    · cases h
  · cases h

/-- a device whose signing fails. -/
def unsigning : Env := { Toy.env with sign := fun _ _ _ => none }

/-- what a packet does on the toy responder in environment `e`, when processed. -/
def after? (e : Env) (c : Ctx) (rx : Bytes) : Option Ctx :=
  match processMessage e rx c with
  | .ok true c' => some c'
  | _ => none

theorem after?_ok {c c' : Ctx} {rx : Bytes} (h : after? e c rx = some c') : processMessage e rx c = .ok true c' := by
  unfold after? at h
  split at h
  · rename_i hx; cases h; exact hx
  · cases h

theorem negotiated_reachable : Reachable 2 Toy.negotiated := by
  have := toyRun_reachable [Toy.version, Toy.capabilities, Toy.algorithms] (by decide +kernel)
  exact this

/-- **C50**, finding: when signing fails, the responder sends ERROR and then CHALLENGE_AUTH all the same, with 0xBB for a signature, and counts the requester as
having authenticated it. -/
theorem C50_unsigned_violated : ∃ c c', Reachable 2 c ∧ processMessage unsigning challengePacket c = .ok true c' ∧ c'.rt.state = .authenticated ∧
    ∃ p, c'.sent = c.sent ++ [[5, 0x12, 0x7F, 5, 0], p] ∧ p.take 3 = [5, 0x12, 0x03] ∧ p.drop (p.length - 64) = List.replicate 64 0xBB := by
  have h : ((after? unsigning Toy.negotiated challengePacket).map fun c' => decide (c'.rt.state = .authenticated ∧
      c'.sent = Toy.negotiated.sent ++ [[5, 0x12, 0x7F, 5, 0], c'.sent.getLastD []] ∧ (c'.sent.getLastD []).take 3 = [5, 0x12, 0x03] ∧
      (c'.sent.getLastD []).drop ((c'.sent.getLastD []).length - 64) = List.replicate 64 0xBB)) = some true := by decide +kernel
  obtain ⟨c', h1, h2⟩ := Option.map_eq_some_iff.1 h
  obtain ⟨h3, h4⟩ := of_decide_eq_true h2
  exact ⟨Toy.negotiated, c', negotiated_reachable, after?_ok h1, h3, _, h4⟩

/-- **C50**, finding: the slot mask of CHALLENGE_AUTH is 1 whatever slots hold chains: here slots 0 and 1. -/
theorem C50_mask_violated : ∃ c c', Reachable 2 c ∧ (c.prov.chain 0).isSome = true ∧ (c.prov.chain 1).isSome = true ∧ processMessage Toy.env challengePacket c = .ok true c' ∧
    (c'.sent.getLastD []).take 5 = [5, 0x12, 0x03, 0, 1] := by
  have h : (twoChains.bind fun c => (after? Toy.env c challengePacket).map fun c' => decide ((c.prov.chain 0).isSome = true ∧ (c.prov.chain 1).isSome = true ∧
      (c'.sent.getLastD []).take 5 = [5, 0x12, 0x03, 0, 1])) = some true := by decide +kernel
  obtain ⟨c, hc, h⟩ := Option.bind_eq_some_iff.1 h
  obtain ⟨c', h1, h2⟩ := Option.map_eq_some_iff.1 h
  obtain ⟨h3, h4, h5⟩ := of_decide_eq_true h2
  exact ⟨c, c', ⟨_, _, _, runAll_run _ Run.nil hc, by simp; exact toy_hashLaw⟩, h3, h4, after?_ok h1, h5⟩

/-- **C51**, finding: a device with exactly one measurement is reported to have none when asked for their number. -/
theorem C51_total_violated : ∃ c c' r, Reachable 2 c ∧ Reports Toy.env c 0 r ∧ r.blocks = 1 ∧ processMessage Toy.env [5, 0x12, 0xE0, 0, 0] c = .ok true c' ∧
    (c'.sent.getLastD []).take 4 = [5, 0x12, 0x60, 0] := by
  have h : ((after? Toy.env Toy.negotiated [5, 0x12, 0xE0, 0, 0]).map fun c' => decide ((c'.sent.getLastD []).take 4 = [5, 0x12, 0x60, 0])) = some true := by decide +kernel
  obtain ⟨c', h1, h2⟩ := Option.map_eq_some_iff.1 h
  exact ⟨Toy.negotiated, c', _, negotiated_reachable, rfl, rfl, after?_ok h1, of_decide_eq_true h2⟩

/-- **C51**, finding: when signing fails, the responder sends ERROR and then MEASUREMENTS all the same, with 0x60 for a signature; inside a session the ERROR
goes out in the clear. -/
theorem C51_unsigned_violated : ∃ c c', Reachable 2 c ∧ processMessage unsigning (measurementsPacket true) c = .ok true c' ∧
    ∃ p, c'.sent = c.sent ++ [[5, 0x12, 0x7F, 5, 0], p] ∧ p.take 3 = [5, 0x12, 0x60] ∧ p.drop (p.length - 64) = List.replicate 64 0x60 := by
  have h : ((after? unsigning Toy.negotiated (measurementsPacket true)).map fun c' => decide (
      c'.sent = Toy.negotiated.sent ++ [[5, 0x12, 0x7F, 5, 0], c'.sent.getLastD []] ∧ (c'.sent.getLastD []).take 3 = [5, 0x12, 0x60] ∧
      (c'.sent.getLastD []).drop ((c'.sent.getLastD []).length - 64) = List.replicate 64 0x60)) = some true := by decide +kernel
  obtain ⟨c', h1, h2⟩ := Option.map_eq_some_iff.1 h
  exact ⟨Toy.negotiated, c', negotiated_reachable, after?_ok h1, _, of_decide_eq_true h2⟩

/-- the toy responder with a session. -/
def toyOpened : Ctx := toyRun toyPackets

/-- **C51**, finding: … inside a session: the ERROR goes out in the clear. -/
theorem C51_clear_error_violated : ∃ c c' rx, Reachable 2 c ∧ c.sessions.map (·.state) = [.established, .notStarted] ∧ processMessage unsigning rx c = .ok true c' ∧
    ∃ p, c'.sent = c.sent ++ [[5, 0x12, 0x7F, 5, 0], p] ∧ p.head? = some 6 := by
  have h : ((after? unsigning toyOpened (Toy.sealIn 0 toyOpened ([8] ++ (measurementsPacket true).drop 1))).map fun c' => decide (
      toyOpened.sessions.map (·.state) = [.established, .notStarted] ∧
      c'.sent = toyOpened.sent ++ [[5, 0x12, 0x7F, 5, 0], c'.sent.getLastD []] ∧ (c'.sent.getLastD []).head? = some 6)) = some true := by decide +kernel
  obtain ⟨c', h1, h2⟩ := Option.map_eq_some_iff.1 h
  obtain ⟨h3, h4⟩ := of_decide_eq_true h2
  exact ⟨toyOpened, c', _, toyRun_reachable toyPackets (by decide +kernel), h3, after?_ok h1, _, h4⟩

end Props
end Verif
