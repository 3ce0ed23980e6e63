/-
What DELIVER_ENCAPSULATED_RESPONSE and GET_ENCAPSULATED_REQUEST do to the certificates a responder holds.
-/
import Verif.Encap.Responder
import Verif.Requester.Chain
import Verif.Responder.Process

namespace Verif
namespace Encap
open Rsp

variable {e : Env}

/-- nothing but the writer changed. -/
def Writing (s s' : St) : Prop := s'.c = s.c ∧ s'.x = s.x

instance : M.Pre Writing where
  refl _ := ⟨rfl, rfl⟩
  trans h h' := ⟨h'.1.trans h.1, h'.2.trans h.2⟩

theorem put_writing (x : Cc → Enc Nat) : M.Rel Writing (put x) := by
  intro s
  unfold M.wp put
  cases x s.c.cc s.w with
  | panic => trivial
  | ok _ w => exact ⟨rfl, rfl⟩
  | err _ w => exact ⟨rfl, rfl⟩

theorem discarding_writing {x : W Unit} (h : M.Rel Writing x) : M.Rel Writing (discarding x) := by
  intro s
  have := h s
  unfold M.wp discarding at *
  cases hx : x s with
  | panic => trivial
  | ok _ w => rw [hx] at this; exact this
  | err _ w => rw [hx] at this; exact this

theorem writeErr_writing (code : ErrorCode) (data : UInt8) : M.Rel Writing (writeErr code data) := fun s =>
  discarding_writing (put_writing fun cc => (Rsp.errorMsg s.c code data).encode cc) s
theorem ackHeader_writing : M.Rel Writing ackHeader := fun s => discarding_writing (put_writing _) s
theorem ackParams_writing (t : EncapAckPayload) (id : UInt8) : M.Rel Writing (ackParams t id) := fun s => put_writing _ s
theorem askDigests_writing : M.Rel Writing askDigests := fun s => put_writing _ s

/-- only packets were sent in the clear, and perhaps the connection state changed. -/
structure Outside (c c' : Ctx) : Prop where
  config : c'.config = c.config
  neg : c'.neg = c.neg
  rt : c'.rt = c.rt
  prov : c'.prov = c.prov
  peer : c'.peer = c.peer
  sessions : c'.sessions = c.sessions
  sent : c.sent <+: c'.sent

theorem sendErr_outside (code : ErrorCode) (data : UInt8) : M.Rel (fun s s' => Outside s.c s'.c ∧ s'.x = s.x ∧ s'.w = s.w) (sendErr e code data) := by
  intro s
  unfold M.wp sendErr
  rw [writeError_nil _ _ rfl]
  dsimp only
  have h := sendMessage_wp (e := e) (starts_error s.c.neg.version code data) (by decide) s.c
  unfold M.wp at h
  cases hx : Rsp.sendMessage e (errorBytes s.c.neg.version code data) s.c with
  | panic => trivial
  | ok _ c =>
    rw [hx] at h
    obtain ⟨pkt, _, _, rfl⟩ := h
    have : afterState (if tooLarge s.c (errorBytes s.c.neg.version code data) then 0x7F else 0x7F) s.c.rt.state = s.c.rt.state := by
      rw [ite_self]; rfl
    exact ⟨⟨rfl, rfl, by simp only [withState]; rw [this]; rfl, rfl, rfl, rfl, List.prefix_append _ _⟩, rfl, rfl⟩
  | err _ c =>
    rw [hx] at h
    rcases h with rfl | ⟨pkt, _, rfl⟩
    · exact ⟨⟨rfl, rfl, rfl, rfl, rfl, rfl, List.prefix_refl _⟩, rfl, rfl⟩
    · exact ⟨⟨rfl, rfl, rfl, rfl, rfl, rfl, List.prefix_append _ _⟩, rfl, rfl⟩

/-- the checks of `Req.ChainValid`: length field, path validation, digest of the root certificate, provisioned root. -/
abbrev Checked (e : Env) (c : Ctx) (chain : Bytes) : Prop := Req.ChainValid { toEnv := e, recv := fun _ => none } c chain

theorem verifyChain_ok {c : Ctx} {u : Unit} (h : verifyChain e c = .ok u) : ∃ chain, c.peer.temp = some chain ∧ Checked e c chain := by
  unfold verifyChain at h
  obtain ⟨chain, h1, h2⟩ := Res.bind_ok.1 h
  obtain ⟨hs, h3, h4⟩ := Res.bind_ok.1 h2
  by_cases hl : chain.length ≤ 4 + hs
  · rw [if_pos hl] at h4; cases h4
  rw [if_neg hl] at h4
  by_cases hz : (Req.sizeField chain).toNat ≠ chain.length
  · rw [if_pos hz] at h4; cases h4
  rw [if_neg hz] at h4
  by_cases hv : e.verifyChain (chain.drop (4 + hs)) = false
  · rw [if_pos hv] at h4; cases h4
  rw [if_neg hv] at h4
  obtain ⟨⟨b, en⟩, h5, h6⟩ := Res.bind_ok.1 h4
  obtain ⟨root, h7, h8⟩ := Res.bind_ok.1 h6
  obtain ⟨d, h9, h10⟩ := Res.bind_ok.1 h8
  by_cases hd : d ≠ (chain.drop 4).take hs
  · rw [if_pos hd] at h10; cases h10
  rw [if_neg hd] at h10
  by_cases ha : Req.rootAuthorised c root = false
  · rw [if_pos ha] at h10; cases h10
  have hd : d = (chain.drop 4).take hs := by simpa using hd
  subst hd
  have h7' : (b ≤ en ∧ en ≤ 4096) ∧ root = ((chain.drop (4 + hs) ++ List.replicate (4096 - (chain.drop (4 + hs)).length) 0).drop b).take (en - b) := by
    unfold Req.rootSlice at h7
    by_cases hbe : b ≤ en ∧ en ≤ 4096
    · rw [if_pos hbe] at h7; exact ⟨hbe, (Res.ok.inj h7).symm⟩
    · rw [if_neg hbe] at h7; cases h7
  refine ⟨chain, Res.ofOption_ok.1 h1, ⟨hs, b, en, root, Res.unwrap_ok.1 h3, by omega, ?_, by simpa using hv, Res.ofOption_ok.1 h5, h7'.1.1, h7'.1.2, ?_, Res.ofOption_ok.1 h9, ?_⟩⟩
  · rw [← Req.sizeField_nat]; omega
  · rw [h7'.2, List.length_drop]
  · intro p hp
    unfold Req.rootAuthorised at ha
    rw [hp] at ha
    simpa using ha

/-- the collected part of a chain is shorter than the largest chain. -/
def Short (c : Ctx) : Prop := ∀ t, c.peer.temp = some t → t.length < 4096

/-- replace the collected part. -/
def withTemp (t : Option Bytes) (c : Ctx) : Ctx := { c with peer := { c.peer with temp := t } }

/-- put a chain into a slot. -/
def withChain (i : Fin 8) (sl : UInt8) (ch : Bytes) (c : Ctx) : Ctx :=
  { c with peer := { chain := fun j => if j = i then some ch else c.peer.chain j, temp := none }, rt := { c.rt with peerSlot := sl } }

theorem portionRefused_of {offset size : UInt16} {sl : UInt8} {m : CertRsp} (h : refused offset sl size m = false) :
    Req.portionRefused size offset 512 m = false ∧ m.slot = sl := by
  unfold refused at h
  simp only [Bool.or_eq_false_iff, decide_eq_false_iff_not] at h
  obtain ⟨⟨⟨⟨h1, h2⟩, h3⟩, h4⟩, h5⟩ := h
  refine ⟨?_, by simpa using h4⟩
  unfold Req.portionRefused
  simp only [Bool.or_eq_false_iff, decide_eq_false_iff_not]
  exact ⟨⟨⟨h1, h2⟩, h3⟩, h5⟩

theorem takePortion_wp (m : CertRsp) (hm : m.data.length = min m.portion.toNat 512) (s : St) (hT : Short s.c) :
    (takePortion m).wp s
      (fun done s' => ∃ t z, s.c.peer.temp = some t ∧ s' = { s with c := withTemp (some (t ++ m.data)) s.c, x := { s.x with certSize := z } } ∧
        (done = true ↔ m.remainder = 0) ∧ m.slot = s.x.reqSlot ∧ m.data.length = m.portion.toNat ∧ m.portion.toNat ≤ 512 ∧
        t.length + m.data.length + m.remainder.toNat < 4096 ∧ (z ≠ 0 → z.toNat = t.length + m.data.length + m.remainder.toNat) ∧
        z = if t = [] then m.portion + m.remainder else s.x.certSize)
      (fun _ s' => ∃ z, s' = { s with x := { s.x with certSize := z } }) := by
  unfold M.wp takePortion
  cases ht : s.c.peer.temp with
  | none => exact ⟨_, rfl⟩
  | some t =>
    dsimp only
    have htl := hT t ht
    have ho : t.length.toUInt16.toNat = t.length := by simp; omega
    cases h1 : refusedEarly t.length.toUInt16 s.x.reqSlot m with
    | true => exact ⟨_, rfl⟩
    | false =>
      simp only [Bool.false_eq_true, if_false]
      cases h2 : refused t.length.toUInt16 s.x.reqSlot (sizeAfter s.x t.length.toUInt16 m) m with
      | true => exact ⟨_, rfl⟩
      | false =>
        simp only [Bool.false_eq_true, if_false]
        obtain ⟨h3, h4⟩ := portionRefused_of h2
        obtain ⟨b1, b2, b3, b4⟩ := Req.accepted_bound h3 (by omega)
        have hp : m.portion.toNat ≤ 512 := UInt16.le_iff_toNat_le.1 b1
        have hd : m.data.length = m.portion.toNat := by omega
        rw [if_neg (by omega)]
        dsimp only
        refine ⟨t, _, rfl, ?_, by simp, h4, hd, hp, by omega, fun hz => by rw [b4 hz]; omega, ?_⟩
        · have hst : Req.storePortion t.length.toUInt16 m t = t ++ m.data := by
            unfold Req.storePortion
            rw [ho]
            simp [← hd]
          rw [hst]; rfl
        · unfold sizeAfter
          by_cases hn : t = []
          · subst hn; rfl
          · rw [if_neg hn, if_neg]
            intro h0
            have := congrArg UInt16.toNat h0
            rw [ho] at this
            exact hn (List.length_eq_zero_iff.1 this)

theorem concluded_wp (done : Bool) (s : St) :
    (concluded e done).wp s
      (fun more s' => s.x.certSize ≠ 0 ∧ ((done = false ∧ more = true ∧ s' = s) ∨
        (done = true ∧ more = false ∧ ∃ ch i, s.c.peer.temp = some ch ∧ Checked e s.c ch ∧ Ctx.slot? s.x.reqSlot = some i ∧
          s' = { s with c := withChain i s.x.reqSlot ch s.c })))
      (fun _ s' => s' = { s with c := withTemp none s.c } ∧
        (s.x.certSize = 0 ∨ (done = true ∧ ∃ st, verifyChain e s.c = .err st))) := by
  unfold M.wp concluded
  by_cases hz : s.x.certSize = 0
  · rw [if_pos hz]; exact ⟨rfl, .inl hz⟩
  rw [if_neg hz]
  cases done with
  | false => exact ⟨hz, .inl ⟨rfl, rfl, rfl⟩⟩
  | true =>
    rw [if_neg (by decide)]
    cases hv : verifyChain e s.c with
    | panic => trivial
    | err st => exact ⟨rfl, .inr ⟨rfl, st, rfl⟩⟩
    | ok u =>
      obtain ⟨ch, h1, h2⟩ := verifyChain_ok hv
      cases hi : Ctx.slot? s.x.reqSlot with
      | none => trivial
      | some i =>
        refine ⟨hz, .inr ⟨rfl, rfl, ch, i, h1, h2, rfl, ?_⟩⟩
        dsimp only [withChain]
        rw [h1]

/-- CERTIFICATE as it lies in a delivery. -/
def IsPortion (v sl : UInt8) (len rem : UInt16) (data bytes : Bytes) : Prop :=
  ∃ p rest, bytes = v :: 0x02 :: ([sl] ++ [p] ++ putU16 len ++ putU16 rem ++ data) ++ rest ∧ data.length = len.toNat ∧ len.toNat ≤ 512

theorem heardCertificate_wp (bytes : Bytes) (s : St) (hT : Short s.c) :
    (heardCertificate e bytes).wp s
      (fun more s' => ∃ t z len rem data, s.c.peer.temp = some t ∧ IsPortion s.c.neg.version.get s.x.reqSlot len rem data bytes ∧
        t.length + data.length + rem.toNat < 4096 ∧ z ≠ 0 ∧
        ((more = true ∧ rem ≠ 0 ∧ s' = { s with c := withTemp (some (t ++ data)) s.c, x := { s.x with certSize := z } }) ∨
         (more = false ∧ rem = 0 ∧ ∃ i, Checked e s.c (t ++ data) ∧ Ctx.slot? s.x.reqSlot = some i ∧
            s' = { s with c := withChain i s.x.reqSlot (t ++ data) s.c, x := { s.x with certSize := z } })))
      (fun _ s' => ∃ z, s' = { s with x := { s.x with certSize := z } } ∨ s' = { s with c := withTemp none s.c, x := { s.x with certSize := z } }) := by
  unfold M.wp heardCertificate
  match bytes with
  | [] => exact ⟨s.x.certSize, .inl rfl⟩
  | [a] => exact ⟨s.x.certSize, .inl rfl⟩
  | v :: k :: t0 =>
    rw [header_read]
    dsimp only
    by_cases hv : SpdmVersion.ofCode v ≠ s.c.neg.version
    · rw [if_pos hv]; exact ⟨s.x.certSize, .inl rfl⟩
    rw [if_neg hv]
    have hv : SpdmVersion.ofCode v = s.c.neg.version := by simpa using hv
    by_cases hk : ReqRespCode.ofCode k ≠ .rspCertificate
    · rw [if_pos hk]; exact ⟨s.x.certSize, .inl rfl⟩
    rw [if_neg hk]
    have hk : k = 0x02 := by
      have := congrArg ReqRespCode.get (show ReqRespCode.ofCode k = .rspCertificate by simpa using hk)
      simp at this; exact this
    cases hr : CertRsp.read ⟨t0, 2⟩ with
    | panic => trivial
    | err _ _ => exact ⟨s.x.certSize, .inl rfl⟩
    | ok m r =>
      dsimp only
      obtain ⟨hlen, p, hafter⟩ := Req.CertRsp.read_tail hr
      rw [M.bind_apply]
      have h1 := takePortion_wp m hlen s hT
      unfold M.wp at h1
      cases hx : takePortion m s with
      | panic => trivial
      | err st s1 =>
        rw [hx] at h1
        obtain ⟨z, rfl⟩ := h1
        exact ⟨z, .inl rfl⟩
      | ok done s1 =>
        rw [hx] at h1
        obtain ⟨t, z, g1, rfl, g2, g3, g4, g5, g6, g7, g8⟩ := h1
        dsimp only
        have hpo : IsPortion s.c.neg.version.get s.x.reqSlot m.portion m.remainder m.data (v :: k :: t0) := by
          refine ⟨p, r.rest, ?_, g4, g5⟩
          rw [← g3, ← hv, SpdmVersion.get_ofCode, hk]
          have : t0 = _ := hafter.1
          rw [this]
          simp
        have h2 := concluded_wp (e := e) done { s with c := withTemp (some (t ++ m.data)) s.c, x := { s.x with certSize := z } }
        unfold M.wp at h2
        cases hy : concluded e done { s with c := withTemp (some (t ++ m.data)) s.c, x := { s.x with certSize := z } } with
        | panic => trivial
        | err st s2 =>
          rw [hy] at h2
          obtain ⟨rfl, _⟩ := h2
          exact ⟨z, .inr rfl⟩
        | ok more s2 =>
          rw [hy] at h2
          obtain ⟨hz, h2⟩ := h2
          refine ⟨t, z, m.portion, m.remainder, m.data, g1, hpo, g6, hz, ?_⟩
          rcases h2 with ⟨a1, a2, rfl⟩ | ⟨a1, a2, ch, i, b1, b2, b3, rfl⟩
          · refine .inl ⟨a2, fun h => ?_, rfl⟩
            rw [g2.2 h] at a1; cases a1
          · refine .inr ⟨a2, g2.1 a1, i, ?_, b3, ?_⟩
            · cases b1; exact ⟨b2.ok⟩
            · cases b1; rfl

/-- the message is a CERTIFICATE delivered for slot `sl`: `rem` bytes are to follow `data`. -/
def Delivers (v sl : UInt8) (rem : UInt16) (data msg : Bytes) : Prop :=
  ∃ k id x len rsp, msg = v :: k :: id :: x :: rsp ∧ IsPortion v sl len rem data rsp

/-- what one message did to the certificates a responder holds of its peer. -/
inductive Took (e : Env) (sl : UInt8) (msg : Bytes) (c c' : Ctx) : Prop
  /-- no chain was touched; the collected part was kept, dropped or started -/
  | kept : c'.peer.chain = c.peer.chain → c'.rt.peerSlot = c.rt.peerSlot →
      (c'.peer.temp = c.peer.temp ∨ c'.peer.temp = none ∨ (c.peer.temp = none ∧ c'.peer.temp = some [])) → Took e sl msg c c'
  /-- a portion was added to the collected part -/
  | part (t data : Bytes) (rem : UInt16) : c.peer.temp = some t → Delivers c.neg.version.get sl rem data msg → rem ≠ 0 →
      t.length + data.length + rem.toNat < 4096 → c'.peer.chain = c.peer.chain → c'.rt.peerSlot = c.rt.peerSlot →
      c'.peer.temp = some (t ++ data) → Took e sl msg c c'
  /-- the last portion came, the chain is valid and stored in the slot -/
  | stored (t data : Bytes) (i : Fin 8) : c.peer.temp = some t → Delivers c.neg.version.get sl 0 data msg →
      t.length + data.length < 4096 → Checked e c (t ++ data) → i.val = sl.toNat →
      c'.peer.chain = (fun j => if j = i then some (t ++ data) else c.peer.chain j) → c'.rt.peerSlot = sl → c'.peer.temp = none → Took e sl msg c c'

/-- everything else: only packets were sent and the peer's slot noted. -/
structure Answering (s s' : St) : Prop where
  config : s'.c.config = s.c.config
  neg : s'.c.neg = s.c.neg
  prov : s'.c.prov = s.c.prov
  sessions : s'.c.sessions = s.c.sessions
  sent : s.c.sent <+: s'.c.sent
  rt : ∃ sl, s'.c.rt = { s.c.rt with peerSlot := sl }
  slot : s'.x.reqSlot = s.x.reqSlot
  id : s'.x.requestId = s.x.requestId

instance : M.Pre Answering where
  refl _ := ⟨rfl, rfl, rfl, rfl, List.prefix_refl _, ⟨_, rfl⟩, rfl, rfl⟩
  trans h h' := ⟨h'.config.trans h.config, h'.neg.trans h.neg, h'.prov.trans h.prov, h'.sessions.trans h.sessions, h.sent.trans h'.sent,
    by obtain ⟨a, ha⟩ := h.rt; obtain ⟨b, hb⟩ := h'.rt; exact ⟨b, by rw [hb, ha]⟩, h'.slot.trans h.slot, h'.id.trans h.id⟩

theorem Writing.answering {s s' : St} (h : Writing s s') : Answering s s' := by
  obtain ⟨h1, h2⟩ := h
  exact ⟨by rw [h1], by rw [h1], by rw [h1], by rw [h1], by rw [h1]; exact List.prefix_refl _, ⟨_, by rw [h1]⟩, by rw [h2], by rw [h2]⟩

theorem Took.same (sl : UInt8) (msg : Bytes) {c c' : Ctx} (h : c'.peer = c.peer) (h' : c'.rt.peerSlot = c.rt.peerSlot) : Took e sl msg c c' :=
  .kept (by rw [h]) h' (.inl (by rw [h]))

theorem slot?_ok {sl : UInt8} {i : Fin 8} (h : Ctx.slot? sl = some i) : i.val = sl.toNat := by
  unfold Ctx.slot? at h
  split at h
  · cases h; rfl
  · cases h

/-- the two relations, for a part of the handler that works on the message. -/
def Hearing (e : Env) (msg : Bytes) (s s' : St) : Prop := Answering s s' ∧ Took e s.x.reqSlot msg s.c s'.c ∧ (Short s.c → Short s'.c)

theorem Hearing.writing {msg : Bytes} {s s' s'' : St} (h : Hearing e msg s s') (h' : Writing s' s'') : Hearing e msg s s'' := by
  obtain ⟨h1, h2, h3⟩ := h
  refine ⟨M.Pre.trans h1 h'.answering, ?_, by rw [h'.1]; exact h3⟩
  rw [h'.1]; exact h2

theorem Writing.hearing (msg : Bytes) {s s' : St} (h : Writing s s') : Hearing e msg s s' :=
  ⟨h.answering, by rw [h.1]; exact .kept rfl rfl (.inl rfl), by rw [h.1]; exact id⟩

theorem Writing.before {msg : Bytes} {s s' s'' : St} (h : Writing s s') (h' : Hearing e msg s' s'') : Hearing e msg s s'' := by
  obtain ⟨h1, h2, h3⟩ := h'
  refine ⟨M.Pre.trans h.answering h1, ?_, by rw [← h.1]; exact h3⟩
  rw [← h.1, ← h.2]; exact h2

/-- `askCertificate` starts an empty collection if there is none. -/
theorem askCertificate_wp (s : St) :
    askCertificate.wp s (fun _ s' => s'.c = withTemp (some (s.c.peer.temp.getD [])) s.c ∧ s'.x = s.x)
      (fun _ s' => s'.c = withTemp (some (s.c.peer.temp.getD [])) s.c ∧ s'.x = s.x) := by
  have h := put_writing (fun cc => Msg.encode cc ⟨⟨s.c.neg.version, .reqGetCertificate⟩, .getCert ⟨s.x.reqSlot, (s.c.peer.temp.getD []).length.toUInt16, 512⟩⟩)
    { s with c := { s.c with peer := { s.c.peer with temp := some (s.c.peer.temp.getD []) } } }
  exact h

theorem Hearing.asking {msg : Bytes} {s s' s'' : St} (h : Hearing e msg s s')
    (h' : s''.c = withTemp (some (s'.c.peer.temp.getD [])) s'.c ∧ s''.x = s'.x) (ht : s'.c.peer.temp = none → s'.c = s.c) : Hearing e msg s s'' := by
  obtain ⟨h1, h2, h3⟩ := h
  obtain ⟨g1, g2⟩ := h'
  have hrest : Answering s' s'' := ⟨by rw [g1]; rfl, by rw [g1]; rfl, by rw [g1]; rfl, by rw [g1]; rfl, by rw [g1]; exact List.prefix_refl _, ⟨_, by rw [g1]; rfl⟩, by rw [g2], by rw [g2]⟩
  cases htt : s'.c.peer.temp with
  | none =>
    have hc := ht htt
    refine ⟨M.Pre.trans h1 hrest, ?_, fun _ t h => ?_⟩
    · refine .kept (by rw [g1, ← hc]; rfl) (by rw [g1, ← hc]; rfl) (.inr (.inr ⟨by rw [← hc]; exact htt, by rw [g1, htt]; rfl⟩))
    · rw [g1, htt] at h
      have : ([] : Bytes) = t := Option.some.inj h
      rw [← this]; decide
  | some t =>
    have hc : s''.c = s'.c := by
      rw [g1, htt]
      dsimp only [withTemp, Option.getD]
      rw [← htt]
    refine ⟨M.Pre.trans h1 hrest, by rw [hc]; exact h2, by rw [hc]; exact h3⟩

theorem heardDigests_same (bytes : Bytes) (s : St) : (heardDigests bytes).wp s (fun _ s' => s' = s) (fun _ s' => s' = s) := by
  unfold M.wp heardDigests
  cases Header.read (Reader.init bytes) with
  | panic => trivial
  | err _ _ => rfl
  | ok h r =>
    dsimp only
    by_cases hv : h.version ≠ s.c.neg.version
    · rw [if_pos hv]
    rw [if_neg hv]
    by_cases hk : h.code ≠ .rspDigests
    · rw [if_pos hk]
    rw [if_neg hk]
    cases Digests.read s.c.cc r with
    | panic => trivial
    | err _ _ => rfl
    | ok _ _ => rfl

theorem heardDigests_writing (bytes : Bytes) : M.Rel Writing (heardDigests bytes) := fun s =>
  (heardDigests_same bytes s).mono (fun _ _ h => by rw [h]; exact ⟨rfl, rfl⟩) (fun _ _ h => by rw [h]; exact ⟨rfl, rfl⟩)

/-- a step that works on the message `msg`, whose delivered response is `rsp`. -/
def Of (c : Ctx) (msg rsp : Bytes) : Prop := ∃ k id x, msg = c.neg.version.get :: k :: id :: x :: rsp

theorem Short.temp {c : Ctx} {t : Option Bytes} (h : ∀ b, t = some b → b.length < 4096) : Short (withTemp t c) := fun _ h' => h _ h'

theorem afterCertificate_hearing {msg rsp : Bytes} (id : UInt8) (s : St) (hT : Short s.c) (hm : Of s.c msg rsp) :
    (afterCertificate e id rsp).wp s (fun _ => Hearing e msg s) (fun _ => Hearing e msg s) := by
  unfold M.wp afterCertificate
  have h1 := heardCertificate_wp (e := e) rsp s hT
  unfold M.wp at h1
  cases hx : heardCertificate e rsp s with
  | panic => trivial
  | err st s1 =>
    rw [hx] at h1
    obtain ⟨z, h1⟩ := h1
    have hh : Hearing e msg s s1 := by
      rcases h1 with rfl | rfl
      · exact ⟨⟨rfl, rfl, rfl, rfl, List.prefix_refl _, ⟨_, rfl⟩, rfl, rfl⟩, .kept rfl rfl (.inl rfl), fun h => h⟩
      · exact ⟨⟨rfl, rfl, rfl, rfl, List.prefix_refl _, ⟨_, rfl⟩, rfl, rfl⟩, .kept rfl rfl (.inr (.inl rfl)), fun _ => Short.temp (fun _ h => by cases h)⟩
    dsimp only
    by_cases hst : st = .notReadyPeer
    · rw [if_pos hst]
      exact (ackParams_writing .absent id s1).mono (fun _ _ h => hh.writing h) (fun _ _ h => hh.writing h)
    · rw [if_neg hst]; exact hh
  | ok more s1 =>
    rw [hx] at h1
    obtain ⟨t, z, len, rem, data, g1, g2, g3, g4, h1⟩ := h1
    obtain ⟨k, id0, x, hmsg⟩ := hm
    rcases h1 with ⟨rfl, g5, rfl⟩ | ⟨rfl, rfl, i, g5, g6, rfl⟩
    · dsimp only
      have hh : Hearing e msg s { s with c := withTemp (some (t ++ data)) s.c, x := { s.x with certSize := z } } :=
        ⟨⟨rfl, rfl, rfl, rfl, List.prefix_refl _, ⟨_, rfl⟩, rfl, rfl⟩, .part t data rem g1 ⟨k, id0, x, len, rsp, hmsg, g2⟩ g5 g3 rfl rfl rfl,
          fun _ => Short.temp fun b h => by cases h; rw [List.length_append]; omega⟩
      refine M.wp.bind (P := fun _ s' => Writing _ s') ((ackParams_writing .present id _).mono (fun _ _ h => h) (fun _ _ h => hh.writing h)) fun _ s2 hw => ?_
      have hh2 := hh.writing hw
      refine (askCertificate_wp s2).mono (fun _ _ h => hh2.asking h ?_) (fun _ _ h => hh2.asking h ?_) <;>
      · intro h0; rw [hw.1] at h0; cases h0
    · dsimp only
      have hh : Hearing e msg s { s with c := withChain i s.x.reqSlot (t ++ data) s.c, x := { s.x with certSize := z } } :=
        ⟨⟨rfl, rfl, rfl, rfl, List.prefix_refl _, ⟨_, rfl⟩, rfl, rfl⟩,
          .stored t data i g1 ⟨k, id0, x, len, rsp, hmsg, g2⟩ (by simpa using g3) g5 (slot?_ok g6) rfl rfl rfl,
          fun _ => fun _ h => by cases h⟩
      refine M.wp.bind (P := fun _ s' => Writing _ s') ((ackParams_writing .reqSlotNumber id _).mono (fun _ _ h => h) (fun _ _ h => hh.writing h)) fun _ s2 hw => ?_
      have hh2 := hh.writing hw
      exact (put_writing _ s2).mono (fun _ _ h => hh2.writing h) (fun _ _ h => hh2.writing h)

theorem respond_hearing {msg rsp : Bytes} (k : ReqRespCode) (id : UInt8) (s : St) (hT : Short s.c) (hm : Of s.c msg rsp) :
    (respond e k id rsp).wp s (fun _ => Hearing e msg s) (fun _ => Hearing e msg s) := by
  have hfail : (M.fail .unsupportedCap : W Unit).wp s (fun _ => Hearing e msg s) (fun _ => Hearing e msg s) := Writing.hearing msg ⟨rfl, rfl⟩
  by_cases h1 : k = .rspDigests
  · subst h1
    unfold respond
    refine M.wp.bind (P := fun _ s' => Writing s s') ((heardDigests_writing rsp s).mono (fun _ _ h => h) (fun _ _ h => h.hearing msg)) fun _ s1 w1 => ?_
    refine M.wp.bind (P := fun _ s' => Writing s1 s') ((discarding_writing (ackParams_writing .present id) s1).mono (fun _ _ h => h)
      (fun _ _ h => (w1.hearing msg).writing h)) fun _ s2 w2 => ?_
    have w : Writing s s2 := M.Pre.trans w1 w2
    exact (askCertificate_wp s2).mono (fun _ _ h => (w.hearing msg).asking h fun _ => w.1) (fun _ _ h => (w.hearing msg).asking h fun _ => w.1)
  · by_cases h2 : k = .rspCertificate
    · subst h2; exact afterCertificate_hearing id s hT hm
    · have : respond e k id rsp = M.fail .unsupportedCap := by
        cases k <;> first | rfl | exact absurd rfl h1 | exact absurd rfl h2
      rw [this]; exact hfail

theorem processResponse_hearing {msg rsp : Bytes} (id : UInt8) (s : St) (hT : Short s.c) (hm : Of s.c msg rsp) :
    (processResponse e id rsp).wp s (fun _ => Hearing e msg s) (fun _ => Hearing e msg s) := by
  unfold processResponse
  rw [M.wp_bind, M.wp_get]
  cases Header.read (Reader.init rsp) with
  | panic => trivial
  | err _ _ => exact Writing.hearing msg ⟨rfl, rfl⟩
  | ok h r =>
    dsimp only
    by_cases hv : h.version ≠ s.c.neg.version
    · rw [if_pos hv]; exact Writing.hearing msg ⟨rfl, rfl⟩
    rw [if_neg hv]
    refine M.wp.bind (P := fun _ s' => Writing s s') ((ackHeader_writing s).mono (fun _ _ h => h) (fun _ _ h => h.hearing msg)) fun _ s1 w1 => ?_
    refine (respond_hearing h.code id s1 (by rw [w1.1]; exact hT) (by rw [w1.1]; exact hm)).mono (fun _ _ h => w1.before h) (fun _ _ h => w1.before h)

theorem writeErr_hearing {msg : Bytes} {s s1 : St} (h : Hearing e msg s s1) (code : ErrorCode) (data : UInt8) :
    (writeErr code data).wp s1 (fun _ => Hearing e msg s) (fun _ => Hearing e msg s) :=
  (writeErr_writing code data s1).mono (fun _ _ w => h.writing w) (fun _ _ w => h.writing w)

/-- the body of a delivery. -/
theorem ackBody_hearing (msg : Bytes) (s : St) (hT : Short s.c) : (ackBody e msg).wp s (fun _ => Hearing e msg s) (fun _ => Hearing e msg s) := by
  have hself : Hearing e msg s s := Writing.hearing msg ⟨rfl, rfl⟩
  unfold M.wp ackBody
  match msg with
  | [] => exact writeErr_hearing hself _ _
  | [a] => exact writeErr_hearing hself _ _
  | v :: k :: t0 =>
    rw [header_read]
    dsimp only
    by_cases hv : SpdmVersion.ofCode v ≠ s.c.neg.version
    · rw [if_pos hv]; exact writeErr_hearing hself _ _
    rw [if_neg hv]
    have hv : SpdmVersion.ofCode v = s.c.neg.version := by simpa using hv
    match t0 with
    | [] => exact writeErr_hearing hself _ _
    | [a] => exact writeErr_hearing hself _ _
    | id :: x :: rsp =>
      have hr : rdId ⟨id :: x :: rsp, 2⟩ = .ok id ⟨rsp, 4⟩ := by simp [rdId]
      rw [hr]
      dsimp only
      have hd : (v :: k :: id :: x :: rsp).drop 4 = rsp := rfl
      rw [hd]
      have h := processResponse_hearing (e := e) (msg := v :: k :: id :: x :: rsp) (rsp := rsp) id s hT ⟨k, id, x, by rw [← hv, SpdmVersion.get_ofCode]⟩
      unfold M.wp at h
      cases hx : processResponse e id rsp s with
      | panic => trivial
      | ok _ s1 => rw [hx] at h; exact h
      | err _ s1 => rw [hx] at h; exact writeErr_hearing h _ _

/-- the body of the answer to GET_ENCAPSULATED_REQUEST. -/
theorem requestBody_writing (msg : Bytes) : M.Rel Writing (requestBody msg) := by
  intro s
  unfold M.wp requestBody
  cases Header.read (Reader.init msg) with
  | panic => trivial
  | err _ _ => exact writeErr_writing _ _ s
  | ok h r =>
    dsimp only
    by_cases hv : h.version ≠ s.c.neg.version
    · rw [if_pos hv]; exact writeErr_writing _ _ s
    rw [if_neg hv]
    have h1 := put_writing (fun _ => Enc.seq [Header.encode ⟨s.c.neg.version, .rspEncapsulatedRequest⟩, encId s.x.requestId]) s
    unfold M.wp at h1
    cases hx : put (fun _ => Enc.seq [Header.encode ⟨s.c.neg.version, .rspEncapsulatedRequest⟩, encId s.x.requestId]) s with
    | panic => trivial
    | err _ s1 =>
      rw [hx] at h1
      exact (writeErr_writing _ _ s1).mono (fun _ _ w => M.Pre.trans (R := Writing) h1 w) (fun _ _ w => M.Pre.trans (R := Writing) h1 w)
    | ok _ s1 =>
      rw [hx] at h1
      have h2 := askDigests_writing s1
      unfold M.wp at h2
      dsimp only
      cases hy : askDigests s1 with
      | panic => trivial
      | err _ s2 =>
        rw [hy] at h2
        have h12 : Writing s s2 := M.Pre.trans (R := Writing) h1 h2
        exact (writeErr_writing _ _ s2).mono (fun _ _ w => M.Pre.trans h12 w) (fun _ _ w => M.Pre.trans h12 w)
      | ok _ s2 => rw [hy] at h2; exact M.Pre.trans (R := Writing) h1 h2

/-- the checks before the body only send. -/
def Checking (s s' : St) : Prop := Outside s.c s'.c ∧ s'.x = s.x

theorem Outside.refl (c : Ctx) : Outside c c := ⟨rfl, rfl, rfl, rfl, rfl, rfl, List.prefix_refl _⟩
theorem Outside.trans {a b c : Ctx} (h : Outside a b) (h' : Outside b c) : Outside a c :=
  ⟨h'.config.trans h.config, h'.neg.trans h.neg, h'.rt.trans h.rt, h'.prov.trans h.prov, h'.peer.trans h.peer, h'.sessions.trans h.sessions, h.sent.trans h'.sent⟩

instance : M.Pre Checking where
  refl _ := ⟨Outside.refl _, rfl⟩
  trans h h' := ⟨h.1.trans h'.1, h'.2.trans h.2⟩

theorem check_checking (k : UInt8) : M.Rel Checking (check e k) := by
  have hw : ∀ code data, M.Rel Checking (writeErr code data) := fun code data s =>
    (writeErr_writing code data s).mono (fun _ _ w => ⟨by rw [w.1]; exact Outside.refl _, w.2⟩) (fun _ _ w => ⟨by rw [w.1]; exact Outside.refl _, w.2⟩)
  have hs : ∀ code data, M.Rel Checking (sendErr e code data) := fun code data s =>
    (sendErr_outside code data s).mono (fun _ _ w => ⟨w.1, w.2.1⟩) (fun _ _ w => ⟨w.1, w.2.1⟩)
  unfold check
  refine M.Rel.bind (R := Checking) ?_ fun _ => ?_
  · intro s
    unfold M.wp checkVersion
    by_cases hv : s.c.neg.version.get < 0x11
    · rw [if_pos hv]; exact hs _ _ s
    · rw [if_neg hv]; exact M.Pre.refl (R := Checking) s
  · intro s
    unfold M.wp checkState
    by_cases hv : Cap.has s.c.neg.reqCaps Cap.encap = false ∨ Cap.has s.c.neg.rspCaps Cap.encap = false
    · rw [if_pos hv]; exact hw _ _ s
    rw [if_neg hv]
    by_cases hv : s.c.rt.state.code < ConnState.afterCertificate.code
    · rw [if_pos hv]; exact hw _ _ s
    · rw [if_neg hv]; exact M.Pre.refl (R := Checking) s

theorem Checking.before {msg : Bytes} {s s' s'' : St} (h : Checking s s') (h' : Hearing e msg s' s'') : Hearing e msg s s'' := by
  obtain ⟨⟨a1, a2, a3, a4, a5, a6, a7⟩, hx⟩ := h
  obtain ⟨h1, h2, h3⟩ := h'
  refine ⟨⟨h1.config.trans a1, h1.neg.trans a2, h1.prov.trans a4, h1.sessions.trans a6, a7.trans h1.sent, by
    obtain ⟨sl, h⟩ := h1.rt; exact ⟨sl, by rw [h, a3]⟩, h1.slot.trans (by rw [hx]), h1.id.trans (by rw [hx])⟩, ?_, fun hT => h3 (fun t ht => hT t (by rw [← a5]; exact ht))⟩
  rw [hx] at h2
  rcases h2 with ⟨b1, b2, b3⟩ | ⟨t, data, rem, b1, b2, b3, b4, b5, b6, b7⟩ | ⟨t, data, i, b1, b2, b3, b4, b5, b6, b7, b8⟩
  · rw [a5] at b1 b3; rw [a3] at b2
    exact .kept b1 b2 b3
  · rw [a5] at b1 b5; rw [a3] at b6; rw [a2] at b2
    exact .part t data rem b1 b2 b3 b4 b5 b6 b7
  · rw [a5] at b1 b6; rw [a2] at b2
    refine .stored t data i b1 b2 b3 ?_ b5 b6 b7 b8
    obtain ⟨h⟩ := b4
    rw [a2, a4] at h
    exact ⟨h⟩

/-! ### What is written -/

theorem put_ok {x : Cc → Enc Nat} {bs : Bytes} {s : St} (h : Writes (x s.c.cc) bs) (hf : s.w.out.length + bs.length ≤ s.w.cap) :
    put x s = .ok () { s with w := ⟨s.w.cap, s.w.out ++ bs⟩ } := by
  unfold put
  rw [(h s.w (by unfold Writer.WF; omega)).1 hf]

/-- the writer has room for everything a handler writes. -/
structure Room (n : Nat) (s : St) : Prop where
  cap : s.w.cap = 4096
  len : s.w.out.length ≤ n

/-- the answer begins like ENCAPSULATED_REQUEST, ENCAPSULATED_RESPONSE_ACK or ERROR. -/
def Begins (s : St) : Prop := ∃ k t, s.w.out = s.c.neg.version.get :: k :: t ∧ (k = 0x6A ∨ k = 0x6B ∨ k = 0x7F)

/-- nothing was written, or the answer begins as it should. -/
def Clean (s : St) : Prop := s.w.out = [] ∨ Begins s

theorem Begins.more {s s' : St} (h : Begins s) (bs : Bytes) (ho : s'.w.out = s.w.out ++ bs) (hn : s'.c.neg = s.c.neg) : Begins s' := by
  obtain ⟨k, t, h1, h2⟩ := h
  exact ⟨k, t ++ bs, by rw [ho, h1, hn]; rfl, h2⟩

theorem Clean.more {s s' : St} (h : Clean s) (k : UInt8) (bs : Bytes) (hk : k = 0x6A ∨ k = 0x6B ∨ k = 0x7F)
    (ho : s'.w.out = s.w.out ++ s.c.neg.version.get :: k :: bs) (hn : s'.c.neg = s.c.neg) : Begins s' := by
  rcases h with h | h
  · exact ⟨k, bs, by rw [ho, h, hn]; rfl, hk⟩
  · exact h.more _ ho hn

theorem writeErr_eq (code : ErrorCode) (data : UInt8) {s : St} (hr : Room 4092 s) :
    writeErr code data s = .ok () { s with w := ⟨s.w.cap, s.w.out ++ errorBytes s.c.neg.version code data⟩ } := by
  unfold writeErr discarding
  rw [put_ok (error_writes s.c code data) (by have := hr.cap; have := hr.len; simp [errorBytes]; omega)]

theorem ackHeader_eq {s : St} (hr : Room 4092 s) :
    ackHeader s = .ok () { s with w := ⟨s.w.cap, s.w.out ++ [s.c.neg.version.get, 0x6B]⟩ } := by
  unfold ackHeader discarding
  rw [put_ok (bs := [s.c.neg.version.get, 0x6B]) ((Header.encode_writes _).cast rfl) (by have := hr.cap; have := hr.len; simp; omega)]

/-- the parameters of an acknowledgement. -/
def ackBytes (s : St) (t : EncapAckPayload) (id : UInt8) : Bytes := Ack.wire s.c.cc ⟨s.x.requestId, t, id⟩

theorem ackBytes_length (s : St) (t : EncapAckPayload) (id : UInt8) : (ackBytes s t id).length ≤ 6 := by
  unfold ackBytes Ack.wire
  split <;> simp

theorem ackParams_eq (t : EncapAckPayload) (id : UInt8) {s : St} (hr : Room 4000 s) :
    ackParams t id s = .ok () { s with w := ⟨s.w.cap, s.w.out ++ ackBytes s t id⟩ } := by
  unfold ackParams
  rw [put_ok (Ack.encode_writes _ _) (by have := hr.cap; have := hr.len; have := ackBytes_length s t id; unfold ackBytes at this; omega)]
  rfl

theorem askDigests_eq {s : St} (hr : Room 4000 s) :
    askDigests s = .ok () { s with w := ⟨s.w.cap, s.w.out ++ [s.c.neg.version.get, 0x81, 0, 0]⟩ } := by
  unfold askDigests
  rw [put_ok (bs := [s.c.neg.version.get, 0x81, 0, 0]) ((Msg.encode_writes (m := ⟨⟨s.c.neg.version, .reqGetDigests⟩, .getDigests⟩) trivial).cast rfl)
    (by have := hr.cap; have := hr.len; simp; omega)]

theorem askCertificate_eq {s : St} (hr : Room 4000 s) :
    askCertificate s = .ok () { s with c := withTemp (some (s.c.peer.temp.getD [])) s.c, w := ⟨s.w.cap, s.w.out ++
      Req.certAsk s.c.neg.version.get s.x.reqSlot (s.c.peer.temp.getD []).length.toUInt16 512⟩ } := by
  unfold askCertificate
  rw [put_ok (bs := Req.certAsk s.c.neg.version.get s.x.reqSlot (s.c.peer.temp.getD []).length.toUInt16 512)
    ((Msg.encode_writes (m := ⟨⟨s.c.neg.version, .reqGetCertificate⟩, .getCert _⟩) trivial).cast (by
      simp [Msg.wire, Header.wire, Payload.wire, GetCert.wire, Req.certAsk, ReqRespCode.get]))
    (by have := hr.cap; have := hr.len; simp [Req.certAsk, putU16]; omega)]
  rfl

theorem Room.mono {n m : Nat} {s : St} (h : Room n s) (hm : n ≤ m) : Room m s := ⟨h.cap, Nat.le_trans h.len hm⟩

/-- the writer after a step: something sound was written. -/
def Wrote (n : Nat) (s : St) : Prop := Room n s ∧ Begins s

theorem Clean.err {s : St} {n : Nat} (h : Clean s) (hr : Room n s) (hn : n ≤ 4000) (code : ErrorCode) (data : UInt8) :
    ∃ s', writeErr code data s = .ok () s' ∧ Wrote (n + 4) s' := by
  refine ⟨_, writeErr_eq code data (hr.mono (by omega)), ⟨hr.cap, ?_⟩, ?_⟩
  · have := hr.len; simp [errorBytes]; omega
  · exact h.more 0x7F _ (.inr (.inr rfl)) rfl rfl

/-- the writer and the negotiation are as before. -/
def SameOut (s s1 : St) : Prop := s1.w.cap = s.w.cap ∧ s1.w.out = s.w.out ∧ s1.c.neg = s.c.neg

theorem more_wrote (id : UInt8) {s s1 : St} (hr : Room 100 s) (hb : Begins s) (hs : SameOut s s1) :
    (do ackParams .present id; askCertificate : W Unit).wp s1 (fun _ s' => Wrote 200 s') (fun _ s' => Wrote 200 s') := by
  obtain ⟨h1, h2, h3⟩ := hs
  have hr1 : Room 100 s1 := ⟨h1.trans hr.cap, by rw [h2]; exact hr.len⟩
  have hb1 : Begins s1 := hb.more [] (by rw [h2, List.append_nil]) h3
  have hl := ackBytes_length s1 .present id
  have hlen := hr1.len
  unfold M.wp
  rw [M.bind_apply, ackParams_eq _ _ (hr1.mono (by omega))]
  dsimp only
  have hr2 : Room 4000 { s1 with w := ⟨s1.w.cap, s1.w.out ++ ackBytes s1 .present id⟩ } := ⟨hr1.cap, by simp only [List.length_append]; omega⟩
  rw [askCertificate_eq hr2]
  refine ⟨⟨hr1.cap, ?_⟩, ?_⟩
  · simp only [List.length_append]; simp [Req.certAsk, putU16]; omega
  · exact hb1.more (_ ++ _) (List.append_assoc ..) rfl

theorem last_wrote (id sl : UInt8) {s s1 : St} (hr : Room 100 s) (hb : Begins s) (hs : SameOut s s1) :
    (do ackParams .reqSlotNumber id; put fun _ => encU8 sl : W Unit).wp s1 (fun _ s' => Wrote 200 s') (fun _ s' => Wrote 200 s') := by
  obtain ⟨h1, h2, h3⟩ := hs
  have hr1 : Room 100 s1 := ⟨h1.trans hr.cap, by rw [h2]; exact hr.len⟩
  have hb1 : Begins s1 := hb.more [] (by rw [h2, List.append_nil]) h3
  have hl := ackBytes_length s1 .reqSlotNumber id
  have hlen := hr1.len
  unfold M.wp
  rw [M.bind_apply, ackParams_eq _ _ (hr1.mono (by omega))]
  dsimp only
  rw [put_ok (Writes.u8 _) (by dsimp only; rw [hr1.cap]; simp only [List.length_append]; simp; omega)]
  refine ⟨⟨hr1.cap, ?_⟩, ?_⟩
  · simp only [List.length_append]; simp; omega
  · exact hb1.more (_ ++ _) (List.append_assoc ..) rfl

theorem respond_wrote (k : ReqRespCode) (id : UInt8) (rsp : Bytes) (s : St) (hT : Short s.c) (hr : Room 100 s) (hb : Begins s) :
    (respond e k id rsp).wp s (fun _ s' => Wrote 200 s') (fun _ s' => Wrote 200 s') := by
  have hself : Wrote 200 s := ⟨hr.mono (by omega), hb⟩
  by_cases h1 : k = .rspDigests
  · subst h1
    unfold respond
    refine M.wp.bind (P := fun _ s' => s' = s) ((heardDigests_same rsp s).mono (fun _ _ h => h) (fun _ _ h => by rw [h]; exact hself)) fun _ s1 w1 => ?_
    subst w1
    unfold M.wp
    rw [M.bind_apply]
    unfold discarding
    rw [ackParams_eq _ _ (hr.mono (by omega))]
    dsimp only
    have hr2 : Room 106 { s1 with w := ⟨s1.w.cap, s1.w.out ++ ackBytes s1 .present id⟩ } :=
      ⟨hr.cap, by have := hr.len; have := ackBytes_length s1 .present id; simp only [List.length_append]; omega⟩
    rw [askCertificate_eq (hr2.mono (by omega))]
    refine ⟨⟨hr.cap, ?_⟩, ?_⟩
    · have := hr2.len; simp only [List.length_append] at this ⊢; simp [Req.certAsk, putU16]; omega
    · exact hb.more (_ ++ _) (List.append_assoc ..) rfl
  · by_cases h2 : k = .rspCertificate
    · subst h2
      show (afterCertificate e id rsp).wp s _ _
      unfold M.wp afterCertificate
      have hh := heardCertificate_wp (e := e) rsp s hT
      unfold M.wp at hh
      cases hx : heardCertificate e rsp s with
      | panic => trivial
      | err st s1 =>
        rw [hx] at hh
        have hs1 : Room 100 s1 ∧ Begins s1 := by
          obtain ⟨z, h | h⟩ := hh
          · subst h; exact ⟨⟨hr.cap, hr.len⟩, hb⟩
          · subst h; exact ⟨⟨hr.cap, hr.len⟩, hb.more [] (List.append_nil _).symm rfl⟩
        dsimp only
        by_cases hst : st = .notReadyPeer
        · rw [if_pos hst, ackParams_eq _ _ (hs1.1.mono (by omega))]
          refine ⟨⟨hs1.1.cap, ?_⟩, hs1.2.more _ rfl rfl⟩
          have := hs1.1.len; have := ackBytes_length s1 .absent id; simp only [List.length_append]; omega
        · rw [if_neg hst]; exact ⟨hs1.1.mono (by omega), hs1.2⟩
      | ok more s1 =>
        rw [hx] at hh
        obtain ⟨t, z, len, rem, data, g1, g2, g3, g4, hh⟩ := hh
        rcases hh with ⟨rfl, g5, rfl⟩ | ⟨rfl, rfl, i, g5, g6, rfl⟩
        · exact more_wrote id hr hb ⟨rfl, rfl, rfl⟩
        · exact last_wrote id s.x.reqSlot hr hb ⟨rfl, rfl, rfl⟩
    · have : respond e k id rsp = M.fail .unsupportedCap := by
        cases k <;> first | rfl | exact absurd rfl h1 | exact absurd rfl h2
      rw [this]; exact hself

theorem processResponse_wrote (id : UInt8) (rsp : Bytes) (s : St) (hT : Short s.c) (hr : Room 50 s) (hc : Clean s) :
    (processResponse e id rsp).wp s (fun _ s' => Wrote 200 s') (fun _ s' => Room 200 s' ∧ Clean s') := by
  have hself : Room 200 s ∧ Clean s := ⟨hr.mono (by omega), hc⟩
  unfold processResponse
  rw [M.wp_bind, M.wp_get]
  cases Header.read (Reader.init rsp) with
  | panic => trivial
  | err _ _ => exact hself
  | ok h r =>
    dsimp only
    by_cases hv : h.version ≠ s.c.neg.version
    · rw [if_pos hv]; exact hself
    rw [if_neg hv]
    unfold M.wp
    rw [M.bind_apply, ackHeader_eq (hr.mono (by omega))]
    dsimp only
    exact (respond_wrote (e := e) h.code id rsp { s with w := ⟨s.w.cap, s.w.out ++ [s.c.neg.version.get, 0x6B]⟩ } hT
      ⟨hr.cap, by have := hr.len; simp only [List.length_append]; simp; omega⟩ (hc.more 0x6B [] (.inr (.inl rfl)) rfl rfl)).mono (fun _ _ h => h) (fun _ _ h => ⟨h.1, .inr h.2⟩)

/-- the answer to a delivery begins as it should; there always is one. -/
theorem ackBody_wrote (msg : Bytes) (s : St) (hT : Short s.c) (hr : Room 50 s) (hc : Clean s) :
    (ackBody e msg).wp s (fun _ s' => Wrote 300 s') (fun _ _ => False) := by
  have herr : ∀ code data, (writeErr code data).wp s (fun _ s' => Wrote 300 s') (fun _ _ => False) := fun code data => by
    obtain ⟨s', h1, h2⟩ := hc.err hr (by omega) code data
    unfold M.wp; rw [h1]; exact ⟨h2.1.mono (by omega), h2.2⟩
  unfold M.wp ackBody
  match msg with
  | [] => exact herr _ _
  | [a] => exact herr _ _
  | v :: k :: t0 =>
    rw [header_read]
    dsimp only
    by_cases hv : SpdmVersion.ofCode v ≠ s.c.neg.version
    · rw [if_pos hv]; exact herr _ _
    rw [if_neg hv]
    cases hrd : rdId ⟨t0, 2⟩ with
    | panic => trivial
    | err _ _ => exact herr _ _
    | ok id r =>
      dsimp only
      have h := processResponse_wrote (e := e) id ((v :: k :: t0).drop r.used) s hT hr hc
      unfold M.wp at h
      cases hx : processResponse e id ((v :: k :: t0).drop r.used) s with
      | panic => trivial
      | ok _ s1 => rw [hx] at h; exact ⟨h.1.mono (by omega), h.2⟩
      | err _ s1 =>
        rw [hx] at h
        obtain ⟨s', h1, h2⟩ := h.2.err h.1 (by omega) .invalidResponseCode 0
        dsimp only
        rw [h1]; exact ⟨h2.1.mono (by omega), h2.2⟩

theorem requestBody_wrote (msg : Bytes) (s : St) (hr : Room 50 s) (hc : Clean s) :
    (requestBody msg).wp s (fun _ s' => Wrote 300 s') (fun _ _ => False) := by
  have herr : ∀ code data, (writeErr code data).wp s (fun _ s' => Wrote 300 s') (fun _ _ => False) := fun code data => by
    obtain ⟨s', h1, h2⟩ := hc.err hr (by omega) code data
    unfold M.wp; rw [h1]; exact ⟨h2.1.mono (by omega), h2.2⟩
  unfold M.wp requestBody
  cases Header.read (Reader.init msg) with
  | panic => trivial
  | err _ _ => exact herr _ _
  | ok h r =>
    dsimp only
    by_cases hv : h.version ≠ s.c.neg.version
    · rw [if_pos hv]; exact herr _ _
    rw [if_neg hv]
    rw [put_ok (bs := [s.c.neg.version.get, 0x6A, s.x.requestId, 0]) ((Writes.seq_cons (Header.encode_writes _) (Writes.seq_cons (encId_writes _) Writes.seq_nil)).cast rfl)
      (by have := hr.cap; have := hr.len; simp; omega)]
    dsimp only
    have hr2 : Room 4000 { s with w := ⟨s.w.cap, s.w.out ++ [s.c.neg.version.get, 0x6A, s.x.requestId, 0]⟩ } :=
      ⟨hr.cap, by have := hr.len; simp only [List.length_append]; simp; omega⟩
    rw [askDigests_eq hr2]
    refine ⟨⟨hr.cap, by have := hr.len; simp only [List.length_append]; simp; omega⟩, ?_⟩
    exact hc.more 0x6A ([s.x.requestId, 0] ++ [s.c.neg.version.get, 0x81, 0, 0]) (.inl rfl) (by simp) rfl

theorem check_clean (k : UInt8) (s : St) (hr : Room 0 s) :
    (check e k).wp s (fun _ s' => Room 50 s' ∧ Clean s') (fun _ _ => False) := by
  have hc : Clean s := .inl (List.length_eq_zero_iff.1 (Nat.le_zero.1 hr.len))
  have h1 : (checkVersion e k).wp s (fun _ s' => Room 0 s' ∧ Clean s') (fun _ _ => False) := by
    unfold M.wp checkVersion
    by_cases hv : s.c.neg.version.get < 0x11
    · rw [if_pos hv]
      have h := sendErr_outside (e := e) .unsupportedRequest k s
      have hne : ∀ st s', sendErr e .unsupportedRequest k s ≠ .err st s' := by
        intro st s' h
        unfold sendErr at h
        split at h
        · cases h
        · split at h <;> cases h
      unfold M.wp at h
      cases hx : sendErr e .unsupportedRequest k s with
      | panic => trivial
      | ok _ s1 =>
        rw [hx] at h
        obtain ⟨h1, h2, h3⟩ := h
        refine ⟨⟨by rw [h3]; exact hr.cap, by rw [h3]; exact hr.len⟩, .inl ?_⟩
        rw [h3]; exact List.length_eq_zero_iff.1 (Nat.le_zero.1 hr.len)
      | err st s1 => exact absurd hx (hne _ _)
    · rw [if_neg hv]; exact ⟨hr, hc⟩
  unfold check
  refine M.wp.bind h1 fun _ s1 hs1 => ?_
  have herr : ∀ code data, (writeErr code data).wp s1 (fun _ s' => Room 50 s' ∧ Clean s') (fun _ _ => False) := fun code data => by
    obtain ⟨s', h1, h2⟩ := hs1.2.err hs1.1 (by omega) code data
    unfold M.wp; rw [h1]; exact ⟨h2.1.mono (by omega), .inr h2.2⟩
  unfold M.wp checkState
  by_cases hv : Cap.has s1.c.neg.reqCaps Cap.encap = false ∨ Cap.has s1.c.neg.rspCaps Cap.encap = false
  · rw [if_pos hv]; exact herr _ _
  rw [if_neg hv]
  by_cases hv : s1.c.rt.state.code < ConnState.afterCertificate.code
  · rw [if_pos hv]; exact herr _ _
  · rw [if_neg hv]; exact ⟨hs1.1.mono (by omega), hs1.2⟩

/-- what a responder does to itself when it handles one encapsulation message in session `sid`. -/
structure Handled (e : Env) (sid : UInt32) (msg : Bytes) (p p' : Responder) : Prop where
  took : Took e p.x.reqSlot msg p.c p'.c
  short : Short p.c → Short p'.c
  slot : p'.x.reqSlot = p.x.reqSlot
  id : p'.x.requestId = p.x.requestId
  config : p'.c.config = p.c.config
  neg : p'.c.neg = p.c.neg
  prov : p'.c.prov = p.c.prov
  sent : p.c.sent <+: p'.c.sent
  rt : ∃ sl, p'.c.rt = { p.c.rt with peerSlot := sl }
  sessions : p'.c.sessions = p.c.sessions ∨ p'.c.sessions = Ctx.updFirst (·.id = sid) (·.bump false) p.c.sessions

theorem Took.to {sl : UInt8} {msg : Bytes} {c c' c'' : Ctx} (h : Took e sl msg c c') (h1 : c''.peer = c'.peer) (h2 : c''.rt.peerSlot = c'.rt.peerSlot) :
    Took e sl msg c c'' := by
  rcases h with ⟨b1, b2, b3⟩ | ⟨t, data, rem, b1, b2, b3, b4, b5, b6, b7⟩ | ⟨t, data, i, b1, b2, b3, b4, b5, b6, b7, b8⟩
  · rw [← h1] at b1 b3; rw [← h2] at b2; exact .kept b1 b2 b3
  · rw [← h1] at b5 b7; rw [← h2] at b6; exact .part t data rem b1 b2 b3 b4 b5 b6 b7
  · rw [← h1] at b6 b8; rw [← h2] at b7; exact .stored t data i b1 b2 b3 b4 b5 b6 b7 b8

theorem handle_handled (sid : UInt32) (msg : Bytes) {body : W Unit} (p : Responder) (hT : Short p.c)
    (hb : ∀ s : St, Short s.c → body.wp s (fun _ => Hearing e msg s) (fun _ => Hearing e msg s))
    (hw : ∀ s : St, Short s.c → Room 50 s → Clean s → body.wp s (fun _ s' => Wrote 300 s') (fun _ _ => False)) :
    (handle e sid body).wp p (fun _ => Handled e sid msg p) (fun _ => Handled e sid msg p) := by
  have h : (do check e 0xEA; body : W Unit).wp ⟨p.c, p.x, Writer.init 4096⟩ (fun _ s' => Hearing e msg ⟨p.c, p.x, Writer.init 4096⟩ s' ∧ Wrote 300 s') (fun _ _ => False) := by
    refine M.wp.bind (((check_checking (e := e) 0xEA ⟨p.c, p.x, Writer.init 4096⟩).and (check_clean 0xEA ⟨p.c, p.x, Writer.init 4096⟩ ⟨rfl, Nat.le_refl _⟩)).mono (fun _ _ h => h) fun _ _ h => h.2) ?_
    rintro _ s1 ⟨h1, h2, h3⟩
    have hT1 : Short s1.c := fun t ht => hT t (by rw [← h1.1.peer]; exact ht)
    exact ((hb s1 hT1).and (hw s1 hT1 h2 h3)).mono (fun _ _ h => ⟨h1.before h.1, h.2⟩) fun _ _ h => h.2
  unfold M.wp at h ⊢
  unfold handle
  cases hx : (do check e 0xEA; body : W Unit) ⟨p.c, p.x, Writer.init 4096⟩ with
  | panic => trivial
  | err st s1 => rw [hx] at h; exact h.elim
  | ok _ s1 =>
    rw [hx] at h
    obtain ⟨⟨h1, h2, h3⟩, h4, k, t, h5, h6⟩ := h
    dsimp only
    have hst : Starts k s1.w.out := ⟨_, t, h5⟩
    have hs := sendSecured_sentIn (e := e) sid hst (by rcases h6 with h | h | h <;> rw [h] <;> decide) false s1.c
    have hfin : ∀ c', SentIn sid s1.c c' → Handled e sid msg p ⟨c', s1.x⟩ := by
      rintro c' ⟨l, sent, hl, hsent, rfl⟩
      refine ⟨?_, ?_, h1.slot, h1.id, h1.config, h1.neg, h1.prov, h1.sent.trans hsent, h1.rt, ?_⟩
      · exact h2.to rfl rfl
      · exact h3
      · have := h1.sessions
        dsimp only at this ⊢
        rw [← this]; exact hl
    unfold M.wp at hs
    cases hy : sendSecured e sid s1.w.out false s1.c with
    | panic => trivial
    | ok _ c' => rw [hy] at hs; exact hfin c' hs
    | err _ c' => rw [hy] at hs; exact hfin c' hs

theorem handleGet_handled (sid : UInt32) (msg : Bytes) (p : Responder) (hT : Short p.c) :
    (handleGet e sid msg).wp p (fun _ => Handled e sid [] p) (fun _ => Handled e sid [] p) :=
  handle_handled sid [] p hT (fun s _ => (requestBody_writing msg s).mono (fun _ _ h => h.hearing []) (fun _ _ h => h.hearing []))
    fun s _ h1 h2 => requestBody_wrote msg s h1 h2

theorem handleDeliver_handled (sid : UInt32) (msg : Bytes) (p : Responder) (hT : Short p.c) :
    (handleDeliver e sid msg).wp p (fun _ => Handled e sid msg p) (fun _ => Handled e sid msg p) :=
  handle_handled sid msg p hT (fun s h => ackBody_hearing msg s h) fun s h h1 h2 => ackBody_wrote msg s h h1 h2

end Encap
end Verif
