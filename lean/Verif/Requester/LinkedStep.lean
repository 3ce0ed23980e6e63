/-
A requester and a responder over a link, operation after operation.
-/
import Verif.Requester.LinkedOps
import Verif.Requester.LinkedInside
import Verif.Requester.History
import Verif.Props.Agreement

namespace Verif
namespace Req
open Rsp

variable {e : REnv} {f : Env} {r0 : Ctx}

/-! ### sessions an operation does not touch -/

theorem find_touch {l l' : List Session} {o : Option UInt32} (h : All2 (Touch o) l l') {i : UInt32} (h0 : i ≠ 0) (hi : o ≠ some i) : l'.find? (·.id = i) = l.find? (·.id = i) := by
  induction h with
  | nil => rfl
  | cons a _ ih =>
    rename_i s s' l l' _
    have hne : s' = s ∨ (s.id ≠ i ∧ s'.id ≠ i) := by
      rcases a with rfl | ⟨h1, h2⟩
      · exact .inl rfl
      · have hs : s.id ≠ i := by
          rw [h1]
          cases o with
          | none => exact fun h => h0 h.symm
          | some j => exact fun h => hi (by rw [← h]; rfl)
        refine .inr ⟨hs, ?_⟩
        rcases h2 with h2 | h2
        · rw [h2]; exact hs
        · rw [h2]; exact fun h => h0 h.symm
    rcases hne with rfl | ⟨h1, h2⟩
    · rw [List.find?_cons, List.find?_cons, ih]
    · rw [List.find?_cons_of_neg (by simpa using h2), List.find?_cons_of_neg (by simpa using h1), ih]

/-- the sessions other than `sid`, and the certificate chains, are as before. -/
structure Others (sid : UInt32) (c c' : Ctx) : Prop where
  session : ∀ i, i ≠ 0 → i ≠ sid → c'.session? i = c.session? i

instance (sid : UInt32) : M.Pre (Others sid) where
  refl _ := ⟨fun _ _ _ => rfl⟩
  trans h h' := ⟨fun i h0 hi => (h'.session i h0 hi).trans (h.session i h0 hi)⟩

theorem Kept.others {o : Option UInt32} {c c' : Ctx} (h : Kept o c c') : Others (o.getD 0) c c' :=
  ⟨fun i h0 hi => find_touch h.sessions h0 (by
    cases o with
    | none => exact fun h => by cases h
    | some j => exact fun h => hi (by rw [Option.some.inj h]; rfl))⟩

theorem Frame.others {k : Bool} {c c' : Ctx} (h : Frame k none c c') (sid : UInt32) : Others sid c c' := by
  have hs : All2 (Touch none) c.sessions c'.sessions := All2.imp (fun s s' hl => by
    rcases hl with rfl | ⟨h1, h2⟩
    · exact .inl rfl
    · cases h1) h.sessions
  exact ⟨fun i h0 _ => find_touch hs h0 (fun h => by cases h)⟩

theorem SecOnly.others {sid : UInt32} {c c' : Ctx} (h : SecOnly sid c c') : Others sid c c' := by
  have hs : All2 (Touch (some sid)) c.sessions c'.sessions := All2.imp (fun s s' hl => by
    rcases hl with rfl | ⟨h1, h2⟩
    · exact .inl rfl
    · refine .inr ⟨h1, ?_⟩
      rcases h2 with h2 | h2
      · exact .inl (h2.trans h1.symm)
      · exact .inr h2.id) h.sessions
  exact ⟨fun i h0 hi => find_touch hs h0 (fun h => hi (Option.some.inj h).symm)⟩

theorem OpenedIn.others {est : Bool} {c c' : Ctx} (h : OpenedIn est c c') : ∃ sid, Others sid c c' := by
  obtain ⟨rspId, q, s1, l, -, h1, -, ⟨s0, h0⟩, rfl, h2⟩ := h
  refine ⟨joinId rspId q, ⟨fun i hz hi => ?_⟩⟩
  have e1 : (Ctx.updFirst (·.id = 0) (fun _ => s1) c.sessions).find? (·.id = i) = c.sessions.find? (·.id = i) := by
    have hid : s1.id ≠ i := by
      rcases h1 with h1 | h1
      · rw [h1]; exact fun h => hi h.symm
      · rw [h1.id]; exact fun h => hz h.symm
    generalize c.sessions = l
    induction l with
    | nil => rfl
    | cons a l ih =>
      unfold Ctx.updFirst
      by_cases ha : a.id = 0
      · rw [if_pos (by simpa using ha), List.find?_cons_of_neg (by simpa using hid), List.find?_cons_of_neg (by simp [ha]; exact fun h => hz h.symm)]
      · rw [if_neg (by simpa using ha), List.find?_cons, List.find?_cons, ih]
  unfold Ctx.session?
  rw [← e1]
  generalize Ctx.updFirst _ _ _ = l1 at *
  have hs : All2 (Touch (some (joinId rspId q))) l1 c'.sessions := All2.imp (fun s s' hl => by
    rcases hl with rfl | hl
    · exact .inl rfl
    · refine .inr ⟨hl.1, ?_⟩
      rcases hl.2.1 with h | h
      · exact .inl (h.trans hl.1.symm)
      · exact .inr h.id) h2
  exact find_touch hs hz (fun h => hi (Option.some.inj h).symm)

/-- after an exchange opened a session, the session it returned is the one that was opened. -/
theorem others_bind {α : Type} {x : M Status Ctx α} {g : α → M Status Ctx UInt32} {c c0 : Ctx} (h : Others 0 c0 c) (hx : M.Rel (Others 0) x)
    (hf : ∀ a c', Others 0 c0 c' → (g a).wp c' (fun sid c' => Others sid c0 c') (fun _ _ => True)) : (x >>= g).wp c (fun sid c' => Others sid c0 c') (fun _ _ => True) := by
  rw [M.wp_bind]
  exact (hx c).mono (fun a c' h' => hf a c' (M.Pre.trans h h')) fun _ _ _ => trivial

theorem Others.weaken {c c' : Ctx} (h : Others 0 c c') (sid : UInt32) : Others sid c c' := ⟨fun i h0 _ => h.session i h0 h0⟩

theorem others_open {x : M Status Session Unit} {y : M Status Ctx UInt32} {c c0 : Ctx} {j : UInt32} (h : Others 0 c0 c)
    (hx : ∀ s, x.wp s (fun _ s' => s'.id = j) (fun _ s' => s'.id = j)) (hy : M.Rel (Kept (some j)) y) (hr : ∀ c a c', y c = .ok a c' → a = j) :
    (Ctx.onSession 0 (M.fail .sessionNumberExceed) x >>= fun _ => y).wp c (fun sid c' => Others sid c0 c') (fun _ _ => True) := by
  rw [M.wp_bind]
  have key : ∀ s', s'.id = j → Others j c (c.updSession 0 fun _ => s') := fun s' hs => ⟨fun i h0 hi => by
    show (Ctx.updFirst _ _ _).find? _ = _
    unfold Ctx.session?
    generalize c.sessions = l
    induction l with
    | nil => rfl
    | cons a l ih =>
      unfold Ctx.updFirst
      by_cases ha : a.id = 0
      · rw [if_pos (by simpa using ha), List.find?_cons_of_neg (by simp [hs]; exact fun h => hi h.symm), List.find?_cons_of_neg (by simp [ha]; exact fun h => h0 h.symm)]
      · rw [if_neg (by simpa using ha), List.find?_cons, List.find?_cons, ih]⟩
  have hopen : (Ctx.onSession 0 (M.fail .sessionNumberExceed) x).wp c (fun _ c' => Others j c c') (fun _ _ => True) := by
    unfold Ctx.onSession
    simp only [M.wp_bind, M.wp_get]
    split
    · trivial
    · rename_i s hs
      have hx := hx s
      unfold M.wp at hx
      split
      · rename_i u s' hxs
        rw [hxs] at hx
        exact key s' hx
      · trivial
      · trivial
  refine hopen.mono (fun _ c1 h1 => ?_) fun _ _ _ => trivial
  have h2 := hy c1
  unfold M.wp at h2
  unfold M.wp
  split
  · rename_i a c2 hc2
    rw [hc2] at h2
    cases hr _ _ _ hc2
    exact M.Pre.trans (M.Pre.trans (h.weaken _) h1) (Kept.others h2)
  · trivial
  · trivial

theorem of_frame {α : Type} {k : Bool} {x : M Status Ctx α} (h : M.Rel (Frame k none) x) : M.Rel (Others 0) x := h.mono fun _ _ g => Frame.others g 0
theorem of_kept {α : Type} {x : M Status Ctx α} (h : M.Rel (Kept none) x) : M.Rel (Others 0) x := h.mono fun _ _ => Kept.others

theorem bind_returns {α : Type} {x : M Status Ctx α} {g : α → M Status Ctx UInt32} {j : UInt32} (h : ∀ b c a c', g b c = .ok a c' → a = j) {c c' : Ctx} {a : UInt32}
    (hx : (x >>= g) c = .ok a c') : a = j := by
  obtain ⟨b, c1, _, h2⟩ := M.bind_ok.1 hx
  exact h _ _ _ _ h2

theorem keyExchangeBody_returns {slot version : UInt8} {m : KeyExRsp} {req rsp : Bytes} {i : UInt32} {c c' : Ctx} {a : UInt32}
    (h : keyExchangeBody e slot m req rsp i version c = .ok a c') : a = i := by
  unfold keyExchangeBody at h
  repeat (refine bind_returns (j := i) ?_ h; clear h; intro _ _ _ _ h)
  cases h
  rfl

theorem pskExchangeBody_returns {version : UInt8} {m : PskExRsp} {req rsp : Bytes} {i : UInt32} {c c' : Ctx} {a : UInt32}
    (h : pskExchangeBody e m req rsp i version c = .ok a c') : a = i := by
  unfold pskExchangeBody at h
  repeat (refine bind_returns (j := i) ?_ h; clear h; intro _ _ _ _ h)
  cases h
  rfl

theorem keyExchange_others {slot : UInt8} {t : SummaryHashType} {c c' : Ctx} {sid : UInt32} (h : keyExchange e slot t c = .ok sid c') : Others sid c c' := by
  have : (keyExchange e slot t).wp c (fun sid c' => Others sid c c') (fun _ _ => True) := by
    unfold keyExchange
    rw [M.wp_ite]
    refine ⟨fun _ => trivial, fun _ => ?_⟩
    have h0 : Others 0 c c := M.Pre.refl (R := Others 0) c
    refine others_bind h0 .get fun c0 c1 h1 => others_bind h1 (.lift _) fun q c2 h2 => others_bind h2 (of_frame (k := true) (Ctx.rel_resetBuffers _)) fun _ c1 h1 =>
      others_bind h1 (.ofOption _ _) fun random c2 h2 => others_bind h2 (.ofOption _ _) fun p c3 h3 => ?_
    obtain ⟨exchange, final⟩ := p
    refine others_bind h3 (.ofOption _ _) fun opaq c4 h4 => others_bind h4 (of_frame (rel_encodeReq _ _)) fun req c5 h5 => others_bind h5 (of_frame (rel_transact _)) fun rsp c6 h6 => ?_
    unfold handleKeyExchange
    refine others_bind h6 (.modify fun _ => ⟨fun _ _ _ => rfl⟩) fun _ c7 h7 => others_bind h7 (of_kept (rel_expect _ _)) fun r c8 h8 => others_bind h8 (of_frame (rel_readMsg _ _ _)) fun p c9 h9 => ?_
    obtain ⟨m, b⟩ := p
    refine others_bind h9 .get fun c9' c10 h10 => others_bind h10 (.ofOption _ _) fun fin c11 h11 => others_bind h11 (.lift _) fun v c12 h12 => others_bind h12 (.unwrap _) fun i c13 h13 =>
      others_bind h13 (.ofOption _ _) fun ch c14 h14 => ?_
    exact others_open h14 (openDhe_id _ _ _ _ _) (kept_keyExchangeBody _ _ _ _ _ _) fun _ _ _ h => keyExchangeBody_returns h
  exact this.ok h

theorem pskExchange_others {hint : Bytes} {t : SummaryHashType} {c c' : Ctx} {sid : UInt32} (h : pskExchange e t hint c = .ok sid c') : Others sid c c' := by
  have : (pskExchange e t hint).wp c (fun sid c' => Others sid c c') (fun _ _ => True) := by
    unfold pskExchange
    have h0 : Others 0 c c := M.Pre.refl (R := Others 0) c
    refine others_bind h0 (of_frame (k := true) (Ctx.rel_resetBuffers _)) fun _ c1 h1 => others_bind h1 .get fun c0 c1 h1 => others_bind h1 (.lift _) fun q c2 h2 => 
      others_bind h2 (.ofOption _ _) fun random c2 h2 => others_bind h2 (.ofOption _ _) fun opaq c3 h3 => others_bind h3 (.unwrap _) fun hs c4 h4 =>
      others_bind h4 (of_frame (rel_encodeReq _ _)) fun req c5 h5 => others_bind h5 (of_frame (rel_transact _)) fun rsp c6 h6 => ?_
    unfold handlePskExchange
    refine others_bind h6 (.modify fun _ => ⟨fun _ _ _ => rfl⟩) fun _ c7 h7 => others_bind h7 (of_kept (rel_expect _ _)) fun r c8 h8 => others_bind h8 (of_frame (rel_readMsg _ _ _)) fun p c9 h9 => ?_
    obtain ⟨m, b⟩ := p
    refine others_bind h9 .get fun c9' c10 h10 => others_bind h10 (.lift _) fun v c12 h12 => ?_
    exact others_open h12 (openPsk_id _ _ _) (kept_pskExchangeBody _ _ _ _ _) fun _ _ _ h => pskExchangeBody_returns h
  exact this.ok h

/-! ### one plain exchange -/

theorem linked_step (hl : Linked e f r0) (hf : HashLaw f) {c c1 rc : Ctx} {v k : UInt8} {t bytes : Bytes} (hs : Said e none c (v :: k :: t) bytes c1)
    (hrun : Toy.runAll f r0 c.sent = some rc) : ∃ rc', Toy.runAll f r0 c1.sent = some rc' ∧ PlainStep k rc rc' := by
  obtain ⟨pkt, p, h1, h2, h3, rfl⟩ := hs
  obtain ⟨rc0, rc', g1, g2, g3⟩ := hl.answers _ _ _ h1
  rw [hrun] at g1
  cases g1
  obtain ⟨pad, g4⟩ := hl.out _ _ h2
  refine ⟨rc', runAll_snoc hrun g2, ?_⟩
  have hst := (process_step hf pkt rc).ok g2
  cases hst with
  | ignored h =>
    rw [h] at g3
    have := congrArg List.length g3
    simp at this
  | plain v' k' t' hp hs =>
    unfold Plain at hp g4
    rw [hp] at g4
    simp at g4
    obtain ⟨_, rfl, _⟩ := g4
    exact hs
  | secured sid hsec _ _ =>
    obtain ⟨a, b, c, d, t, hr, _⟩ := hsec
    unfold Plain at g4
    rw [hr] at g4
    simp at g4

/-! ### every id at most once -/

/-- slots in use carry the half of their position. -/
def Owned (b : Bool) : Nat → List Session → Prop
  | _, [] => True
  | i, s :: l => (s.id = 0 ∨ Ctx.half b s.id = 0xFFFD - UInt16.ofNat i) ∧ Owned b (i + 1) l

theorem owned_req {l : List Session} {i : Nat} (h : ReqTable i l) : Owned true i l := by
  induction l generalizing i with
  | nil => trivial
  | cons a l ih => exact ⟨h.1, ih h.2⟩

theorem owned_rsp {l : List Session} {i : Nat} (h : TableOk i l) : Owned false i l := by
  induction l generalizing i with
  | nil => trivial
  | cons a l ih =>
    refine ⟨?_, ih h.2⟩
    rcases h.1 with g | g
    · exact .inl g.id
    · exact .inr g

/-- an id owned by an earlier position is not found. -/
theorem Owned.absent {b : Bool} {l : List Session} {i j : Nat} (h : Owned b i l) (hl : i + l.length < 0xFFFD) {sid : UInt32} (h0 : sid ≠ 0)
    (hj : j < i) (hs : Ctx.half b sid = 0xFFFD - UInt16.ofNat j) : l.find? (·.id = sid) = none := by
  induction l generalizing i with
  | nil => rfl
  | cons a l ih =>
    have hi : i + (l.length + 1) < 0xFFFD := hl
    have hne : a.id ≠ sid := by
      rintro rfl
      rcases h.1 with g | g
      · exact h0 g
      · rw [hs] at g
        have := ownHalf_inj (by omega) (by omega) g
        omega
    rw [List.find?_cons_of_neg (by simpa using hne)]
    exact ih h.2 (by omega) (by omega)

theorem Owned.gone {b : Bool} {l : List Session} {i : Nat} (h : Owned b i l) (hl : i + l.length < 0xFFFD) {sid : UInt32} (h0 : sid ≠ 0) {t : Session} (ht : t.id = 0) :
    (Ctx.updFirst (·.id = sid) (fun _ => t) l).find? (·.id = sid) = none := by
  induction l generalizing i with
  | nil => rfl
  | cons a l ih =>
    have hi : i + (l.length + 1) < 0xFFFD := hl
    unfold Ctx.updFirst
    by_cases ha : a.id = sid
    · rw [if_pos (by simpa using ha), List.find?_cons_of_neg (by simp [ht]; exact fun h => h0 h.symm)]
      rcases h.1 with g | g
      · exact absurd (ha.symm.trans g) h0
      · rw [ha] at g
        exact h.2.absent (by omega) h0 (by omega) g
    · rw [if_neg (by simpa using ha), List.find?_cons_of_neg (by simpa using ha)]
      exact ih h.2 (by omega)

theorem ReqTable.unheard {l : List Session} {i : Nat} (h : ReqTable i l) (hl : i + l.length < 0xFFFD) {r q : UInt16} (hn : Ctx.nextHalf true i l = some q) :
    l.find? (·.id = joinId r q) = none := by
  have hq := reqHalf_ne_zero hl hn
  induction l generalizing i with
  | nil => rfl
  | cons a l ih =>
    have hi : i + (l.length + 1) < 0xFFFD := hl
    unfold Ctx.nextHalf at hn
    by_cases hz : Ctx.half true a.id = 0
    · have ha : a.id = 0 := (h.free (by omega)).1 hz
      rw [if_pos hz] at hn
      rw [List.find?_cons_of_neg (by simp [ha]; exact fun h => joinId_req_ne hq h.symm)]
      exact (owned_req h.2).absent (by omega) (joinId_req_ne hq) (j := i) (by omega) (by rw [half_join_req]; exact (Option.some.inj hn).symm)
    · rw [if_neg hz] at hn
      have hne : a.id ≠ joinId r q := by
        intro hc
        obtain ⟨j', hj', hr'⟩ := nextHalf_req hn
        rcases h.1 with g | g
        · rw [g] at hz; exact hz half_true_zero
        · rw [hc, half_join_req, hr'] at g
          have := ownHalf_inj (by omega) (by omega) g
          omega
      rw [List.find?_cons_of_neg (by simpa using hne)]
      exact ih h.2 (by omega) hn

/-! ### in step -/

/-- both ends hold the session, in the same state and with the same secrets; or neither does. -/
inductive Agreed (n : Neg) : Option Session → Option Session → Prop
  | none : Agreed n none none
  | some {s s' : Session} : SameSession s s' → s.mutAuth = 0 → s.hash = n.baseHash → Agreed n (some s) (some s')

theorem Agreed.out {n : Neg} {o : Option Session} {s : Session} (h : Agreed n (.some s) o) : ∃ s', o = .some s' ∧ SameSession s s' ∧ s.mutAuth = 0 ∧ s.hash = n.baseHash := by
  cases h with
  | some h1 h2 h3 => exact ⟨_, rfl, h1, h2, h3⟩

/-- the responder, given all packets the requester sent, is where the requester believes it to be. -/
structure InStep (f : Env) (r0 rc c : Ctx) : Prop where
  run : Toy.runAll f r0 c.sent = some rc
  settled : Settled rc c
  clear : Cc.inClear ⟨c.neg, false, false⟩ = false
  table : ReqTable 0 c.sessions
  length : c.sessions.length < 0xFFFD
  sessions : ∀ i, i ≠ 0 → Agreed c.neg (c.session? i) (rc.session? i)
  chain : ∀ i ch, c.peer.chain i = some ch → rc.prov.chain i = some ch

/-- the responder keeps its session table in order and its chains short, whatever it is sent. -/
def Sound (f : Env) (r0 : Ctx) : Prop :=
  ∀ l rc, Toy.runAll f r0 l = some rc → TableOk 0 rc.sessions ∧ rc.sessions.length < 0xFFFD ∧ ∀ i ch, rc.prov.chain i = some ch → ch.length < 65536

/-- the environments of two ends that can work together. -/
structure Fit (e : REnv) (f : Env) (r0 : Ctx) : Prop where
  linked : Linked e f r0
  peers : Peers e.toEnv f
  aead : f.crypto.AeadLaws
  carries : CarriesSealed f.tr
  hash : HashLaw f
  record : RecordLaw f
  errors : Frames4 f
  sound : Sound f r0

/-- an operation on session `sid` that leaves it in the same state at both ends. -/
theorem InStep.session {c c' rc rc' : Ctx} {sid : UInt32} {t t' : Session} (h : InStep f r0 rc c) (hk : Kept (some sid) c c') (hsec : SecOnly sid rc rc')
    (hrun : Toy.runAll f r0 c'.sent = some rc') (ht : c'.session? sid = some t) (ht' : rc'.session? sid = some t') (hs : SameSession t t') (hm : t.mutAuth = 0)
    (hh : t.hash = c.neg.baseHash) : InStep f r0 rc' c' := by
  refine ⟨hrun, h.settled.keep hsec hk, by rw [hk.neg]; exact h.clear, (table_kept hk).2 h.length h.table, by rw [(table_kept hk).1]; exact h.length, fun i h0 => ?_, fun i ch hi => ?_⟩
  · rw [hk.neg]
    by_cases hi : i = sid
    · subst hi
      rw [ht, ht']
      exact .some hs hm hh
    · rw [hk.others.session i h0 hi, (SecOnly.others hsec).session i h0 hi]
      exact h.sessions i h0
  · rw [hsec.prov]
    rw [hk.chain] at hi
    exact h.chain i ch hi

/-- a plain exchange that does not touch sessions. -/
theorem InStep.plain {c c' rc rc' : Ctx} {k : UInt8} {o : Option UInt32} (h : InStep f r0 rc c) (hk : Kept o c c') (ho : o.getD 0 = 0) (hp : PlainStep k rc rc') (hrun : Toy.runAll f r0 c'.sent = some rc')
    (h1 : k ≠ 0x84) (h2 : k ≠ 0xE1) (h3 : k ≠ 0xE3) (h4 : k ≠ 0xE4) (h5 : k ≠ 0xE6) (h6 : k ≠ 0xE5) : InStep f r0 rc' c' := by
  have hses : rc'.sessions = rc.sessions := by
    cases hp.table with
    | same h => exact h
    | cleared g _ => exact absurd g h1
    | keyExchange g _ => exact absurd g h4
    | pskExchange g _ => exact absurd g h5
    | finish _ _ g _ _ _ _ _ => exact absurd g h6
  have hkn := hp.keep h1 h2 h3
  obtain ⟨q, hq⟩ := hkn.neg
  refine ⟨hrun, ⟨?_, ?_⟩, by rw [hk.neg]; exact h.clear, (table_kept hk).2 h.length h.table, by rw [(table_kept hk).1]; exact h.length, fun i h0 => ?_, fun i ch hi => ?_⟩
  · rw [hq, hk.neg]; exact h.settled.neg
  · rw [hkn.messageA, hk.messageA]; exact h.settled.transcript
  · have : rc'.session? i = rc.session? i := by unfold Ctx.session?; rw [hses]
    rw [hk.neg, hk.others.session i h0 (by rw [ho]; exact h0), this]
    exact h.sessions i h0
  · rw [hkn.prov]
    rw [hk.chain] at hi
    exact h.chain i ch hi

/-- an exchange that opens a session. -/
theorem InStep.opens {c c' rc rc' : Ctx} {sid : UInt32} {k : UInt8} {t t' : Session} (h : InStep f r0 rc c) (htab : TableKept c c') (hoth : Others sid c c') (h0 : sid ≠ 0)
    (hnone : c.session? sid = none) (hp : PlainStep k rc rc') (hk : k = 0xE4 ∨ k = 0xE6) (hrun : Toy.runAll f r0 c'.sent = some rc') (hset : Settled rc' c') (hneg : c'.neg = c.neg) (hpeer : c'.peer = c.peer)
    (hprov : rc'.prov = rc.prov) (ht : c'.session? sid = some t) (ht' : rc'.session? sid = some t') (hs : SameSession t t') (hm : t.mutAuth = 0)
    (hh : t.hash = c.neg.baseHash) : InStep f r0 rc' c' := by
  have hrn : rc.session? sid = none := by
    have := h.sessions sid h0
    rw [hnone] at this
    generalize rc.session? sid = o at this
    cases this
    rfl
  have hro : Others sid rc rc' := by
    have hex : ∃ j, Others j rc rc' := by
      cases hp.table with
      | same h => exact ⟨0, ⟨fun i _ _ => by unfold Ctx.session?; rw [h]⟩⟩
      | cleared g _ => rcases hk with rfl | rfl <;> cases g
      | keyExchange _ h => exact OpenedIn.others h
      | pskExchange _ h => exact OpenedIn.others h
      | finish _ _ g _ _ _ _ _ => rcases hk with rfl | rfl <;> cases g
    obtain ⟨j, hj⟩ := hex
    by_cases hjs : j = sid
    · exact hjs ▸ hj
    · rw [hj.session sid h0 (fun h => hjs h.symm), hrn] at ht'
      cases ht'
  refine ⟨hrun, hset, by rw [hneg]; exact h.clear, htab.2 h.length h.table, by rw [htab.1]; exact h.length, fun i hi => ?_, fun i ch hi => ?_⟩
  · rw [hneg]
    by_cases his : i = sid
    · subst his
      rw [ht, ht']
      exact .some hs hm hh
    · rw [hoth.session i hi his, hro.session i hi his]
      exact h.sessions i hi
  · rw [hpeer] at hi
    rw [hprov]
    exact h.chain i ch hi

variable {c c' rc : Ctx}

theorem step_digests (hf : Fit e f r0) (h : InStep f r0 rc c) (hx : getDigests e none c = .ok () c') : ∃ rc', InStep f r0 rc' c' := by
  obtain ⟨bytes, t, m, r', c1, h1, -, -, -, h5⟩ := getDigests_ok hx
  obtain ⟨rc', g1, g2⟩ := linked_step hf.linked hf.hash h1 (by rw [resetBuffers_sent]; exact h.run)
  refine ⟨rc', h.plain ((kept_getDigests (e := e) (sid := none) c).ok hx) rfl g2 ?_ (by decide) (by decide) (by decide) (by decide) (by decide) (by decide)⟩
  rw [h5, if_pos rfl]
  exact g1

theorem step_challenge (hf : Fit e f r0) (h : InStep f r0 rc c) {slot : UInt8} {t : SummaryHashType} (hx : challenge e slot t c = .ok () c') : ∃ rc', InStep f r0 rc' c' := by
  obtain ⟨-, nonce, pkt, bytes, rest, pre, sig, x, d, certs, req, -, rfl, h1, -, -, -, -, -, -, -, -, h5⟩ := challenge_ok hx
  obtain ⟨rc', g1, g2⟩ := linked_step hf.linked hf.hash h1 h.run
  refine ⟨rc', h.plain ((kept_challenge (e := e) slot t c).ok hx) rfl g2 ?_ (by decide) (by decide) (by decide) (by decide) (by decide) (by decide)⟩
  rw [h5]
  exact g1

theorem step_measurements (hf : Fit e f r0) (h : InStep f r0 rc c) {slot attr : UInt8} {op : MeasOperation} {out : UInt8 × MeasRecord} (hx : getMeasurements e none slot attr op c = .ok out c') :
    ∃ rc', InStep f r0 rc' c' := by
  obtain ⟨-, nonce, bytes, rest, c1, n, p, m, -, h1, -, -, -, h5⟩ := getMeasurements_ok hx
  have hsent : c'.sent = c1.sent := by
    dsimp only at h5
    split at h5
    · obtain ⟨_, _, -, -, -, -, -, rfl⟩ := h5; rw [resetM_sent, addM_sent, addM_sent, measHeard_sent]
    · obtain ⟨-, rfl⟩ := h5; rw [addM_sent, addM_sent, measHeard_sent]
  obtain ⟨rc', g1, g2⟩ := linked_step hf.linked hf.hash (k := 0xE0) h1 (by rw [resetBuffers_sent]; exact h.run)
  refine ⟨rc', h.plain ((kept_getMeasurements (e := e) (sid := none) slot attr op c).ok hx) rfl g2 ?_ (by decide) (by decide) (by decide) (by decide) (by decide) (by decide)⟩
  rw [hsent]
  exact g1

theorem step_certificate (hf : Fit e f r0) (h : InStep f r0 rc c) {fuel : Nat} {slot : UInt8} (hx : getCertificate e fuel none slot c = .ok () c') : ∃ rc', InStep f r0 rc' c' := by
  obtain ⟨rc', chain, -, h2, h3, h4, h5, h6, h7⟩ := linked_certificate hf.linked h.run (hf.sound _ _ h.run).2.2 hx
  refine ⟨rc', h3, ⟨by rw [h4.neg, h7.neg]; exact h.settled.neg, by rw [h4.transcript, h7.transcript]; exact h.settled.transcript⟩, by rw [h7.neg]; exact h.clear,
    by rw [h7.sessions]; exact h.table, by rw [h7.sessions]; exact h.length, fun i h0 => ?_, fun i ch hi => ?_⟩
  · unfold Ctx.session?
    rw [h7.neg, h7.sessions, h4.sessions]
    exact h.sessions i h0
  · rw [h4.prov]
    by_cases hz : i = 0
    · subst hz
      rw [h5] at hi
      rw [← hi]; exact h2
    · rw [h6 i hz] at hi
      exact h.chain i ch hi

theorem step_keyExchange (hf : Fit e f r0) (h : InStep f r0 rc c) {slot : UInt8} {t : SummaryHashType} {sid : UInt32} (hw : t.WF) (hx : keyExchange e slot t c = .ok sid c') :
    ∃ rc' s, InStep f r0 rc' c' ∧ sid ≠ 0 ∧ c'.session? sid = some s ∧ s.state = .handshaking ∧ s.usePsk = false := by
  obtain ⟨hT, hL, -⟩ := hf.sound _ _ h.run
  obtain ⟨-, i, reqId, random, exchange, opaq, fin, pkt, bytes, rest, p, m, version, certHash, final, root, master, d, certs, th1, s0, s1, a1, a2, -, -, -, a6, -, -, a9, -, -, a12, -, -, -, -, l, a17⟩ :=
    keyExchange_ok h.table h.length hx
  have hch : ∀ i : Fin 8, i.val = slot.toNat → c.peer.chain i = rc.prov.chain i := by
    intro i' hi'
    obtain rfl : i' = i := Fin.ext (hi'.trans a1.symm)
    unfold Ctx.peerChainHash at a12
    cases hc : c.peer.chain i' with
    | none => rw [hc] at a12; cases a12
    | some ch => exact (h.chain _ _ hc).symm
  obtain ⟨rc', s, s', b1, b2, b3, b4, b5, b6, b7, b8, b9, b10, b11, b12, b13, b14, b15⟩ := linked_keyExchange hf.linked hf.peers h.table h.length hT hL h.run h.settled hw h.clear hch hx
  obtain ⟨rc2, g1, g2⟩ := linked_step hf.linked hf.hash (k := 0xE4) a6 (by rw [resetBuffers_sent]; exact h.run)
  have hsent : (withSent pkt (Ctx.resetBuffers .reqKeyExchange none c)).sent = c'.sent := by
    rw [a17]
    show (Ctx.resetBuffers .reqKeyExchange none c).sent ++ [pkt] = _
    rw [resetBuffers_sent]
  rw [hsent, b1] at g1
  cases g1
  have h0 : sid ≠ 0 := by rw [a9]; exact joinId_req_ne (reqHalf_ne_zero (by have := h.length; omega) a2)
  refine ⟨rc', s, h.opens ((rt_keyExchange (e := e) slot t c).ok hx) (keyExchange_others hx) h0 ?_ g2 (.inl rfl) b1 b2 b15 b14 b13 b3 b4 b5 b8 b10, h0, b3, b6, b7⟩
  · rw [a9]; exact h.table.unheard (by have := h.length; omega) a2

theorem step_pskExchange (hf : Fit e f r0) (h : InStep f r0 rc c) {hint : Bytes} {t : SummaryHashType} {sid : UInt32} (hw : t.WF) (hh : hint.length ≤ 32) (hx : pskExchange e t hint c = .ok sid c') :
    ∃ rc' s, InStep f r0 rc' c' ∧ sid ≠ 0 ∧ c'.session? sid = some s ∧ s.state = (if c.cc.pskNoContext then .established else .handshaking) ∧ s.usePsk = true ∧
      s.pskHint = some hint := by
  obtain ⟨hT, hL, -⟩ := hf.sound _ _ h.run
  obtain ⟨reqId, context, opaq, hsz, pkt, bytes, rest, p, q, m, version, th1, s0, s1, sf, a1, a2, a3, a4, a5, a6, -, a8, -, -, -, l, a17⟩ := pskExchange_ok h.table h.length hx
  obtain ⟨rc', s, s', b1, b2, b3, b4, b5, b6, b7, b8, b9, b10, b11, b12, b13, b14, b15⟩ := linked_pskExchange hf.linked hf.peers h.table h.length hT hL h.run h.settled hw hh hx
  obtain ⟨rc2, g1, g2⟩ := linked_step hf.linked hf.hash (k := 0xE6) a5 (by rw [resetBuffers_sent]; exact h.run)
  have hsent : (withSent pkt (Ctx.resetBuffers .reqPskExchange none c)).sent = c'.sent := by
    rw [a17]
    show (Ctx.resetBuffers .reqPskExchange none c).sent ++ [pkt] = _
    rw [resetBuffers_sent]
  rw [hsent, b1] at g1
  cases g1
  have h0 : sid ≠ 0 := by rw [a8]; exact joinId_req_ne (reqHalf_ne_zero (by have := h.length; omega) a1)
  refine ⟨rc', s, h.opens ((rt_pskExchange (e := e) t hint c).ok hx) (pskExchange_others hx) h0 ?_ g2 (.inr rfl) b1 b2 b15 b14 b13 b3 b4 b5 b8 b10, h0, b3, b6, b7, b9⟩
  · rw [a8]; exact h.table.unheard (by have := h.length; omega) a1

/-- an operation on a session needs that session, in use. -/
theorem InStep.lookup {sid : UInt32} {s : Session} (h : InStep f r0 rc c) (h0 : sid ≠ 0) (hs : c.session? sid = some s) :
    ∃ s', rc.session? sid = some s' ∧ SameSession s s' ∧ s.mutAuth = 0 ∧ s.hash = c.neg.baseHash := by
  have := h.sessions sid h0
  rw [hs] at this
  exact this.out

theorem step_finish (hf : Fit e f r0) (h : InStep f r0 rc c) {slot : Option UInt8} {sid : UInt32} (h0 : sid ≠ 0) (hx : finish e slot sid c = .ok () c') :
    ∃ rc' s, InStep f r0 rc' c' ∧ c'.session? sid = some s ∧ s.state = .established ∧ s.usePsk = false := by
  cases hs : c.session? sid with
  | none =>
    unfold finish at hx
    obtain ⟨c0, c1, h1, z1⟩ := M.bind_ok.1 hx
    cases h1
    obtain ⟨_, c2, h2, z2⟩ := M.bind_ok.1 z1
    obtain ⟨-, rfl⟩ := ofOption_ok.1 h2
    obtain ⟨_, c3, h3, -⟩ := M.bind_ok.1 z2
    rw [hs] at h3
    cases h3
  | some s =>
    obtain ⟨s', g1, g2, g3, g4⟩ := h.lookup h0 hs
    obtain ⟨rc', t, t', b1, b2, b3, b4, b5, b6, b7, b8, b9, b10⟩ := linked_finish hf.linked hf.peers hf.aead hf.carries h.run h.settled hs g1 g2 g3 g4 h.clear hx
    exact ⟨rc', t, h.session ((kept_finish (e := e) slot sid c).ok hx) b10 b1 b2 b3 b4 b8 (b9.trans g4), b2, b6, b7⟩

theorem step_pskFinish (hf : Fit e f r0) (h : InStep f r0 rc c) {sid : UInt32} (h0 : sid ≠ 0) (hx : pskFinish e sid c = .ok () c') :
    ∃ rc' s, InStep f r0 rc' c' ∧ c'.session? sid = some s ∧ s.state = .established ∧ s.usePsk = true := by
  cases hs : c.session? sid with
  | none =>
    unfold pskFinish at hx
    obtain ⟨c0, c1, h1, z1⟩ := M.bind_ok.1 hx
    cases h1
    obtain ⟨_, c3, h3, -⟩ := M.bind_ok.1 z1
    rw [hs] at h3
    cases h3
  | some s =>
    obtain ⟨s', g1, g2, g3, g4⟩ := h.lookup h0 hs
    obtain ⟨rc', t, t', b1, b2, b3, b4, b5, b6, b7, b8, b9, b10⟩ := linked_pskFinish hf.linked hf.peers hf.aead hf.carries h.run h.settled hs g1 g2 g3 g4 hx
    exact ⟨rc', t, h.session ((kept_pskFinish (e := e) sid c).ok hx) b10 b1 b2 b3 b4 b8 (b9.trans g4), b2, b6, b7⟩

theorem step_heartbeat (hf : Fit e f r0) (h : InStep f r0 rc c) {sid : UInt32} (h0 : sid ≠ 0) (hx : heartbeat e sid c = .ok () c') : ∃ rc', InStep f r0 rc' c' := by
  cases hs : c.session? sid with
  | none =>
    obtain ⟨_, _, ⟨_, _, _, s, h2, -⟩, -⟩ := heartbeat_ok hx
    rw [resetBuffers_session _ _ _ (by decide), hs] at h2
    cases h2
  | some s =>
    obtain ⟨s', g1, g2, g3, g4⟩ := h.lookup h0 hs
    obtain ⟨rc', t, t', b1, b2, b3, b4, b5, b6, b7⟩ := linked_heartbeat hf.linked hf.peers hf.aead hf.carries h.run hs g1 g2 hx
    refine ⟨rc', h.session ((kept_heartbeat (e := e) sid c).ok hx) b7 b1 b2 b3 b4 ?_ ?_⟩ <;>
    · obtain ⟨A, q1⟩ := bump_frame (s := hushed s) b5 true
      obtain ⟨A2, q2⟩ := bump_frame (s := (hushed s).bump true) (by rw [q1]; exact b5) false
      rw [b6, q2, q1]
      first | exact g3 | exact g4

theorem step_keyUpdate (hf : Fit e f r0) (h : InStep f r0 rc c) {sid : UInt32} {op : KeyUpdateOp} (h0 : sid ≠ 0) (hx : keyUpdate e sid op c = .ok () c') : ∃ rc', InStep f r0 rc' c' := by
  cases hs : c.session? sid with
  | none =>
    unfold keyUpdate at hx
    split at hx
    · cases hx
    obtain ⟨_, _, h1, -⟩ := M.bind_ok.1 hx
    unfold keyUpdateOp at h1
    obtain ⟨_, c1, h1, z1⟩ := M.bind_ok.1 h1
    rw [M.modify_apply] at h1
    injection h1 with _ h1
    obtain ⟨req, c2, h2, z2⟩ := M.bind_ok.1 z1
    obtain ⟨rfl, rfl⟩ := encodeReq_ok (p := .keyUpdate ⟨op, 1⟩) (KeyUpd.encode_writes _) h2
    obtain ⟨_, c3, h3, -⟩ := M.bind_ok.1 z2
    obtain ⟨_, s, k1, -⟩ := sendSecured_ok h3
    rw [← h1, resetBuffers_session _ _ _ (by decide), hs] at k1
    cases k1
  | some s =>
    obtain ⟨s', g1, g2, g3, g4⟩ := h.lookup h0 hs
    obtain ⟨rc', t, t', b1, b2, b3, b4, b5, b6, b7⟩ := linked_keyUpdate hf.linked hf.peers hf.aead hf.carries h.run h.settled hs g1 g2 hx
    exact ⟨rc', h.session ((kept_keyUpdate (e := e) sid op c).ok hx) b7 b1 b2 b3 b4 (by rw [b6]; exact g3) (by rw [b6]; exact g4)⟩

theorem step_endSession (hf : Fit e f r0) (h : InStep f r0 rc c) {sid : UInt32} (h0 : sid ≠ 0) (hx : endSession e sid c = .ok () c') :
    ∃ rc', InStep f r0 rc' c' ∧ c'.session? sid = none ∧ rc'.session? sid = none := by
  cases hs : c.session? sid with
  | none =>
    obtain ⟨_, _, _, _, ⟨_, _, _, s, h2, -⟩, -⟩ := endSession_ok hx
    rw [resetBuffers_session _ _ _ (by decide), hs] at h2
    cases h2
  | some s =>
    obtain ⟨s', g1, g2, g3, g4⟩ := h.lookup h0 hs
    obtain ⟨hT, hL, -⟩ := hf.sound _ _ h.run
    obtain ⟨rc', t, t', b1, b2, b3, b4, b5⟩ := linked_endSession hf.linked hf.peers hf.aead hf.carries h.run hs g1 g2 hx
    have hk := (kept_endSession (e := e) sid c).ok hx
    have n1 : c'.session? sid = none := by
      unfold Ctx.session?; rw [b4]
      exact (owned_req h.table).gone (by have := h.length; omega) h0 rfl
    have n2 : rc'.session? sid = none := by
      unfold Ctx.session?; rw [b5]
      exact (owned_rsp hT).gone (by omega) h0 rfl
    refine ⟨rc', ⟨b1, h.settled.keep b3 hk, by rw [hk.neg]; exact h.clear, (table_kept hk).2 h.length h.table, by rw [(table_kept hk).1]; exact h.length, fun i hi => ?_, fun i ch hi => ?_⟩, n1, n2⟩
    · rw [hk.neg]
      by_cases his : i = sid
      · subst his; rw [n1, n2]; exact .none
      · rw [hk.others.session i hi his, (SecOnly.others b3).session i hi his]
        exact h.sessions i hi
    · rw [b3.prov]
      rw [hk.chain] at hi
      exact h.chain i ch hi

/-! ### the same, inside a session -/

theorem bump_same (s : Session) (b : Bool) : (s.bump b).mutAuth = s.mutAuth ∧ (s.bump b).hash = s.hash := by
  cases s with
  | mk i p m st => cases st <;> cases b <;> exact ⟨rfl, rfl⟩

theorem step_digests_in (hf : Fit e f r0) (h : InStep f r0 rc c) {sid : UInt32} (h0 : sid ≠ 0) (hx : getDigests e (some sid) c = .ok () c') : ∃ rc', InStep f r0 rc' c' := by
  cases hs : c.session? sid with
  | none =>
    obtain ⟨_, _, _, _, _, ⟨_, _, _, s, h2, -⟩, -⟩ := getDigests_ok hx
    rw [resetBuffers_session _ _ _ (by decide), hs] at h2
    cases h2
  | some s =>
    obtain ⟨s', g1, g2, g3, g4⟩ := h.lookup h0 hs
    obtain ⟨rc', t, t', b1, b2, b3, b4, b5, b6, b7⟩ := linked_digests hf.linked hf.peers hf.aead hf.carries hf.hash h.run hs g1 g2 hx
    refine ⟨rc', h.session ((kept_getDigests (e := e) (sid := some sid) c).ok hx) b7 b1 b2 b3 b4 ?_ ?_⟩
    · rw [b6, (bump_same _ _).1, (bump_same _ _).1]; exact g3
    · rw [b6, (bump_same _ _).2, (bump_same _ _).2]; exact g4

theorem step_measurements_in (hf : Fit e f r0) (h : InStep f r0 rc c) {sid : UInt32} (h0 : sid ≠ 0) {slot attr : UInt8} {op : MeasOperation} {out : UInt8 × MeasRecord}
    (hx : getMeasurements e (some sid) slot attr op c = .ok out c') :
    ∃ rc' s s' t t', InStep f r0 rc' c' ∧ c.session? sid = some s ∧ rc.session? sid = some s' ∧ c'.session? sid = some t ∧ rc'.session? sid = some t' ∧ t.l1l2 = t'.l1l2 := by
  cases hs : c.session? sid with
  | none =>
    obtain ⟨-, _, _, _, _, _, _, _, -, ⟨_, _, _, s, h2, -⟩, -⟩ := getMeasurements_ok hx
    rw [resetMeas_fields] at h2
    have h2 : c.session? sid = some s := h2
    rw [hs] at h2
    cases h2
  | some s =>
    obtain ⟨s', g1, g2, g3, g4⟩ := h.lookup h0 hs
    obtain ⟨rc', t, t', x, b1, b2, b3, b4, b5, b6, b7⟩ := linked_measurements hf.linked hf.peers hf.aead hf.carries hf.record hf.errors h.run h.settled hs g1 g2 hx
    refine ⟨rc', s, s', t, t', h.session ((kept_getMeasurements (e := e) (sid := some sid) slot attr op c).ok hx) b7 b1 b2 b3 b4 ?_ ?_, rfl, g1, b2, b3, ?_⟩
    · rw [b6]; show ((s.bump true).bump false).mutAuth = 0; rw [(bump_same _ _).1, (bump_same _ _).1]; exact g3
    · rw [b6]; show ((s.bump true).bump false).hash = _; rw [(bump_same _ _).2, (bump_same _ _).2]; exact g4
    · obtain ⟨_, _, rfl⟩ := b4.out; rfl

theorem step_certificate_in (hf : Fit e f r0) (h : InStep f r0 rc c) {sid : UInt32} (h0 : sid ≠ 0) {fuel : Nat} {slot : UInt8} (hx : getCertificate e fuel (some sid) slot c = .ok () c') :
    ∃ rc' ch, InStep f r0 rc' c' ∧ slot = 0 ∧ c'.peer.chain 0 = some ch ∧ rc.prov.chain 0 = some ch := by
  obtain ⟨i, c1, h1, h2⟩ := M.bind_ok.1 hx
  obtain ⟨hi, rfl⟩ := ofOption_ok.1 h1
  obtain ⟨_, c2, h3, h4⟩ := M.bind_ok.1 h2
  rw [M.modify_apply] at h3
  injection h3 with _ h3
  obtain ⟨_, c3, h5, h6⟩ := M.bind_ok.1 h4
  rw [M.modify_apply] at h5
  injection h5 with _ h5
  obtain ⟨total, c4, h7, h8⟩ := M.bind_ok.1 h6
  have hk3 : Kept (some sid) c1 c3 := by
    rw [← h5, ← h3]
    exact M.Pre.trans (R := Kept (some sid)) (kept_frame (Ctx.frame_resetBuffers _ _)) (kept_temp _ _)
  have hsent : c3.sent = c1.sent := by
    rw [← h5, ← h3]
    exact resetBuffers_sent _ _ _
  have hpeer : c3.peer = { c1.peer with temp := some [] } := by
    rw [← h5, ← h3]
    rfl
  cases hs : c1.session? sid with
  | none =>
    have hs3 : c3.session? sid = none := by
      have : c3.session? sid = (Ctx.resetBuffers .reqGetCertificate (some sid) c1).session? sid := by rw [← h5, ← h3]; rfl
      rw [this, resetBuffers_session _ _ _ (by decide), hs]
      rfl
    cases fuel with
    | zero => cases h7
    | succ fuel =>
      unfold certificateLoop at h7
      rw [if_neg (by decide)] at h7
      obtain ⟨_, _, h9, -⟩ := M.bind_ok.1 h7
      obtain ⟨_, _, _, _, _, ⟨_, _, _, s, k, -⟩, -⟩ := getCertificatePartial_ok h9
      rw [hs3] at k
      cases k
  | some s =>
    obtain ⟨s', g1, g2, g3, g4⟩ := h.lookup h0 hs
    have hs3 : c3.session? sid = some (hushed s) := by
      have : c3.session? sid = (Ctx.resetBuffers .reqGetCertificate (some sid) c1).session? sid := by rw [← h5, ← h3]; rfl
      rw [this]
      exact hushed_session (by decide) hs
    obtain ⟨rc', chain, t, t', b1, b2, b3, b4, b5, b6, b7, b8, b9, b10, b11⟩ := linked_loop_in hf.linked hf.peers hf.aead hf.carries fuel (chain := []) (by rw [hsent]; exact h.run)
      (hf.sound _ _ h.run).2.2 hs3 g1 rfl g2.hushed (.inl (by decide)) (fun hx => absurd hx (by decide)) (fun ch _ => ⟨Nat.zero_le _, by rw [hpeer]; rfl⟩) h7
    have hk4 : Kept (some sid) c1 c4 := M.Pre.trans (R := Kept (some sid)) hk3 ((kept_certificateLoop (e := e) slot fuel _ _ _ c3).ok h7)
    have hin := h.session hk4 b4 b3 b6 b7 b8 (b9.trans g3) (b10.trans g4)
    obtain ⟨_, chain', k1, k2, k3⟩ := storeChain_ok h8
    rw [b5] at k1
    cases k1
    subst b1
    have hi0 : i = 0 := by
      unfold Ctx.slot? at hi
      split at hi
      · cases hi; rfl
      · cases hi
    subst hi0
    subst k3
    refine ⟨rc', chain, ⟨hin.run, ⟨hin.settled.neg, hin.settled.transcript⟩, hin.clear, hin.table, hin.length, hin.sessions, fun j ch hj => ?_⟩, rfl, rfl, b2⟩
    dsimp only at hj
    by_cases hz : j = 0
    · subst hz
      rw [if_pos rfl] at hj
      rw [b4.prov, b2]
      exact hj
    · rw [if_neg hz] at hj
      exact hin.chain j ch hj

/-! ### the first connection, and histories -/

/-- no session is open. -/
def Idle (c : Ctx) : Prop := ∀ i, i ≠ 0 → c.session? i = none

theorem idle_new (cfg : Config) (prov : Provision) (n : Nat) : Idle (Ctx.new cfg prov n) := by
  intro i h0
  unfold Ctx.session? Ctx.new
  dsimp only
  induction n with
  | zero => rfl
  | succ n ih =>
    rw [List.replicate_succ, List.find?_cons_of_neg (by
      have : Session.new.id = 0 := rfl
      simp [this]; exact fun h => h0 h.symm)]
    exact ih

theorem setDefault_find (l : List Session) {i : UInt32} (h0 : i ≠ 0) : (l.map Session.setDefault).find? (·.id = i) = none := by
  induction l with
  | nil => rfl
  | cons a l ih =>
    rw [List.map_cons, List.find?_cons_of_neg (by
      have : a.setDefault.id = 0 := rfl
      simp [this]; exact fun h => h0 h.symm)]
    exact ih

theorem PlainStep.idle {k : UInt8} {rc rc' : Ctx} (h : PlainStep k rc rc') (hi : Idle rc) (h4 : k ≠ 0xE4) (h5 : k ≠ 0xE6) (h6 : k ≠ 0xE5) : Idle rc' := by
  intro i h0
  unfold Ctx.session?
  cases h.table with
  | same g => rw [g]; exact hi i h0
  | cleared _ g => rw [g]; exact setDefault_find _ h0
  | keyExchange g _ => exact absurd g h4
  | pskExchange g _ => exact absurd g h5
  | finish _ _ g _ _ _ _ _ => exact absurd g h6

/-- a new responder is sound. -/
theorem sound_new (hf : HashLaw f) {cfg : Config} {data : Fin 8 → Option Bytes} {root : Option Bytes} {n : Nat} (hn : n < 0xFFFD) (hd : ∀ i d, data i = some d → d.length ≤ 4096) :
    Sound f (Ctx.new cfg { chainData := data, peerRoot := root } n) := by
  intro l rc hrun
  have hr := Props.runAll_run (c0 := Ctx.new cfg { chainData := data, peerRoot := root } n) l .nil hrun
  have hall : ∀ p ∈ [] ++ l.map fun rx => (f, rx), HashLaw p.1 := by
    intro p hp
    simp only [List.nil_append, List.mem_map] at hp
    obtain ⟨_, _, rfl⟩ := hp
    exact hf
  obtain ⟨h1, h2⟩ := Run.table hn hr hall
  refine ⟨h2, by omega, fun i ch hc => ?_⟩
  obtain ⟨-, h3⟩ := Props.C54_history_partial _ _ _ _ _ _ hr hall
  obtain ⟨p, hp, d, hash, g1, b, en, rt, -, -, -, g5, g6⟩ := h3 i ch hc
  have hl := hall p hp _ _ _ g5
  have h64 : rt.length ≤ 64 := hashSize_le (c := ⟨{ baseHash := hash }, false, false⟩) hl
  have := hd i d g1
  rw [g6]
  simp [putU16]
  omega

/-- the first connection. -/
theorem step_connect (hf : Fit e f r0) (hr0 : Idle r0) (hc0 : Idle c) (hsent : c.sent = []) (hn : c.neg = {}) (hch : ∀ i, c.peer.chain i = none)
    (ht : ReqTable 0 c.sessions) (hl : c.sessions.length < 0xFFFD) (hq : DefinedBits c.config) (hr : DefinedBits r0.config) (hx : initConnection e c = .ok () c')
    (hv : 0x11 ≤ c'.neg.version.get) (hclear : Cc.inClear ⟨c'.neg, false, false⟩ = false) : ∃ rc, InStep f r0 rc c' := by
  obtain ⟨rc, a1, -, a3⟩ := Props.C41_connect hf.linked hf.hash c c' hn hq hr hx
  obtain ⟨_, c1, h1, z1⟩ := M.bind_ok.1 hx
  obtain ⟨_, c2, h2, h3⟩ := M.bind_ok.1 z1
  obtain ⟨pkt, _, _, _, _, _, b1, -, -, -, b5⟩ := getVersion_ok h1
  obtain ⟨_, pkt2, _, _, _, _, d1, rfl, -, -, -, d5⟩ := getCapabilities_ok h2
  obtain ⟨_, pkt3, _, _, _, _, g1, rfl, -, -, -, -, -, g5⟩ := negotiateAlgorithms_ok h3
  obtain ⟨r1, k1, k2⟩ := linked_step hf.linked hf.hash b1 (rc := r0) (by rw [hsent]; rfl)
  obtain ⟨r2, k3, k4⟩ := linked_step hf.linked hf.hash d1 (rc := r1) (by rw [← k1, b5]; rfl)
  obtain ⟨r3, k5, k6⟩ := linked_step hf.linked hf.hash g1 (rc := r2) (by rw [← k3, d5]; rfl)
  have hrun : Toy.runAll f r0 c'.sent = some r3 := by rw [← k5, g5]; rfl
  rw [a1] at hrun
  cases hrun
  have hi : Idle rc := PlainStep.idle k6 (PlainStep.idle k4 (PlainStep.idle k2 hr0 (by decide) (by decide) (by decide)) (by decide) (by decide) (by decide)) (by decide) (by decide) (by decide)
  have hses : c'.sessions = c.sessions := by rw [g5]; show c2.sessions = _; rw [d5]; show c1.sessions = _; rw [b5]
  have hpeer : c'.peer = c.peer := by rw [g5]; show c2.peer = _; rw [d5]; show c1.peer = _; rw [b5]
  refine ⟨rc, a1, ⟨?_, a3.transcript⟩, hclear, by rw [hses]; exact ht, by rw [hses]; exact hl, fun i h0 => ?_, fun i ch hi => ?_⟩
  · rw [a3.neg, if_pos hv]
  · have : c'.session? i = c.session? i := by unfold Ctx.session?; rw [hses]
    rw [this, hc0 i h0, hi i h0]
    exact .none
  · rw [hpeer, hch i] at hi
    cases hi

/-- operations that keep the two ends in step: everything but reconnecting, vendor defined requests (after which the requester forgets the
connection) and application data. -/
def Op.Tracked : Op → Prop
  | .digests sid => sid ≠ some 0
  | .certificate _ sid _ => sid ≠ some 0
  | .challenge _ _ => True
  | .measurements sid _ _ _ => sid ≠ some 0
  | .keyExchange _ t => t.WF
  | .pskExchange t hint => t.WF ∧ hint.length ≤ 32
  | .finish _ sid => sid ≠ 0
  | .pskFinish sid => sid ≠ 0
  | .heartbeat sid => sid ≠ 0
  | .keyUpdate sid _ => sid ≠ 0
  | .endSession sid => sid ≠ 0
  | _ => False

theorem step_op (hf : Fit e f r0) (h : InStep f r0 rc c) {op : Op} (ho : op.Tracked) (hx : op.run e c = .ok () c') : ∃ rc', InStep f r0 rc' c' := by
  cases op with
  | connect => exact ho.elim
  | digests sid =>
    cases sid with
    | none => exact step_digests hf h hx
    | some i => exact step_digests_in hf h (fun hz => ho (by rw [hz])) hx
  | certificate fuel sid slot =>
    cases sid with
    | none => exact step_certificate hf h hx
    | some i => obtain ⟨rc', _, h, -⟩ := step_certificate_in hf h (fun hz => ho (by rw [hz])) hx; exact ⟨rc', h⟩
  | challenge slot t => exact step_challenge hf h hx
  | measurements sid slot attr op =>
    obtain ⟨_, hx⟩ := quiet_ok hx
    cases sid with
    | none => exact step_measurements hf h hx
    | some i => obtain ⟨rc', _, _, _, _, h, -⟩ := step_measurements_in hf h (fun hz => ho (by rw [hz])) hx; exact ⟨rc', h⟩
  | keyExchange slot t => obtain ⟨_, hx⟩ := quiet_ok hx; obtain ⟨rc', _, h, -⟩ := step_keyExchange hf h ho hx; exact ⟨rc', h⟩
  | pskExchange t hint => obtain ⟨_, hx⟩ := quiet_ok hx; obtain ⟨rc', _, h, -⟩ := step_pskExchange hf h ho.1 ho.2 hx; exact ⟨rc', h⟩
  | finish slot sid => obtain ⟨rc', _, h, -⟩ := step_finish hf h ho hx; exact ⟨rc', h⟩
  | pskFinish sid => obtain ⟨rc', _, h, -⟩ := step_pskFinish hf h ho hx; exact ⟨rc', h⟩
  | heartbeat sid => exact step_heartbeat hf h ho hx
  | keyUpdate sid op => exact step_keyUpdate hf h ho hx
  | endSession sid => obtain ⟨rc', h, -⟩ := step_endSession hf h ho hx; exact ⟨rc', h⟩
  | vendor sid m => exact ho.elim
  | sendApp sid data => exact ho.elim
  | receiveApp sid => exact ho.elim

end Req
end Verif
