/-
What every operation of a requester does to the measurement transcript of a session.
-/
import Verif.Requester.Story
import Verif.Requester.LinkedStep

namespace Verif
namespace Req
open Rsp

variable {e : REnv} {sid : Option UInt32} {i : UInt32}

/-- a session keeps its id and measurement transcript, or is freed. -/
def LKept (s s' : Session) : Prop := (s'.id = s.id ∧ s'.l1l2 = s.l1l2) ∨ s'.id = 0
instance : M.Pre LKept where
  refl _ := .inl ⟨rfl, rfl⟩
  trans h h' := by
    rcases h' with ⟨h1, h2⟩ | h'
    · rcases h with ⟨h3, h4⟩ | h
      · exact .inl ⟨h1.trans h3, h2.trans h4⟩
      · exact .inr (h1.trans h)
    · exact .inr h'

theorem lk_modify {f : Session → Session} (h : ∀ s, (f s).id = s.id ∧ (f s).l1l2 = s.l1l2) : M.Rel LKept (M.modify f : M Status Session Unit) := .modify fun s => .inl (h s)

theorem lk_dispatchDir (x : Session → SecretParam → Res Bytes) (isReq : Bool) : M.Rel LKept (Session.dispatchDir x isReq) := by
  intro s
  by_cases h : s.state = .notStarted
  · rw [M.wp, Session.dispatchDir_notStarted _ _ _ h]
    exact .inl ⟨rfl, rfl⟩
  · rw [M.wp, Session.dispatchDir_eq _ _ _ h]
    have hb : LKept s (s.bump isReq) := .inl ⟨Session.bump_id _ _, bump_l1l2 _ _⟩
    cases x s (s.dir isReq)
    · exact hb
    · exact hb
    · trivial
theorem lk_encodeSecured (c : Crypto) (app : Bytes) (cap : Nat) (r : Bool) : M.Rel LKept (Session.encodeSecured c app cap r) := lk_dispatchDir _ _
theorem lk_decodeSecured (c : Crypto) (sec : Bytes) (cap : Nat) (r : Bool) : M.Rel LKept (Session.decodeSecured c sec cap r) := lk_dispatchDir _ _
theorem lk_setDheSecret (c : Crypto) (v : SpdmVersion) (d : Bytes) : M.Rel LKept (Session.setDheSecret c v d) := by
  unfold Session.setDheSecret
  rel <;> exact lk_modify fun _ => ⟨rfl, rfl⟩
theorem lk_genHandshake (c : Crypto) (v : SpdmVersion) (d : Bytes) : M.Rel LKept (Session.genHandshake c v d) := by
  unfold Session.genHandshake
  rel <;> exact lk_modify fun _ => ⟨rfl, rfl⟩
theorem lk_genData (c : Crypto) (v : SpdmVersion) (d : Bytes) : M.Rel LKept (Session.genData c v d) := by
  unfold Session.genData
  rel <;> exact lk_modify fun _ => ⟨rfl, rfl⟩
theorem lk_createReq (c : Crypto) (v : SpdmVersion) : M.Rel LKept (Session.createReq c v) := by
  unfold Session.createReq
  rel <;> exact lk_modify fun _ => ⟨rfl, rfl⟩
theorem lk_createRsp (c : Crypto) (v : SpdmVersion) : M.Rel LKept (Session.createRsp c v) := by
  unfold Session.createRsp
  rel <;> exact lk_modify fun _ => ⟨rfl, rfl⟩
theorem lk_createUpdate (c : Crypto) (v : SpdmVersion) (req rsp : Bool) : M.Rel LKept (Session.createUpdate c v req rsp) := by
  unfold Session.createUpdate
  have := lk_createReq c v
  have := lk_createRsp c v
  rel
theorem lk_activateUpdate (req rsp new : Bool) (s : Session) : (Session.activateUpdate req rsp new s).id = s.id ∧ (Session.activateUpdate req rsp new s).l1l2 = s.l1l2 := by
  unfold Session.activateUpdate
  cases req <;> cases rsp <;> cases new <;> exact ⟨rfl, rfl⟩
theorem lk_teardown (j : UInt32) : M.Rel LKept (Session.teardown j) := by
  intro s
  unfold Session.teardown
  simp only [M.wp_bind, M.wp_get]
  split
  · exact .inr rfl
  · trivial

/-- no session `i` has a measurement transcript that it did not have before. -/
def Notes (i : UInt32) (c c' : Ctx) : Prop := ∀ s' ∈ c'.sessions, s'.id = i → ∃ s ∈ c.sessions, s.id = i ∧ s'.l1l2 = s.l1l2
instance (i : UInt32) : M.Pre (Notes i) where
  refl _ := fun s h hi => ⟨s, h, hi, rfl⟩
  trans h h' := fun s hs hi => by
    obtain ⟨s1, h1, h2, h3⟩ := h' s hs hi
    obtain ⟨s2, h4, h5, h6⟩ := h s1 h1 h2
    exact ⟨s2, h4, h5, h3.trans h6⟩

theorem notes_same {c c' : Ctx} (h : c'.sessions = c.sessions) : Notes i c c' := by
  intro s hs hi
  rw [h] at hs
  exact ⟨s, hs, hi, rfl⟩

theorem updFirst_mem {f : Session → Session} {p : Session → Bool} {l : List Session} {s' : Session} (h : s' ∈ Ctx.updFirst p f l) : s' ∈ l ∨ ∃ s, l.find? p = some s ∧ s' = f s := by
  induction l with
  | nil => cases h
  | cons a l ih =>
    unfold Ctx.updFirst at h
    by_cases hp : p a = true
    · rw [if_pos hp] at h
      rcases List.mem_cons.1 h with rfl | h
      · exact .inr ⟨a, by rw [List.find?_cons_of_pos hp], rfl⟩
      · exact .inl (List.mem_cons_of_mem _ h)
    · rw [if_neg hp] at h
      rcases List.mem_cons.1 h with rfl | h
      · exact .inl List.mem_cons_self
      · rcases ih h with h | ⟨s, h1, h2⟩
        · exact .inl (List.mem_cons_of_mem _ h)
        · exact .inr ⟨s, by rw [List.find?_cons_of_neg hp]; exact h1, h2⟩

theorem notes_upd (h0 : i ≠ 0) {j : UInt32} {c : Ctx} {f : Session → Session} (h : ∀ s, c.session? j = some s → LKept s (f s)) : Notes i c (c.updSession j f) := by
  intro s' hs' hi
  rcases updFirst_mem hs' with hs | ⟨s, h1, rfl⟩
  · exact ⟨s', hs, hi, rfl⟩
  · rcases h s h1 with ⟨h2, h3⟩ | h2
    · exact ⟨s, List.mem_of_find?_eq_some h1, h2.symm.trans hi, h3⟩
    · exact absurd (hi.symm.trans h2) h0

theorem notes_onSession (h0 : i ≠ 0) {α : Type} (j : UInt32) (missing : M Status Ctx α) (x : M Status Session α) (hm : M.Rel (Notes i) missing) (hx : M.Rel LKept x) :
    M.Rel (Notes i) (Ctx.onSession j missing x) := by
  intro c
  unfold Ctx.onSession
  simp only [M.wp_bind, M.wp_get]
  split
  · exact hm c
  · rename_i s hs
    split
    · rename_i a s' hxs
      exact notes_upd h0 fun t ht => by rw [hs] at ht; cases ht; exact hx.ok hxs
    · rename_i st s' hxs
      exact notes_upd h0 fun t ht => by rw [hs] at ht; cases ht; exact hx.err hxs
    · trivial

theorem notes_of_same {α : Type} {x : M Status Ctx α} (h : M.Rel Same x) : M.Rel (Notes i) x := h.mono fun _ _ h => notes_same h
theorem notes_frame {α : Type} {k : Bool} {x : M Status Ctx α} (h : M.Rel (Frame k none) x) : M.Rel (Notes i) x := notes_of_same (rs_frame h)

theorem notes_devSend (pkt : Bytes) : M.Rel (Notes i) (Ctx.devSend e.toEnv pkt) := notes_frame (k := true) (Ctx.rel_devSend _)
theorem notes_encodeSecured (h0 : i ≠ 0) (j : UInt32) (msg : Bytes) (isReq isApp : Bool) : M.Rel (Notes i) (Ctx.encodeSecured e.toEnv j msg isReq isApp) := by
  unfold Ctx.encodeSecured
  rel
  exact notes_onSession h0 _ _ _ (.fail _) (lk_encodeSecured _ _ _ _)
theorem notes_decodeSecured (h0 : i ≠ 0) (j : UInt32) (p : Bytes) (n : Nat) : M.Rel (Notes i) (Ctx.decodeSecured e.toEnv j p n) := by
  unfold Ctx.decodeSecured
  rel
  exact notes_onSession h0 _ _ _ (.fail _) (lk_decodeSecured _ _ _ _)
theorem notes_receive : M.Rel (Notes i) (receive e) := by unfold receive; rel
theorem notes_sendMessage (msg : Bytes) : M.Rel (Notes i) (sendMessage e msg) := notes_frame (rel_sendMessage _)
theorem notes_receiveMessage : M.Rel (Notes i) (receiveMessage e) := notes_frame rel_receiveMessage
theorem notes_sendSecured (h0 : i ≠ 0) (j : UInt32) (msg : Bytes) (isApp : Bool) : M.Rel (Notes i) (sendSecured e j msg isApp) := by
  unfold sendSecured
  rel
  · exact notes_encodeSecured h0 _ _ _ _
  · exact notes_devSend _
theorem notes_receiveSecured (h0 : i ≠ 0) (j : UInt32) : M.Rel (Notes i) (receiveSecured e j) := by
  unfold receiveSecured
  have := notes_receive (e := e) (i := i)
  rel
  exact notes_decodeSecured h0 _ _ _
theorem notes_transact (h0 : i ≠ 0) (msg : Bytes) : M.Rel (Notes i) (transact e sid msg) := by
  unfold transact
  cases sid with
  | none => exact M.Rel.bind (notes_sendMessage _) fun _ => notes_receiveMessage
  | some j => exact M.Rel.bind (notes_sendSecured h0 _ _ _) fun _ => notes_receiveSecured h0 _
theorem notes_encodeReq (k : ReqRespCode) (p : Payload) : M.Rel (Notes i) (encodeReq k p) := notes_frame (rel_encodeReq _ _)
theorem notes_errorPayload (h0 : i ≠ 0) {α : Type} (p : UInt8) : M.Rel (Notes i) (errorPayload sid p : M Status Ctx α) := by
  unfold errorPayload simpleError
  apply M.Rel.ite <;> intro _
  · cases sid with
    | none => exact M.Rel.fail _
    | some j => exact M.Rel.bind (notes_onSession h0 _ _ _ (M.Rel.fail _) (lk_teardown _)) fun _ => M.Rel.fail _
  · rel
    cases sid with
    | none => exact M.Rel.fail _
    | some j => exact M.Rel.bind (notes_onSession h0 _ _ _ (M.Rel.fail _) (lk_modify fun _ => ⟨rfl, rfl⟩)) fun _ => M.Rel.fail _
theorem notes_sort (h0 : i ≠ 0) (k : ReqRespCode) (bytes : Bytes) (h : Header) (r : Reader) : M.Rel (Notes i) (sort sid k bytes h r) := by
  unfold sort handleError
  rel
  exact notes_errorPayload h0 _
theorem notes_expect (h0 : i ≠ 0) (k : ReqRespCode) (bytes : Bytes) : M.Rel (Notes i) (expect sid k bytes) := by
  unfold expect
  rel
  exact notes_sort h0 _ _ _ _
theorem notes_expectAny (h0 : i ≠ 0) (k : ReqRespCode) (bytes : Bytes) : M.Rel (Notes i) (expectAnyVersion sid k bytes) := by
  unfold expectAnyVersion
  rel
  exact notes_sort h0 _ _ _ _
theorem notes_readMsg {α : Type} (x : Cc → Rd α) (bytes : Bytes) (r : Reader) : M.Rel (Notes i) (Rsp.readMsg x bytes r) := notes_frame (rel_readMsg _ _ _)

theorem notes_appendK (h0 : i ≠ 0) (j : UInt32) (msg : Bytes) : M.Rel (Notes i) (Ctx.appendK e.toEnv j msg) := by
  intro c
  unfold Ctx.appendK
  simp only [M.wp_bind, M.wp_get]
  split
  · trivial
  · split
    · exact notes_upd h0 fun _ _ => .inl ⟨rfl, rfl⟩
    · split
      · exact M.Pre.refl (R := Notes i) c
      · exact notes_upd h0 fun _ _ => .inl ⟨rfl, rfl⟩
theorem notes_appendF (h0 : i ≠ 0) (isReq : Bool) (j : UInt32) (msg : Bytes) : M.Rel (Notes i) (Ctx.appendF e.toEnv isReq j msg) := by
  intro c
  unfold Ctx.appendF
  simp only [M.wp_bind, M.wp_get]
  split
  · trivial
  · split
    · exact M.Pre.refl (R := Notes i) c
    · split
      · exact notes_upd h0 fun _ _ => .inl ⟨rfl, rfl⟩
      · rename_i s _ _ _ _ _
        rw [M.wp_bind]
        cases Ctx.mutDigest e.toEnv isReq c s with
        | panic => trivial
        | err st => exact M.Pre.refl (R := Notes i) c
        | ok d => exact notes_upd h0 fun _ _ => .inl ⟨rfl, rfl⟩

theorem notes_thOf (j : UInt32) : M.Rel (Notes i) (thOf e j) := .bind .get fun _ => .bind (.unwrap _) fun _ => .lift _
theorem notes_closeAnd (h0 : i ≠ 0) {α : Type} (j : UInt32) (st : Status) : M.Rel (Notes i) (closeAnd j st : M Status Ctx α) :=
  .bind (notes_onSession h0 _ _ _ .panic (lk_teardown _)) fun _ => .fail _
theorem notes_responseCheck (h0 : i ≠ 0) (j : UInt32) (mac : Bytes) : M.Rel (Notes i) (responseCheck e j mac) := by
  unfold responseCheck
  refine .bind (notes_thOf _) fun _ => .bind .get fun _ => .bind (.unwrap _) fun _ => .ite (fun _ => notes_closeAnd h0 _ _) fun _ => .bind (.try' (notes_appendK h0 _ _)) fun r => ?_
  cases r with
  | ok _ => exact .pure _
  | error _ => exact notes_closeAnd h0 _ _
theorem notes_establish (h0 : i ≠ 0) (j : UInt32) : M.Rel (Notes i) (establish e j) := by
  unfold establish
  exact .bind (notes_thOf _) fun _ => .bind .get fun _ => .bind (notes_onSession h0 _ _ _ .panic (lk_genData _ _ _)) fun _ => notes_onSession h0 _ _ _ .panic (lk_modify fun _ => ⟨rfl, rfl⟩)
theorem notes_orClose (h0 : i ≠ 0) {α : Type} {j : UInt32} {x : M Status Ctx α} (h : M.Rel (Notes i) x) : M.Rel (Notes i) (orClose j x) := by
  unfold orClose
  refine .bind (.try' h) fun r => ?_
  cases r with
  | ok a => exact .pure _
  | error st => exact notes_closeAnd h0 _ _
theorem notes_orCloseIf (h0 : i ≠ 0) {α : Type} {j : UInt32} {x : M Status Ctx α} (h : M.Rel (Notes i) x) : M.Rel (Notes i) (orCloseIf j x) := by
  unfold orCloseIf
  refine .bind (.try' h) fun r => ?_
  cases r with
  | ok a => exact .pure _
  | error st => exact .bind (notes_onSession h0 _ _ _ (.pure _) (lk_teardown _)) fun _ => .fail _

/-! ### opening sessions -/

theorem notes_keyExchangeBody (h0 : i ≠ 0) (j : UInt32) (slot version : UInt8) (m : KeyExRsp) (req rsp : Bytes) : M.Rel (Notes i) (keyExchangeBody e slot m req rsp j version) := by
  unfold keyExchangeBody
  refine .bind .get fun c => .bind (.unwrap _) fun _ => .bind (.unwrap _) fun _ => .bind (.lift _) fun _ => .bind (notes_appendK h0 _ _) fun _ => .bind (notes_appendK h0 _ _) fun _ =>
    .bind ?_ fun _ => .bind (notes_appendK h0 _ _) fun _ => .bind (notes_thOf _) fun _ => .bind (notes_onSession h0 _ _ _ .panic (lk_genHandshake _ _ _)) fun _ => .bind ?_ fun _ =>
    .bind (notes_onSession h0 _ _ _ .panic (lk_modify fun _ => ⟨rfl, rfl⟩)) fun _ => .bind ?_ fun _ => .pure _
  · unfold keyExchangeCheck
    intro c
    rw [M.wp_bind, M.wp_get]
    cases keyExchangeVerify e j slot m.signature c with
    | panic => trivial
    | ok u => exact M.Pre.refl (R := Notes i) c
    | err st => exact M.Pre.refl (R := Notes i) c
  · unfold keyExchangeHmac
    exact .ite (fun _ => .pure _) fun _ => notes_responseCheck h0 _ _
  · unfold Rsp.rememberSession
    exact .ite (fun _ => .modify fun c => notes_same rfl) fun _ => .pure _

theorem notes_pskExchangeBody (h0 : i ≠ 0) (j : UInt32) (version : UInt8) (m : PskExRsp) (req rsp : Bytes) : M.Rel (Notes i) (pskExchangeBody e m req rsp j version) := by
  unfold pskExchangeBody
  refine .bind .get fun c => .bind (.unwrap _) fun _ => .bind (.lift _) fun _ => .bind (notes_appendK h0 _ _) fun _ => .bind (notes_appendK h0 _ _) fun _ =>
    .bind (notes_thOf _) fun _ => .bind (notes_onSession h0 _ _ _ .panic (lk_genHandshake _ _ _)) fun _ => .bind (notes_responseCheck h0 _ _) fun _ =>
    .bind (notes_onSession h0 _ _ _ .panic (lk_modify fun _ => ⟨rfl, rfl⟩)) fun _ => .bind ?_ fun _ => .bind (notes_onSession h0 _ _ _ .panic (lk_modify fun _ => ⟨rfl, rfl⟩)) fun _ => .pure _
  unfold pskEstablish
  exact .ite (fun _ => notes_establish h0 _) fun _ => .pure _

/-- a session freshly set up. -/
def Blank (j : UInt32) (s : Session) : Prop := (s.id = j ∧ s.l1l2 = none) ∨ s.id = 0

theorem LKept.blank {j : UInt32} {s s' : Session} (h : LKept s s') (hb : Blank j s) : Blank j s' := by
  rcases h with ⟨h1, h2⟩ | h
  · rcases hb with ⟨h3, h4⟩ | h3
    · exact .inl ⟨h1.trans h3, h2.trans h4⟩
    · exact .inr (h1.trans h3)
  · exact .inr h

theorem setup_blank (j : UInt32) (s : Session) : (Session.setup j).wp s (fun _ => Blank j) (fun _ => Blank j) := by
  unfold Session.setup
  simp only [M.wp_bind, M.wp_get]
  split
  · exact .inl ⟨rfl, rfl⟩
  · trivial

theorem openDhe_blank (c : Ctx) (j : UInt32) (mutAuth : UInt8) (certHash final : Bytes) (s : Session) :
    (openDhe e c j mutAuth certHash final).wp s (fun _ => Blank j) (fun _ => Blank j) := by
  unfold openDhe
  rw [M.wp_bind]
  refine (setup_blank j s).mono (fun _ s1 h1 => ?_) fun _ _ h => h
  rw [M.wp_bind, M.wp_modify, M.wp_bind]
  refine (lk_setDheSecret e.crypto c.neg.version final _).mono (fun _ s2 h2 => ?_) fun _ s2 h2 => h2.blank h1
  rw [M.wp_modify]
  exact h2.blank h1

theorem openPsk_blank (c : Ctx) (j : UInt32) (hint : Bytes) (s : Session) : (openPsk e c j hint).wp s (fun _ => Blank j) (fun _ => Blank j) := by
  unfold openPsk
  rw [M.wp_bind]
  refine (setup_blank j s).mono (fun _ s1 h1 => ?_) fun _ _ h => h
  rw [M.wp_modify]
  exact h1

/-- session `i` is as it was, or it is a new one without measurement transcript. -/
def Opens' (i : UInt32) (c c' : Ctx) : Prop := Notes i c c' ∨ ((∀ s ∈ c.sessions, s.id ≠ i) ∧ ∀ s ∈ c'.sessions, s.id = i → s.l1l2 = none)

theorem Opens'.same {c0 c c' : Ctx} (h : Same c0 c) (h' : Opens' i c c') : Opens' i c0 c' := by
  rcases h' with h' | ⟨h1, h2⟩
  · exact .inl (M.Pre.trans (R := Notes i) (notes_same h) h')
  · exact .inr ⟨fun s hs => h1 s (by rw [h]; exact hs), h2⟩

theorem Opens'.notes {c c1 c' : Ctx} (h : Opens' i c c1) (h' : Notes i c1 c') : Opens' i c c' := by
  rcases h with h | ⟨h1, h2⟩
  · exact .inl (M.Pre.trans (R := Notes i) h h')
  · refine .inr ⟨h1, fun s hs hi => ?_⟩
    obtain ⟨t, k1, k2, k3⟩ := h' s hs hi
    exact k3.trans (h2 t k1 k2)

theorem notes_bind {α β : Type} {x : M Status Ctx α} {f : α → M Status Ctx β} {c c0 : Ctx} (h : Same c0 c) (hx : M.Rel Same x)
    (hf : ∀ a c', Same c0 c' → (f a).wp c' (fun _ => Opens' i c0) (fun _ => Opens' i c0)) :
    (x >>= f).wp c (fun _ => Opens' i c0) (fun _ => Opens' i c0) := by
  rw [M.wp_bind]
  exact (hx c).mono (fun a c' h' => hf a c' (M.Pre.trans h h')) fun _ c' h' => .inl (notes_same (M.Pre.trans (R := Same) h h'))

theorem notes_open {β : Type} (h0 : i ≠ 0) {j : UInt32} {x : M Status Session Unit} {y : M Status Ctx β} {c c0 : Ctx} (h : Same c0 c) (hj : ∀ s ∈ c0.sessions, s.id ≠ j)
    (hx : ∀ s, x.wp s (fun _ => Blank j) (fun _ => Blank j)) (hy : M.Rel (Notes i) y) :
    (Ctx.onSession 0 (M.fail .sessionNumberExceed) x >>= fun _ => y).wp c (fun _ => Opens' i c0) (fun _ => Opens' i c0) := by
  rw [M.wp_bind]
  have key : ∀ s', Blank j s' → Opens' i c0 (c.updSession 0 fun _ => s') := by
    intro s' hb
    refine Opens'.same h ?_
    by_cases hij : i = j
    · refine .inr ⟨fun s hs => by rw [hij]; exact hj s (by rw [← h]; exact hs), fun s hs hi => ?_⟩
      rcases updFirst_mem hs with hs | ⟨s0, h1, rfl⟩
      · exact absurd (hi.trans hij) (hj s (by rw [← h]; exact hs))
      · rcases hb with ⟨-, hb⟩ | hb
        · exact hb
        · exact absurd (hi.symm.trans hb) h0
    · refine .inl fun s hs hi => ?_
      rcases updFirst_mem hs with hs | ⟨s0, h1, rfl⟩
      · exact ⟨s, hs, hi, rfl⟩
      · rcases hb with ⟨hb, -⟩ | hb
        · exact absurd (hi.symm.trans hb) hij
        · exact absurd (hi.symm.trans hb) h0
  have h1 : (Ctx.onSession 0 (M.fail .sessionNumberExceed) x).wp c (fun _ => Opens' i c0) (fun _ => Opens' i c0) := by
    unfold Ctx.onSession
    simp only [M.wp_bind, M.wp_get]
    split
    · exact .inl (notes_same h)
    · rename_i s hs
      have := hx s
      split
      · rename_i a s' h; exact key s' (this.ok h)
      · rename_i st s' h; exact key s' (this.err h)
      · trivial
  refine h1.mono (fun _ c1 h2 => ?_) fun _ _ h => h
  exact (hy c1).mono (fun _ _ h3 => h2.notes h3) fun _ _ h3 => h2.notes h3

theorem unheard_mem {l : List Session} {k : Nat} (h : ReqTable k l) (hl : k + l.length < 0xFFFD) {r q : UInt16} (hn : Ctx.nextHalf true k l = some q) : ∀ s ∈ l, s.id ≠ joinId r q := by
  intro s hs hc
  have := List.find?_eq_none.1 (h.unheard hl (r := r) hn) s hs
  exact this (by simpa using hc)

theorem notes_keyExchange (h0 : i ≠ 0) {c : Ctx} (ht : ReqTable 0 c.sessions) (hl : c.sessions.length < 0xFFFD) (slot : UInt8) (t : SummaryHashType) :
    (keyExchange e slot t).wp c (fun _ => Opens' i c) (fun _ => Opens' i c) := by
  unfold keyExchange
  have hr : Opens' i c c := .inl (M.Pre.refl (R := Notes i) c)
  rw [M.wp_ite]
  refine ⟨fun _ => hr, fun _ => ?_⟩
  rw [M.wp_bind, M.wp_get]
  cases hn : Ctx.nextHalf true 0 c.sessions with
  | none =>
    rw [M.wp_bind]
    have : c.nextHalfId true = .err .sessionNumberExceed := by unfold Ctx.nextHalfId; rw [hn]; rfl
    rw [this]
    exact hr
  | some q =>
    have : c.nextHalfId true = .ok q := by unfold Ctx.nextHalfId; rw [hn]; rfl
    rw [this, M.wp_bind]
    show M.wp _ c _ _
    refine notes_bind (c0 := c) rfl (rs_frame (k := true) (Ctx.rel_resetBuffers _)) fun _ c1 h1 => notes_bind h1 (.ofOption _ _) fun random c2 h2 => notes_bind h2 (.ofOption _ _) fun p c3 h3 => ?_
    obtain ⟨exchange, final⟩ := p
    refine notes_bind h3 (.ofOption _ _) fun opaq c4 h4 => notes_bind h4 (rs_frame (rel_encodeReq _ _)) fun req c5 h5 => notes_bind h5 (rs_frame (rel_transact _)) fun rsp c6 h6 => ?_
    unfold handleKeyExchange
    refine notes_bind h6 (.modify fun _ => rfl) fun _ c7 h7 => notes_bind h7 (rs_expect _ _) fun r c8 h8 => notes_bind h8 (rs_frame (rel_readMsg _ _ _)) fun p c9 h9 => ?_
    obtain ⟨m, b⟩ := p
    refine notes_bind h9 .get fun c9' c10 h10 => notes_bind h10 (.ofOption _ _) fun fin c11 h11 => notes_bind h11 (.lift _) fun v c12 h12 => notes_bind h12 (.unwrap _) fun i c13 h13 =>
      notes_bind h13 (.ofOption _ _) fun ch c14 h14 => ?_
    exact notes_open h0 h14 (unheard_mem ht (by omega) hn) (openDhe_blank _ _ _ _ _) (notes_keyExchangeBody h0 _ _ _ _ _ _)

theorem notes_pskExchange (h0 : i ≠ 0) {c : Ctx} (ht : ReqTable 0 c.sessions) (hl : c.sessions.length < 0xFFFD) (t : SummaryHashType) (hint : Bytes) :
    (pskExchange e t hint).wp c (fun _ => Opens' i c) (fun _ => Opens' i c) := by
  unfold pskExchange
  refine notes_bind (c0 := c) rfl (rs_frame (k := true) (Ctx.rel_resetBuffers _)) fun _ c1 h1 => ?_
  rw [M.wp_bind, M.wp_get]
  cases hn : Ctx.nextHalf true 0 c1.sessions with
  | none =>
    rw [M.wp_bind]
    have : c1.nextHalfId true = .err .sessionNumberExceed := by unfold Ctx.nextHalfId; rw [hn]; rfl
    rw [this]
    exact .inl (notes_same h1)
  | some q =>
    have : c1.nextHalfId true = .ok q := by unfold Ctx.nextHalfId; rw [hn]; rfl
    rw [this, M.wp_bind]
    show M.wp _ c1 _ _
    rw [h1] at hn
    refine notes_bind h1 (.ofOption _ _) fun random c2 h2 => notes_bind h2 (.ofOption _ _) fun opaq c3 h3 => notes_bind h3 (.unwrap _) fun hs c4 h4 =>
      notes_bind h4 (rs_frame (rel_encodeReq _ _)) fun req c5 h5 => notes_bind h5 (rs_frame (rel_transact _)) fun rsp c6 h6 => ?_
    unfold handlePskExchange
    refine notes_bind h6 (.modify fun _ => rfl) fun _ c7 h7 => notes_bind h7 (rs_expect _ _) fun r c8 h8 => notes_bind h8 (rs_frame (rel_readMsg _ _ _)) fun p c9 h9 => ?_
    obtain ⟨m, b⟩ := p
    refine notes_bind h9 .get fun c9' c10 h10 => notes_bind h10 (.lift _) fun v c12 h12 => ?_
    exact notes_open h0 h12 (unheard_mem ht (by omega) hn) (openPsk_blank _ _ _) (notes_pskExchangeBody h0 _ _ _ _ _)

/-! ### inside the session -/

theorem table_unique {l : List Session} {k : Nat} (h : ReqTable k l) (hl : k + l.length < 0xFFFD) (h0 : i ≠ 0) {s : Session} (hs : s ∈ l) (hi : s.id = i) : l.find? (·.id = i) = some s := by
  induction l generalizing k with
  | nil => cases hs
  | cons a l ih =>
    have hl' : k + (l.length + 1) < 0xFFFD := hl
    rcases List.mem_cons.1 hs with rfl | hs'
    · rw [List.find?_cons_of_pos (by simpa using hi)]
    · have ha : a.id ≠ i := by
        intro ha
        rcases h.1 with g | g
        · exact h0 (ha.symm.trans g)
        · rw [ha] at g
          have := (owned_req h.2).absent (by omega) h0 (by omega) g
          exact List.find?_eq_none.1 this s hs' (by simpa using hi)
      rw [List.find?_cons_of_neg (by simpa using ha)]
      exact ih h.2 (by omega) hs'

/-- session `i`, if there is one, has the measurement transcript `y`. -/
def Has (i : UInt32) (y : Option HashCtx) (c : Ctx) : Prop := ∀ s, c.session? i = some s → s.l1l2 = y

/-- the session table is in order. -/
def Ordered (c : Ctx) : Prop := ReqTable 0 c.sessions ∧ c.sessions.length < 0xFFFD

theorem Ordered.kept {c c' : Ctx} (h : Ordered c) (hk : TableKept c c') : Ordered c' := ⟨hk.2 h.2 h.1, by rw [hk.1]; exact h.2⟩

theorem Has.notes {y : Option HashCtx} {c c' : Ctx} (h0 : i ≠ 0) (ho : Ordered c) (h : Has i y c) (hn : Notes i c c') : Has i y c' := by
  intro s' hs'
  obtain ⟨s, h1, h2, h3⟩ := hn s' (List.mem_of_find?_eq_some hs') (session?_id hs')
  rw [h3]
  exact h s (table_unique ho.1 (by have := ho.2; omega) h0 h1 h2)

theorem has_reset {k : ReqRespCode} (hk : k ≠ .reqGetMeasurements) (c : Ctx) : Has i none (Ctx.resetBuffers k (some i) c) := by
  intro s hs
  rw [resetBuffers_session _ _ _ hk] at hs
  cases hc : c.session? i with
  | none => rw [hc] at hs; cases hs
  | some s0 => rw [hc] at hs; cases hs; rfl

theorem ordered_reset (k : ReqRespCode) (o : Option UInt32) {c : Ctx} (h : Ordered c) : Ordered (Ctx.resetBuffers k o c) := by
  have := (rt_frame (k := true) (Ctx.rel_resetBuffers (sid := o) k) c).ok (a := ()) (s' := Ctx.resetBuffers k o c) rfl
  exact h.kept this

theorem drops_of {k : ReqRespCode} (hk : k ≠ .reqGetMeasurements) (h0 : i ≠ 0) {α : Type} {x : Unit → M Status Ctx α} (hx : M.Rel (Notes i) (x ())) {c : Ctx} (ho : Ordered c) :
    (M.modify (Ctx.resetBuffers k (some i)) >>= x).wp c (fun _ => Has i none) (fun _ => Has i none) := by
  rw [M.wp_bind, M.wp_modify]
  exact (hx _).mono (fun _ _ h => (has_reset hk c).notes h0 (ordered_reset _ _ ho) h) fun _ _ h => (has_reset hk c).notes h0 (ordered_reset _ _ ho) h

theorem drops_digests (h0 : i ≠ 0) {c : Ctx} (ho : Ordered c) : (getDigests e (some i)).wp c (fun _ => Has i none) (fun _ => Has i none) := by
  unfold getDigests
  refine drops_of (by decide) h0 ?_ ho
  unfold handleDigests appendBBoth
  refine .bind (notes_encodeReq _ _) fun _ => .bind (notes_transact h0 _) fun _ => .bind (notes_expect h0 _ _) fun _ => .bind (notes_readMsg _ _ _) fun p => ?_
  obtain ⟨m, b⟩ := p
  exact .pure _

theorem notes_partial_in (h0 : i ≠ 0) (j : UInt32) (slot : UInt8) (total offset length : UInt16) : M.Rel (Notes i) (getCertificatePartial e (some j) slot total offset length) := by
  unfold getCertificatePartial
  refine .bind (notes_encodeReq _ _) fun req => .bind (notes_transact h0 _) fun rsp => ?_
  unfold handleCertificate
  refine .bind (notes_expect h0 _ _) fun r => .bind (notes_readMsg _ _ _) fun p => ?_
  obtain ⟨m, b⟩ := p
  refine .ite (fun _ => .fail _) fun _ => .ite (fun _ => .fail _) fun _ c => ?_
  rw [M.wp_bind, M.wp_get, M.wp_bind, M.wp_ofOption]
  refine ⟨fun a _ => ?_, fun _ => M.Pre.refl (R := Notes i) c⟩
  rw [M.wp_bind, M.wp_set]
  exact notes_same rfl

theorem notes_loop_in (h0 : i ≠ 0) (j : UInt32) (slot : UInt8) (fuel : Nat) : ∀ total offset length, M.Rel (Notes i) (certificateLoop e (some j) slot fuel total offset length) := by
  induction fuel with
  | zero => intro total offset length; exact .panic
  | succ n ih =>
    intro total offset length
    unfold certificateLoop
    refine .ite (fun _ => .pure _) fun _ => .bind (notes_partial_in h0 _ _ _ _ _) fun p => ?_
    obtain ⟨portion, remainder⟩ := p
    exact ih _ _ _

theorem notes_storeChain (slot : Fin 8) (total : UInt16) : M.Rel (Notes i) (storeChain e slot total) := by
  intro c
  unfold storeChain
  rw [M.wp_bind, M.wp_get]
  split
  · exact notes_same rfl
  · cases verifyChain e c with
    | panic => trivial
    | err st => exact notes_same rfl
    | ok u => exact notes_same rfl

theorem drops_certificate (h0 : i ≠ 0) (fuel : Nat) (slot : UInt8) {c : Ctx} (ho : Ordered c) :
    (getCertificate e fuel (some i) slot).wp c (fun _ => Has i none) (fun _ c' => c' = c ∨ Has i none c') := by
  unfold getCertificate
  rw [M.wp_bind, M.wp_ofOption]
  refine ⟨fun j _ => ?_, fun _ => .inl rfl⟩
  refine (drops_of (k := .reqGetCertificate) (i := i) (by decide) h0 ?_ ho).mono (fun _ _ h => h) fun _ _ h => .inr h
  exact .bind (.modify fun c => notes_same rfl) fun _ => .bind (notes_loop_in h0 _ _ _ _ _ _) fun _ => notes_storeChain _ _

theorem drops_finish (h0 : i ≠ 0) (slot : Option UInt8) {c : Ctx} (ho : Ordered c) : (finish e slot i).wp c (fun _ => Has i none) (fun _ c' => c' = c ∨ Has i none c') := by
  unfold finish
  rw [M.wp_bind, M.wp_get, M.wp_bind, M.wp_ofOption]
  refine ⟨fun sl _ => ?_, fun _ => .inl rfl⟩
  rw [M.wp_bind, M.wp_ofOption]
  refine ⟨fun s _ => ?_, fun _ => .inl rfl⟩
  refine (drops_of (k := .reqFinish) (by decide) h0 ?_ ho).mono (fun _ _ h => h) fun _ _ h => .inr h
  have hh : ∀ b, M.Rel (Notes i) (requestHmac e i b) := by
    intro b
    unfold requestHmac
    exact .bind (notes_thOf _) fun _ => .bind .get fun _ => .bind (.unwrap _) fun _ => .bind (.unwrap _) fun _ => .bind (.lift _) fun _ => .bind (notes_appendF h0 _ _ _) fun _ => .lift _
  have h1 : M.Rel (Notes i) (encodeFinish e i sl) := by
    unfold encodeFinish
    refine .bind .get fun _ => .bind (.ofOption _ _) fun _ => .bind (.lift _) fun _ => .bind (.unwrap _) fun _ => .bind (notes_encodeReq _ _) fun _ => .bind (notes_appendF h0 _ _ _) fun _ =>
      .bind ?_ fun _ => hh _
    unfold finishSignature
    exact .bind .get fun _ => .bind (.ofOption _ _) fun _ => .ite (fun _ => .bind (.lift _) fun _ => .bind (.lift _) fun _ => .bind (notes_appendF h0 _ _ _) fun _ => .pure _) fun _ => .pure _
  have h2 : ∀ b x, M.Rel (Notes i) (finishSend e b i x) := by
    intro b x
    unfold finishSend
    exact .ite (fun _ => notes_sendMessage _) fun _ => notes_sendSecured h0 _ _ _
  have h3 : ∀ b, M.Rel (Notes i) (finishReceive e b i) := by
    intro b
    unfold finishReceive
    exact .ite (fun _ => notes_receiveMessage) fun _ => notes_receiveSecured h0 _
  have h5 : ∀ b hs mac rsp, M.Rel (Notes i) (finishTranscript e b hs i mac rsp) := by
    intro b hs mac rsp
    unfold finishTranscript
    exact .ite (fun _ => .bind (.lift _) fun _ => .bind (notes_appendF h0 _ _ _) fun _ => .bind (notes_thOf _) fun _ => .bind .get fun _ => .bind (.unwrap _) fun _ =>
      .ite (fun _ => .fail _) fun _ => notes_appendF h0 _ _ _) fun _ => notes_appendF h0 _ _ _
  have h4 : ∀ b, M.Rel (Notes i) (handleFinish e i b) := by
    intro b
    unfold handleFinish
    refine .bind .get fun _ => .bind (.ofOption _ _) fun _ => .bind (notes_expectAny h0 _ _) fun _ => .bind (notes_readMsg _ _ _) fun p => ?_
    obtain ⟨m, b⟩ := p
    exact .bind (.unwrap _) fun _ => .bind (h5 _ _ _ _) fun _ => .bind (notes_establish h0 _) fun _ => .modify fun c => notes_same rfl
  exact .bind (notes_orClose h0 h1) fun _ => .bind (notes_orClose h0 (h2 _ _)) fun _ => .bind (notes_orClose h0 (h3 _)) fun _ => notes_orCloseIf h0 (h4 _)

theorem drops_pskFinish (h0 : i ≠ 0) {c : Ctx} (ho : Ordered c) : (pskFinish e i).wp c (fun _ => Has i none) (fun _ c' => c' = c ∨ Has i none c') := by
  unfold pskFinish
  rw [M.wp_bind, M.wp_get, M.wp_bind, M.wp_ofOption]
  refine ⟨fun s _ => ?_, fun _ => .inl rfl⟩
  refine (drops_of (k := .reqPskFinish) (by decide) h0 ?_ ho).mono (fun _ _ h => h) fun _ _ h => .inr h
  have h1 : M.Rel (Notes i) (encodePskFinish e i) := by
    unfold encodePskFinish requestHmac
    exact .bind .get fun _ => .bind (.unwrap _) fun _ => .bind (notes_encodeReq _ _) fun _ => .bind (.lift _) fun _ => .bind (notes_appendF h0 _ _ _) fun _ =>
      .bind (notes_thOf _) fun _ => .bind .get fun _ => .bind (.unwrap _) fun _ => .bind (.unwrap _) fun _ => .bind (.lift _) fun _ => .bind (notes_appendF h0 _ _ _) fun _ => .lift _
  have h4 : ∀ b, M.Rel (Notes i) (handlePskFinish e i b) := by
    intro b
    unfold handlePskFinish
    refine .bind (notes_expect h0 _ _) fun _ => .bind (notes_readMsg _ _ _) fun p => ?_
    obtain ⟨m, b⟩ := p
    exact .bind (notes_appendF h0 _ _ _) fun _ => notes_establish h0 _
  exact .bind (notes_orClose h0 h1) fun _ => .bind (notes_orClose h0 (notes_sendSecured h0 _ _ _)) fun _ => .bind (notes_orClose h0 (notes_receiveSecured h0 _)) fun _ => notes_orCloseIf h0 (h4 _)

theorem drops_heartbeat (h0 : i ≠ 0) {c : Ctx} (ho : Ordered c) : (heartbeat e i).wp c (fun _ => Has i none) (fun _ => Has i none) := by
  unfold heartbeat
  refine drops_of (by decide) h0 ?_ ho
  unfold handleHeartbeat
  exact .bind (notes_encodeReq _ _) fun _ => .bind (notes_transact h0 _) fun _ => .bind (notes_expect h0 _ _) fun _ => .bind (notes_readMsg _ _ _) fun _ => .pure _

theorem drops_endSession (h0 : i ≠ 0) {c : Ctx} (ho : Ordered c) : (endSession e i).wp c (fun _ => Has i none) (fun _ => Has i none) := by
  unfold endSession
  refine drops_of (by decide) h0 ?_ ho
  unfold handleEndSession
  exact .bind (notes_encodeReq _ _) fun _ => .bind (notes_transact h0 _) fun _ => .bind (notes_expect h0 _ _) fun _ => .bind (notes_readMsg _ _ _) fun _ =>
    notes_onSession h0 _ _ _ (.fail _) (lk_teardown _)

theorem drops_keyUpdateOp (h0 : i ≠ 0) (op : KeyUpdateOp) (tag : UInt8) {c : Ctx} (ho : Ordered c) :
    (keyUpdateOp e i op tag).wp c (fun _ => Has i none) (fun _ => Has i none) := by
  unfold keyUpdateOp
  refine drops_of (by decide) h0 ?_ ho
  refine .bind (notes_encodeReq _ _) fun _ => .bind (notes_sendSecured h0 _ _ _) fun _ => .bind .get fun _ => .bind (notes_onSession h0 _ _ _ (.fail _) (lk_createUpdate _ _ _ _)) fun _ =>
    .bind (notes_receiveSecured h0 _) fun b => ?_
  unfold handleKeyUpdate
  refine .bind (notes_expect h0 _ _) fun r => ?_
  have h1 : ∀ ok, M.Rel (Notes i) (keyUpdateAck i (updatesReq op) (updatesRsp op) ok) := by
    intro ok
    unfold keyUpdateAck
    exact .bind (notes_onSession h0 _ _ _ (.fail _) (lk_modify fun s => lk_activateUpdate _ _ _ s)) fun _ => .ite (fun _ => .pure _) fun _ => .fail _
  cases KeyUpd.read r with
  | panic => exact .panic
  | err _ _ => exact h1 _
  | ok _ _ => exact h1 _

theorem drops_keyUpdate (h0 : i ≠ 0) (op : KeyUpdateOp) {c : Ctx} (ho : Ordered c) : (keyUpdate e i op).wp c (fun _ => Has i none) (fun _ c' => c' = c ∨ Has i none c') := by
  unfold keyUpdate
  by_cases hop : op ≠ .updateAllKeys ∧ op ≠ .updateSingleKey
  · rw [if_pos hop]; exact .inl rfl
  rw [if_neg hop, M.wp_bind]
  have h1 := (drops_keyUpdateOp (e := e) h0 op 1 ho).and (rt_kept (kept_keyUpdateOp i op 1) c)
  refine h1.mono (fun _ c1 h1 => ?_) fun _ _ h => .inr h.1
  exact (drops_keyUpdateOp h0 .verifyNewKey 2 (ho.kept h1.2)).mono (fun _ _ h => h) fun _ _ h => .inr h

/-! ### measurements in the session -/

theorem noted_start (c : Ctx) (y : Option HashCtx) (msg : Bytes) : noted c.neg c.rt.messageA y msg =
    ⟨(y.getD ⟨c.neg.baseHash, if c.cc.ge12 then c.rt.messageA else []⟩).algo, (y.getD ⟨c.neg.baseHash, if c.cc.ge12 then c.rt.messageA else []⟩).data ++ msg⟩ := by
  cases y <;> rfl

/-- measurements were returned in the session: what is added to its transcript. -/
theorem measured_ok {slot attr : UInt8} {op : MeasOperation} {out : UInt8 × MeasRecord} {y : Option HashCtx} {c c' : Ctx} (hy : Has i y c)
    (h : getMeasurements e (some i) slot attr op c = .ok out c') :
    ∃ req rsp rest cx, Said e (some i) (Ctx.resetBuffers .reqGetMeasurements (some i) c) req (rsp ++ rest) cx ∧ Took c.neg (rsp ++ rest) rsp ∧ req.getD 1 0 = 0xE0 ∧ req.getD 2 0 = attr ∧
      Has i (if signatureRequested attr then none else some (noted c.neg c.rt.messageA (some (noted c.neg c.rt.messageA y req)) rsp)) c' := by
  obtain ⟨-, nonce, bytes, rest, cx, n, p, m, h1, h2, rfl, h4, h5, h6⟩ := getMeasurements_ok h
  obtain ⟨pkt, pp, -, s, hs0, -, -, -, hcx⟩ := id h2
  have hs : c.session? i = some s := by rw [resetMeas_fields] at hs0; exact hs0
  refine ⟨_, _, rest, cx, h2, h4, rfl, rfl, ?_⟩
  obtain ⟨m1, m2, m3⟩ := measHeard_in attr m cx
  have hbase : cx.neg = c.neg ∧ cx.rt.messageA = c.rt.messageA ∧ cx.session? i = some ((s.bump true).bump false) := by
    subst hcx
    have hb : ((Ctx.resetBuffers .reqGetMeasurements (some i) c).updSession i fun _ => (s.bump true).bump false).session? i = some ((s.bump true).bump false) :=
      session?_const hs0 (by rw [Session.bump_id, Session.bump_id]; exact session?_id hs)
    exact ⟨by rw [resetMeas_fields]; rfl, by rw [resetMeas_fields]; rfl, hb⟩
  obtain ⟨b1, b2, b3⟩ := hbase
  have hm : (measHeard attr m cx).session? i = some ((s.bump true).bump false) := by unfold Ctx.session?; rw [m1]; exact b3
  have hy' : ((s.bump true).bump false).l1l2 = y := by rw [bump_l1l2, bump_l1l2]; exact hy s hs
  have htw := addM_twice hm (measRequest c slot attr op nonce) (measHeardBody c.neg.version.get n p m)
  rw [m2, m3, b1, b2, hy'] at htw
  dsimp only at h6
  by_cases hsig : signatureRequested attr = true
  · rw [if_pos hsig] at h6 ⊢
    obtain ⟨d, certs, -, -, -, -, -, rfl⟩ := h6
    intro s' hs'
    rw [resetM_in htw] at hs'
    cases hs'; rfl
  · rw [if_neg hsig] at h6 ⊢
    obtain ⟨hz, rfl⟩ := h6
    intro s' hs'
    rw [htw] at hs'
    cases hs'
    rw [hz, List.append_nil]

/-- the request for measurements failed: the transcript of the session is as it was, or the signature did not verify. -/
theorem measured_err (h0 : i ≠ 0) {slot attr : UInt8} {op : MeasOperation} {y : Option HashCtx} {c c' : Ctx} {st : Status} (ho : Ordered c) (hy : Has i y c)
    (h : getMeasurements e (some i) slot attr op c = .err st c') : Has i y c' ∨ (st = .verifFail ∧ signatureRequested attr = true ∧ Has i none c') := by
  unfold getMeasurements at h
  by_cases hs : slot ≥ 8
  · rw [if_pos hs] at h; cases h; exact .inl hy
  rw [if_neg hs] at h
  have key : ∀ {α β : Type} (x : M Status Ctx α) (f : α → M Status Ctx β), M.Rel (Notes i) x → M.Rel TableKept x → ∀ c1, Ordered c1 → Has i y c1 →
      (∀ a c2, Ordered c2 → Has i y c2 → (f a).wp c2 (fun _ _ => True) (fun st c' => Has i y c' ∨ (st = .verifFail ∧ signatureRequested attr = true ∧ Has i none c'))) →
      (x >>= f).wp c1 (fun _ _ => True) (fun st c' => Has i y c' ∨ (st = .verifFail ∧ signatureRequested attr = true ∧ Has i none c')) := by
    intro α β x f hx ht c1 h1 h2 hf
    rw [M.wp_bind]
    exact ((hx c1).and (ht c1)).mono (fun a c2 h3 => hf a c2 (h1.kept h3.2) (h2.notes h0 h1 h3.1)) fun _ c2 h3 => .inl (h2.notes h0 h1 h3.1)
  have hx : (do M.modify (Ctx.resetBuffers .reqGetMeasurements (some i))
                let nonce ← M.ofOption .cryptoError (Ctx.random e.toEnv 32)
                let req ← encodeReq .reqGetMeasurements (.getMeas ⟨attr, op, nonce, slot⟩)
                let rsp ← transact e (some i) req
                handleMeasurements e (some i) slot attr op req rsp : M Status Ctx (UInt8 × MeasRecord)).wp c (fun _ _ => True)
      (fun st c' => Has i y c' ∨ (st = .verifFail ∧ signatureRequested attr = true ∧ Has i none c')) := by
    refine key _ _ (.modify fun c => ?_) (rt_frame (k := true) (Ctx.rel_resetBuffers (sid := some i) _)) c ho hy fun _ c1 o1 y1 =>
      key _ _ (.ofOption _ _) (.ofOption _ _) c1 o1 y1 fun nonce c2 o2 y2 => key _ _ (notes_encodeReq _ _) (rt_frame (sid := none) (rel_encodeReq _ _)) c2 o2 y2 fun req c3 o3 y3 =>
      key _ _ (notes_transact h0 _) (rt_frame (rel_transact _)) c3 o3 y3 fun rsp c4 o4 y4 => ?_
    · refine notes_same ?_
      rw [resetMeas_fields]
    unfold handleMeasurements
    refine key (M.modify fun c => { c with rt := { c.rt with needSig := signatureRequested attr } }) _ (.modify fun c => notes_same rfl) (rt_modify fun _ => rfl) c4 o4 y4 fun _ c5 o5 y5 => key _ _ (notes_expect h0 _ _) (rt_kept (rel_expect _ _)) c5 o5 y5 fun r c6 o6 y6 =>
      key _ _ (notes_readMsg _ _ _) (rt_frame (sid := none) (rel_readMsg _ _ _)) c6 o6 y6 fun p c7 o7 y7 => ?_
    obtain ⟨m, b⟩ := p
    have hnote : ∀ c : Ctx, (noteChanged m c).sessions = c.sessions := fun c => (noteChanged_fields m c).2.2.2.2.2.2.2.2
    refine key _ _ (.modify fun c => notes_same (hnote c)) (rt_modify hnote) c7 o7 y7 fun _ c8 o8 y8 => key _ _ .get .get c8 o8 y8 fun _ c9 o9 y9 =>
      key _ _ (.unwrap _) (.unwrap _) c9 o9 y9 fun asym c10 o10 y10 => key _ _ (.lift _) (.lift _) c10 o10 y10 fun body c11 o11 y11 => ?_
    rw [M.wp_bind]
    cases ha : Ctx.appendM e.toEnv (some i) req c11 with
    | panic => unfold M.wp; rw [ha]; trivial
    | err st c' =>
      unfold M.wp; rw [ha]
      have : (Ctx.appendM e.toEnv (some i) req).wp c11 (fun _ _ => True) (fun _ c' => c' = c11) := by
        unfold Ctx.appendM
        simp only [M.wp_bind, M.wp_get]
        split
        · trivial
        · split
          · trivial
          · split
            · rfl
            · trivial
      have hc := this.err ha
      rw [hc]
      exact .inl y11
    | ok u c12 =>
      unfold M.wp; rw [ha]
      obtain ⟨rfl, hsome⟩ := appendM_ok ha
      obtain ⟨s11, hs11⟩ := Option.isSome_iff_exists.1 (hsome i rfl)
      have h12 := addM_in hs11 req
      have hl : l1l2? (addM (some i) req c11) (some i) = some (nextM c11 (some i) req) := by
        unfold l1l2?; dsimp only; rw [h12]; rfl
      show (Ctx.appendM e.toEnv (some i) body >>= _).wp (addM (some i) req c11) _ _
      unfold M.wp
      rw [M.bind_apply, appendM_some hl]
      show (measurementCheckIf e (signatureRequested attr) (some i) slot m.signature >>= fun _ => pure (measurementResult op m)).wp (addM (some i) body (addM (some i) req c11)) _ _
      rw [M.wp_bind]
      unfold measurementCheckIf
      split
      · rename_i hsig
        unfold measurementCheck
        rw [M.wp_bind, M.wp_get]
        cases measurementVerify e (some i) slot m.signature (addM (some i) body (addM (some i) req c11)) with
        | panic => trivial
        | ok u => trivial
        | err st =>
          refine .inr ⟨rfl, hsig, ?_⟩
          intro s hs
          rw [resetM_in (addM_in h12 body)] at hs
          cases hs; rfl
      · trivial
  exact hx.err h

/-! ### elsewhere -/

theorem notes_kept {o : Option UInt32} {c c' : Ctx} (h0 : i ≠ 0) (hi : o ≠ some i) (h : Kept o c c') : Notes i c c' := by
  have := h.sessions
  intro s' hs' he
  generalize c.sessions = l at this
  generalize c'.sessions = l' at this hs'
  induction this with
  | nil => cases hs'
  | cons hab _ ih =>
    rcases List.mem_cons.1 hs' with rfl | hs'
    · rcases hab with rfl | ⟨h1, h2⟩
      · exact ⟨_, List.mem_cons_self, he, rfl⟩
      · exfalso
        rcases h2 with h2 | h2
        · rw [← h2, he] at h1
          cases o with
          | none => exact h0 h1
          | some j => exact hi (by rw [h1]; rfl)
        · exact h0 (he.symm.trans h2)
    · obtain ⟨s, k1, k2, k3⟩ := ih hs'
      exact ⟨s, List.mem_cons_of_mem _ k1, k2, k3⟩

theorem notes_getCertificate (h0 : i ≠ 0) (o : Option UInt32) (hi : o ≠ some i) (fuel : Nat) (slot : UInt8) : M.Rel (Notes i) (getCertificate e fuel o slot) := by
  unfold getCertificate
  exact .bind (.ofOption _ _) fun j => .bind ((rel_of_frame (Ctx.rel_resetBuffers (k := true) (sid := o) _)).mono fun _ _ h => notes_kept h0 hi h) fun _ => .bind (.modify fun c => notes_same rfl) fun _ =>
    .bind ((kept_certificateLoop (sid := o) _ _ _ _ _).mono fun _ _ h => notes_kept h0 hi h) fun _ => notes_storeChain _ _

end Req
end Verif
