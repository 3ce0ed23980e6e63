/-
The requests outside sessions never panic, whatever the device delivers.
-/
import Verif.Requester.Ops
import Verif.Responder.Roomy

namespace Verif
open M Res
namespace Req

/-- a transport and a device that stay inside the requester's buffers: packets fit, and so does what is received. -/
structure Carrier (e : REnv) : Prop where
  encap : ∀ msg, msg.length ≤ 4096 → Safe (Ctx.intoBuf (e.tr.encap msg false) 4160)
  decap : ∀ rx, rx.length ≤ 4160 → Safe (Ctx.intoBuf2 (e.tr.decap rx) 4096)
  recv : ∀ l p, e.recv l = some p → p.length ≤ 4160

/-- a session whose keys or transcript are used has algorithms of known sizes and the hash `g`. -/
def Usable (g : BaseHash) (s : Session) : Prop := s.state ≠ .notStarted ∨ s.th.isSome = true → Session.Armed s ∧ s.hash = g

theorem Usable.blank {g : BaseHash} {s : Session} (h1 : s.state = .notStarted) (h2 : s.th = none) : Usable g s := fun h => by
  rcases h with h | h
  · exact absurd h1 h
  · rw [h2] at h; cases h

/-- usable sessions stay usable. -/
def Lasting (g : BaseHash) (l l' : List Session) : Prop := ∀ s' ∈ l', ∃ s ∈ l, Usable g s → Usable g s'

theorem lasting_refl {g : BaseHash} (l : List Session) : Lasting g l l := fun s h => ⟨s, h, id⟩

theorem mem_updFirst {p : Session → Bool} {f : Session → Session} : ∀ {l : List Session} {t : Session}, t ∈ Ctx.updFirst p f l → t ∈ l ∨ ∃ s, l.find? p = some s ∧ t = f s
  | [], t, h => by simp [Ctx.updFirst] at h
  | s :: l, t, h => by
    unfold Ctx.updFirst at h
    by_cases hp : p s = true
    · rw [if_pos hp] at h
      rcases List.mem_cons.1 h with h | h
      · exact .inr ⟨s, List.find?_cons_of_pos hp, h⟩
      · exact .inl (List.mem_cons_of_mem _ h)
    · rw [if_neg hp] at h
      rcases List.mem_cons.1 h with h | h
      · exact .inl (h ▸ List.mem_cons_self)
      · rcases mem_updFirst h with h | ⟨s', h1, h2⟩
        · exact .inl (List.mem_cons_of_mem _ h)
        · exact .inr ⟨s', by rw [List.find?_cons_of_neg hp]; exact h1, h2⟩

theorem lasting_upd {g : BaseHash} (c : Ctx) (sid : UInt32) {f : Session → Session} (h : ∀ s, c.session? sid = some s → Usable g s → Usable g (f s)) :
    Lasting g c.sessions (c.updSession sid f).sessions := fun t ht => by
  rcases mem_updFirst ht with ht | ⟨s, hs, rfl⟩
  · exact ⟨t, ht, id⟩
  · exact ⟨s, List.mem_of_find?_eq_some hs, h s hs⟩

/-- a condition on negotiated parameters, stored chains, the signature flag and the usability of sessions only. -/
def Stable (g : BaseHash) (I : Ctx → Prop) : Prop :=
  ∀ c c', I c → c'.neg = c.neg → c'.peer.chain = c.peer.chain → c'.rt.needSig = c.rt.needSig → Lasting g c.sessions c'.sessions → I c'

/-- total from every state that meets `I`, keeping `I`. -/
abbrev Calm {α : Type} (I : Ctx → Prop) (x : M Status Ctx α) (Q : α → Prop) : Prop :=
  ∀ c, I c → x.Tot c (fun a c' => I c' ∧ Q a) (fun _ c' => I c')

variable {I : Ctx → Prop} {α β : Type} {e : REnv} {g : BaseHash}

theorem Calm.bind {x : M Status Ctx α} {f : α → M Status Ctx β} {P : α → Prop} {Q : β → Prop} (hx : Calm I x P) (hf : ∀ a, P a → Calm I (f a) Q) :
    Calm I (x >>= f) Q := fun c hc => (hx c hc).bind fun a c' h => hf a h.2 c' h.1
theorem Calm.pure {a : α} {Q : α → Prop} (h : Q a) : Calm I (pure a : M Status Ctx α) Q := fun _ hc => tot_pure ⟨hc, h⟩
theorem Calm.get {f : Ctx → M Status Ctx α} {Q : α → Prop} (h : ∀ c, I c → Calm I (f c) Q) : Calm I (M.get >>= f) Q := fun c hc => tot_get_bind (h c hc c hc)
theorem Calm.ite {p : Prop} [Decidable p] {x y : M Status Ctx α} {Q : α → Prop} (hx : p → Calm I x Q) (hy : ¬ p → Calm I y Q) :
    Calm I (if p then x else y) Q := fun c hc => tot_ite (fun h => hx h c hc) fun h => hy h c hc
theorem Calm.fail {st : Status} {Q : α → Prop} : Calm I (M.fail st : M Status Ctx α) Q := fun _ hc => tot_fail hc
theorem Calm.modify {f : Ctx → Ctx} (h : ∀ c, I c → I (f c)) : Calm I (M.modify f : M Status Ctx Unit) (fun _ => True) := fun _ hc => tot_modify ⟨h _ hc, trivial⟩
theorem Calm.set {t : Ctx} (h : I t) : Calm I (M.set t : M Status Ctx Unit) (fun _ => True) := fun _ _ => tot_set ⟨h, trivial⟩
theorem Calm.unwrap {o : Option α} (h : o.isSome = true) : Calm I (M.unwrap o : M Status Ctx α) (fun a => o = some a) := fun _ hc => tot_unwrap h fun _ ha => ⟨hc, ha⟩
theorem Calm.ofOption {st : Status} (o : Option α) : Calm I (M.ofOption st o : M Status Ctx α) (fun a => o = some a) := fun _ hc => tot_ofOption (fun _ ha => ⟨hc, ha⟩) fun _ => hc
theorem Calm.lift {x : Res α} (h : Safe x) : Calm I (x.lift : M Status Ctx α) (fun a => x = .ok a) := fun _ hc => h.lift (fun _ ha => ⟨hc, ha⟩) fun _ => hc
theorem Calm.weaken {x : M Status Ctx α} {P Q : α → Prop} (h : Calm I x P) (hq : ∀ a, P a → Q a) : Calm I x Q := fun c hc => (h c hc).mono (fun a _ h => ⟨h.1, hq a h.2⟩) fun _ _ h => h

theorem calm_put (hI : Stable g I) {c t : Ctx} (hc : I c) (h1 : t.neg = c.neg) (h2 : t.peer.chain = c.peer.chain) (h3 : t.rt.needSig = c.rt.needSig)
    (h4 : t.sessions = c.sessions) : Calm I (M.set t : M Status Ctx Unit) (fun _ => True) := Calm.set (hI c t hc h1 h2 h3 (h4 ▸ lasting_refl _))

theorem calm_onSession {missing : M Status Ctx α} {x : M Status Session α} {Q : α → Prop} (hI : Stable g I) (hm : Calm I missing Q) {sid : UInt32}
    (hx : ∀ c s, I c → c.session? sid = some s → x.Tot s (fun a t => Q a ∧ (Usable g s → Usable g t)) (fun _ t => Usable g s → Usable g t)) : Calm I (Ctx.onSession sid missing x) Q := by
  unfold Ctx.onSession
  refine Calm.get fun c hc => ?_
  cases hs : c.session? sid with
  | none => exact hm
  | some s =>
    have h := hx c s hc hs
    dsimp only
    unfold M.Tot at h
    cases hr : x s with
    | ok a s' =>
      rw [hr] at h
      dsimp only
      exact (Calm.set (hI c (c.updSession sid fun _ => s') hc rfl rfl rfl (lasting_upd c sid fun s0 h0 => by rw [hs] at h0; cases h0; exact h.2))).bind fun _ _ => Calm.pure h.1
    | err r s' =>
      rw [hr] at h
      dsimp only
      exact (Calm.set (hI c (c.updSession sid fun _ => s') hc rfl rfl rfl (lasting_upd c sid fun s0 h0 => by rw [hs] at h0; cases h0; exact h))).bind fun _ _ => Calm.fail
    | panic => rw [hr] at h; exact h.elim

theorem Usable.l1l2 {s : Session} (h : Usable g s) (x : Option HashCtx) : Usable g { s with l1l2 := x } := fun hs => ⟨⟨(h hs).1.algs, (h hs).1.hint⟩, (h hs).2⟩

theorem calm_resetM (hI : Stable g I) (sid : Option UInt32) (c : Ctx) (hc : I c) : I (Ctx.resetM sid c) := by
  unfold Ctx.resetM
  cases sid with
  | none => exact hI c _ hc rfl rfl rfl (lasting_refl _)
  | some i => exact hI c _ hc rfl rfl rfl (lasting_upd c i fun s _ h => h.l1l2 none)

theorem calm_reset (hI : Stable g I) (k : ReqRespCode) (sid : Option UInt32) (c : Ctx) (hc : I c) : I (Ctx.resetBuffers k sid c) := by
  unfold Ctx.resetBuffers
  have h1 : I (if k ≠ .reqGetMeasurements then Ctx.resetM sid c else c) := by
    split
    · exact calm_resetM hI sid c hc
    · exact hc
  have h2 : ∀ c1, I c1 → I (Ctx.resetM1M2 c1) := fun c1 h => hI c1 _ h rfl rfl rfl (lasting_refl _)
  have h3 : ∀ c1, I c1 → I (if c1.rt.state.code < 5 then c1.resetM1M2 else c1) := fun c1 h => by
    split
    · exact h2 _ h
    · exact h
  dsimp only
  split <;> first | exact h3 _ h1 | exact h2 _ h1 | exact h1

/-! ### Sending and receiving -/

theorem calm_encodeAs {k : ReqRespCode} {p : Payload} (v : SpdmVersion) (hw : ∀ c, I c → ∃ w, Writes (p.encode c.cc) w) :
    Calm I (encodeAs v k p) (fun b => b.length ≤ 4096) := by
  intro c hc
  obtain ⟨w, hw⟩ := hw c hc
  by_cases hl : w.length + 2 ≤ 4096
  · exact Tot.ok ((encodeAs_eq hw).trans (if_pos hl)) ⟨hc, by simp only [List.length_cons]; omega⟩
  · exact Tot.err ((encodeAs_eq hw).trans (if_neg hl)) hc

theorem calm_encodeReq {k : ReqRespCode} {p : Payload} (hw : ∀ c, I c → ∃ w, Writes (p.encode c.cc) w) : Calm I (encodeReq k p) (fun b => b.length ≤ 4096) := by
  unfold encodeReq
  exact Calm.get fun c _ => calm_encodeAs _ hw

theorem calm_devSend (hI : Stable g I) (pkt : Bytes) : Calm I (Ctx.devSend e.toEnv pkt) (fun _ => True) := fun c hc =>
  (Rsp.tot_devSend pkt c).mono (fun _ _ h => ⟨hI c _ hc (by rw [h]; rfl) (by rw [h]; rfl) (by rw [h]; rfl) (by rw [h]; exact lasting_refl _), trivial⟩)
    fun _ _ h => hI c _ hc (by rw [h]; rfl) (by rw [h]; rfl) (by rw [h]; rfl) (by rw [h]; exact lasting_refl _)

theorem calm_transact (hI : Stable g I) (he : Carrier e) {msg : Bytes} (hm : msg.length ≤ 4096) : Calm I (transact e none msg) (fun _ => True) := by
  unfold transact
  refine Calm.bind (P := fun _ => True) ?_ fun _ _ => ?_
  · unfold sendMessage
    refine Calm.get fun c _ => Calm.ite (fun _ => Calm.fail) fun _ => ?_
    exact (Calm.lift (he.encap msg hm)).bind fun pkt _ => calm_devSend hI pkt
  · unfold receiveMessage receive
    refine Calm.bind (P := fun p => p.length ≤ 4160) ?_ fun p hp => ?_
    · refine Calm.get fun c _ => (Calm.ofOption _).bind fun p hp => ?_
      rw [if_pos (he.recv _ p hp)]
      exact Calm.pure (he.recv _ p hp)
    · refine (Calm.lift ?_).weaken fun _ _ => trivial
      unfold Ctx.decap
      exact (he.decap p hp).bind fun r _ => safe_ite (fun _ => safe_err _) fun _ => safe_ok _

theorem tot_teardown {sid : UInt32} {s : Session} (h : s.id = sid) : (Session.teardown sid).Tot s (fun _ t => True ∧ Usable g t) (fun _ t => Usable g t) := by
  unfold Session.teardown
  refine tot_get_bind ?_
  rw [if_pos h]
  exact tot_set ⟨trivial, Usable.blank rfl rfl⟩

theorem session_id {c : Ctx} {sid : UInt32} {s : Session} (h : c.session? sid = some s) : s.id = sid := by
  unfold Ctx.session? at h
  have := List.find?_some h
  simpa using this

theorem calm_handleError (hI : Stable g I) (sid : Option UInt32) (bytes : Bytes) {Q : α → Prop} : Calm I (handleError sid bytes : M Status Ctx α) Q := by
  unfold handleError
  refine (Calm.lift (safe_read Header.read_good _)).bind fun p _ => Calm.get fun c _ => Calm.ite (fun _ => Calm.fail) fun _ => Calm.ite (fun _ => Calm.fail) fun _ => ?_
  refine (Calm.lift (safe_read (by rd_good) _)).bind fun q _ => (Calm.lift (safe_read (by rd_good) _)).bind fun q' _ => ?_
  unfold errorPayload
  refine Calm.ite (fun _ => ?_) fun _ => ?_
  · cases sid with
    | none => exact Calm.fail
    | some i => exact (calm_onSession (Q := fun _ => True) hI Calm.fail fun c s _ hs => (tot_teardown (session_id hs)).mono (fun _ _ h => ⟨h.1, fun _ => h.2⟩) fun _ _ h _ => h).bind fun _ _ => Calm.fail
  · unfold simpleError
    refine Calm.ite (fun _ => Calm.fail) fun _ => Calm.ite (fun _ => Calm.fail) fun _ => Calm.ite (fun _ => ?_) fun _ => Calm.fail
    cases sid with
    | none => exact Calm.fail
    | some i => exact (calm_onSession (Q := fun _ => True) hI Calm.fail fun c s _ _ => tot_modify ⟨trivial, fun h hs => by
      obtain ⟨h1, h2⟩ := h (hs.imp (fun h => absurd rfl h) id)
      exact ⟨⟨h1.algs, h1.hint⟩, h2⟩⟩).bind fun _ _ => Calm.fail

/-- a reader at the end of the header of `bytes`. -/
def Past (bytes : Bytes) (r : Reader) : Prop := r.used + r.rest.length = bytes.length

theorem past_header {bytes : Bytes} {h : Header} {r : Reader} (hx : Res.read .invalidMsgField Header.read (Reader.init bytes) = .ok (h, r)) : Past bytes r := by
  unfold Res.read at hx
  cases hr : Header.read (Reader.init bytes) with
  | ok a t =>
    rw [hr] at hx
    cases hx
    obtain ⟨_, h1, h2⟩ := Header.read_ok.1 hr
    unfold Past
    have : (Reader.init bytes).rest.length = _ := congrArg List.length h1
    simp only [Reader.init, List.length_append] at this h2
    omega
  | err u t => rw [hr] at hx; cases hx
  | panic => rw [hr] at hx; cases hx

theorem calm_sort (hI : Stable g I) (sid : Option UInt32) (k : ReqRespCode) (bytes : Bytes) (h : Header) {r : Reader} (hr : Past bytes r) :
    Calm I (sort sid k bytes h r) (Past bytes) := by
  unfold sort
  exact Calm.ite (fun _ => Calm.pure hr) fun _ => Calm.ite (fun _ => calm_handleError hI sid bytes) fun _ => Calm.fail

theorem calm_expect (hI : Stable g I) (sid : Option UInt32) (k : ReqRespCode) (bytes : Bytes) : Calm I (expect sid k bytes) (Past bytes) := by
  unfold expect
  exact (Calm.lift (safe_read Header.read_good _)).bind fun p hp => Calm.get fun c _ => Calm.ite (fun _ => Calm.fail) fun _ => calm_sort hI sid k bytes _ (past_header hp)

theorem calm_expectAny (hI : Stable g I) (sid : Option UInt32) (k : ReqRespCode) (bytes : Bytes) : Calm I (expectAnyVersion sid k bytes) (Past bytes) := by
  unfold expectAnyVersion
  exact (Calm.lift (safe_read Header.read_good _)).bind fun p hp => calm_sort hI sid k bytes _ (past_header hp)

theorem calm_readMsg {x : Cc → Rd α} (hx : ∀ c, I c → (x c.cc).Good) {bytes : Bytes} {r : Reader} (hr : Past bytes r) :
    Calm I (Rsp.readMsg x bytes r) (fun p => ∃ c r', I c ∧ x c.cc r = .ok p.1 r' ∧ p.2 = bytes.take r'.used) := by
  unfold Rsp.readMsg
  refine Calm.get fun c hc => (Calm.lift (safe_read (hx c hc) r)).bind fun p hp => Calm.pure ?_
  obtain ⟨a, r'⟩ := p
  refine ⟨c, r', hc, ?_, rfl⟩
  unfold Res.read at hp
  cases hk : x c.cc r with
  | ok b t => rw [hk] at hp; cases hp; rfl
  | err u t => rw [hk] at hp; cases hp
  | panic => rw [hk] at hp; cases hp

/-! ### Transcripts -/

theorem calm_appendA (hI : Stable g I) (msg : Bytes) : Calm I (Ctx.appendA msg) (fun _ => True) := by
  unfold Ctx.appendA
  exact Calm.get fun c hc => Calm.ite (fun _ => Calm.set (hI c _ hc rfl rfl rfl (lasting_refl _))) fun _ => Calm.fail

theorem calm_appendM1M2 (hI : Stable g I) (st : Status) (msg : Bytes) : Calm I (Ctx.appendM1M2 e.toEnv st msg) (fun _ => True) := by
  unfold Ctx.appendM1M2
  refine Calm.get fun c hc => ?_
  cases c.rt.m1m2 with
  | some x => exact Calm.set (hI c _ hc rfl rfl rfl (lasting_refl _))
  | none =>
    cases Ctx.hashInit e.toEnv c.neg.baseHash with
    | none => exact Calm.fail
    | some x => exact Calm.set (hI c _ hc rfl rfl rfl (lasting_refl _))

theorem calm_appendBBoth (hI : Stable g I) (sid : Option UInt32) (req rsp : Bytes) : Calm I (appendBBoth e sid req rsp) (fun _ => True) := by
  unfold appendBBoth
  cases sid with
  | none => exact (calm_appendM1M2 hI _ _).bind fun _ _ => calm_appendM1M2 hI _ _
  | some i => exact Calm.pure trivial

theorem calm_appendM (hI : Stable g I) (sid : Option UInt32) (msg : Bytes) : Calm I (Ctx.appendM e.toEnv sid msg) (fun _ => True) := by
  unfold Ctx.appendM
  refine Calm.get fun c hc => ?_
  cases sid with
  | none =>
    dsimp only
    cases c.rt.l1l2 with
    | some x => exact Calm.set (hI c _ hc rfl rfl rfl (lasting_refl _))
    | none =>
      cases Ctx.startL1L2 e.toEnv c with
      | none => exact Calm.fail
      | some x => exact Calm.set (hI c _ hc rfl rfl rfl (lasting_refl _))
  | some i =>
    dsimp only
    cases c.session? i with
    | none => exact Calm.fail
    | some s =>
      dsimp only
      cases s.l1l2 with
      | some x => exact Calm.set (hI c _ hc rfl rfl rfl (lasting_upd c i fun s _ h => h.l1l2 _))
      | none =>
        cases Ctx.startL1L2 e.toEnv c with
        | none => exact Calm.fail
        | some x => exact Calm.set (hI c _ hc rfl rfl rfl (lasting_upd c i fun s _ h => h.l1l2 _))

end Req
end Verif
