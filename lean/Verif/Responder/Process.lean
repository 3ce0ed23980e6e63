/-
Effect of one received packet and of a history of packets on the responder.
-/
import Verif.Responder.Step

namespace Verif
namespace Rsp
variable {e : Env}

/-- what the transport binding makes of a packet: the message and whether it is a secured one. -/
def received (e : Env) (rx : Bytes) : Option (Bytes × Bool) :=
  match Ctx.intoBuf2 (e.tr.decap rx) 4160 with
  | .ok p => some p
  | _ => none

/-- the packet carries the plain message `b`. -/
def Plain (e : Env) (rx b : Bytes) : Prop := received e rx = some (b, false)
/-- the packet carries a secured message for session `sid`. -/
def SecuredFor (e : Env) (rx : Bytes) (sid : UInt32) : Prop :=
  ∃ a b c d t, received e rx = some (a :: b :: c :: d :: t, true) ∧
    sid = a.toUInt32 ||| (b.toUInt32 <<< 8) ||| (c.toUInt32 <<< 16) ||| (d.toUInt32 <<< 24)

/-- session `sid` exists and is in its handshake or application phase. -/
def InUse (c : Ctx) (sid : UInt32) : Prop := ∃ s, c.session? sid = some s ∧ s.state ≠ .notStarted

/-- effect of packet `rx`. -/
inductive Step (e : Env) (rx : Bytes) (c c' : Ctx) : Prop
  | ignored : c' = c → Step e rx c c'
  | plain (v k : UInt8) (t : Bytes) : Plain e rx (v :: k :: t) → PlainStep k c c' → Step e rx c c'
  | secured (sid : UInt32) : SecuredFor e rx sid → InUse c sid → SecOnly sid c c' → Step e rx c c'

theorem rdU32_ok {b : Bytes} {x : UInt32} {r : Reader} (h : rdU32 (Reader.init b) = .ok x r) :
    ∃ a b1 c d t, b = a :: b1 :: c :: d :: t ∧ x = a.toUInt32 ||| (b1.toUInt32 <<< 8) ||| (c.toUInt32 <<< 16) ||| (d.toUInt32 <<< 24) := by
  match b, h with
  | a :: b1 :: c :: d :: t, h =>
    refine ⟨a, b1, c, d, t, rfl, ?_⟩
    have hl : ¬ (Reader.left ⟨a :: b1 :: c :: d :: t, 0⟩ < 4) := by simp [Reader.left]
    simp [rdU32, Rd.take, Reader.init, hl] at h
    rw [← h.1]
    rfl

theorem updFirst_same {sid : UInt32} {s : Session} (l : List Session) (h : l.find? (·.id = sid) = some s) :
    Ctx.updFirst (·.id = sid) (fun _ => s) l = l := by
  induction l with
  | nil => rfl
  | cons a l ih =>
    unfold Ctx.updFirst
    by_cases hp : a.id = sid
    · simp only [hp, decide_true, if_true]
      have : a = s := by simpa [hp] using h
      rw [this]
    · simp only [hp, decide_false]
      have := ih (by simpa [hp] using h)
      rw [if_neg (by decide), this]

/-- a secured record only has an effect on a session in use. -/
theorem onSession_inUse (sid : UInt32) (pkt : Bytes) (c : Ctx) :
    (Ctx.onSession sid (M.fail .invalidParameter) (Session.decodeSecured e.crypto pkt 4160 true)).wp c (fun _ _ => InUse c sid)
      (fun _ c' => c' = c ∨ InUse c sid) := by
  unfold Ctx.onSession
  rw [M.wp_bind, M.wp_get]
  split
  · exact .inl rfl
  · rename_i s hs
    by_cases hn : s.state = .notStarted
    · unfold Session.decodeSecured
      rw [Session.dispatchDir_notStarted _ _ _ hn]
      simp only [M.wp_bind, M.wp_set, M.wp_fail]
      left
      unfold Ctx.updSession
      rw [updFirst_same _ hs]
    · have hu : InUse c sid := ⟨s, hs, hn⟩
      split
      · exact hu
      · exact .inr hu
      · trivial

theorem openSecured_wp (rx pkt : Bytes) (hp : received e rx = some (pkt, true)) (c : Ctx) :
    (openSecured e pkt).wp c (fun r c' => SecuredFor e rx r.1 ∧ InUse c r.1 ∧ Frame true (some r.1) c c')
      (fun _ c' => c' = c ∨ ∃ sid, SecuredFor e rx sid ∧ InUse c sid ∧ Frame true (some sid) c c') := by
  unfold openSecured
  rw [M.wp_bind, M.wp_mapErr]
  cases hr : rdU32 (Reader.init pkt) with
  | panic => rw [M.wp]; simp only [Res.read, hr, Res.lift]
  | err x r => rw [M.wp]; simp [Res.read, hr, Res.lift]
  | ok sid r =>
    have hsid : SecuredFor e rx sid := by
      obtain ⟨a, b, c, d, t, rfl, hx⟩ := rdU32_ok hr
      exact ⟨a, b, c, d, t, hp, hx⟩
    rw [M.wp]; simp only [Res.read, hr, Res.lift]
    show M.wp _ c _ _
    refine M.wp.bind (P := fun _ c' => InUse c sid ∧ Frame true (some sid) c c') ?_ ?_
    · rw [M.wp_mapErr]
      have h1 := (Ctx.rel_onSession (k := true) sid (M.fail .invalidParameter) (Session.decodeSecured e.crypto pkt 4160 true) (M.Rel.fail _) (Session.keep_decodeSecured _ _ _ _)) c
      have h2 := onSession_inUse (e := e) sid pkt c
      refine (h1.and h2).mono (fun _ _ h => ⟨h.2, h.1⟩) fun _ _ h => ?_
      rcases h.2 with h2 | h2
      · exact .inl h2
      · exact .inr ⟨sid, hsid, h2, h.1⟩
    · rintro app c1 ⟨hu, h1⟩
      rw [M.wp_bind, M.wp_mapErr]
      cases hi : Ctx.intoBuf2 (e.tr.decapApp app) msgSize with
      | panic => trivial
      | err st => exact .inr ⟨sid, hsid, hu, h1⟩
      | ok p => exact ⟨hsid, hu, h1⟩

/-- what a packet carrying a secured message does. -/
theorem process_secured {pkt : Bytes} (rx : Bytes) (hrec : received e rx = some (pkt, true)) (c : Ctx) :
    (processMessage e rx).wp c (fun _ c' => c' = c ∨ ∃ sid, SecuredFor e rx sid ∧ InUse c sid ∧ SecOnly sid c c')
      (fun _ c' => c' = c ∨ ∃ sid, SecuredFor e rx sid ∧ InUse c sid ∧ SecOnly sid c c') := by
  have hd : Ctx.intoBuf2 (e.tr.decap rx) 4160 = .ok (pkt, true) := by
    unfold received at hrec
    split at hrec
    · rename_i p hp; cases hrec; exact hp
    · simp at hrec
  unfold processMessage
  rw [M.wp_bind, M.wp_mapErr, hd, M.wp]
  simp only [Res.lift]
  show M.wp _ c _ _
  rw [M.wp_ite]
  refine ⟨fun hs => ?_, fun hs => absurd trivial hs⟩
  rw [M.wp_bind]
  refine (openSecured_wp rx pkt hrec c).mono ?_ ?_
  · rintro ⟨sid, msg, isApp⟩ c1 ⟨h1, hu, h2⟩
    dsimp only at h1 hu h2 ⊢
    have hgo : ∀ x : M Status Ctx Unit, M.Rel (SecOnly sid) x → (isOk x : M Unit Ctx Bool).wp c1
        (fun _ c' => c' = c ∨ ∃ sid, SecuredFor e rx sid ∧ InUse c sid ∧ SecOnly sid c c') (fun _ c' => c' = c ∨ ∃ sid, SecuredFor e rx sid ∧ InUse c sid ∧ SecOnly sid c c') := by
      intro x hx
      exact (rel_isOk hx c1).mono (fun _ _ h => .inr ⟨sid, h1, hu, M.Pre.trans h2.secOnly h⟩) fun _ _ h => .inr ⟨sid, h1, hu, M.Pre.trans h2.secOnly h⟩
    split
    · exact hgo _ (rel_dispatchApp _)
    · exact hgo _ (rel_dispatchSecured _)
  · rintro _ c1 (rfl | ⟨sid, h1, hu, h2⟩)
    · exact .inl rfl
    · exact .inr ⟨sid, h1, hu, h2.secOnly⟩

theorem process_plain {b : Bytes} (rx : Bytes) (hrec : Plain e rx b) (c : Ctx) : processMessage e rx c = isOk (dispatch e b) c := by
  have hd : Ctx.intoBuf2 (e.tr.decap rx) 4160 = .ok (b, false) := by
    unfold Plain received at hrec
    split at hrec
    · rename_i p hp; cases hrec; exact hp
    · simp at hrec
  unfold processMessage
  simp [hd, Res.lift, M.mapErr]

/-- effect of one received packet. -/
theorem process_step (hl : HashLaw e) (rx : Bytes) (c : Ctx) :
    (processMessage e rx).wp c (fun _ => Step e rx c) (fun _ => Step e rx c) := by
  cases hrec : received e rx with
  | none =>
    unfold received at hrec
    unfold processMessage
    rw [M.wp_bind, M.wp_mapErr]
    cases hd : Ctx.intoBuf2 (e.tr.decap rx) 4160 with
    | panic => trivial
    | err st => exact .ignored rfl
    | ok p => rw [hd] at hrec; simp at hrec
  | some p =>
    obtain ⟨pkt, sec⟩ := p
    cases sec with
    | true =>
      refine (process_secured rx hrec c).mono ?_ ?_ <;>
      · rintro _ c' (rfl | ⟨sid, h1, hu, h2⟩)
        · exact .ignored rfl
        · exact .secured sid h1 hu h2
    | false =>
      rw [M.wp, process_plain rx hrec]
      match pkt, hrec with
      | [], _ => simp only [isOk, dispatch_short (show ([] : Bytes).length < 2 by decide)]; exact .ignored rfl
      | [a], _ => simp only [isOk, dispatch_short (show [a].length < 2 by simp)]; exact .ignored rfl
      | v :: k :: t, hrec =>
        have h := dispatch_step hl v k t c
        rw [M.wp] at h
        unfold isOk
        cases hx : dispatch e (v :: k :: t) c with
        | ok a c' => rw [hx] at h; exact .plain v k t hrec h
        | err a c' => rw [hx] at h; exact .plain v k t hrec h
        | panic => trivial

theorem SecuredFor.unique {rx : Bytes} {i j : UInt32} (h : SecuredFor e rx i) (h' : SecuredFor e rx j) : i = j := by
  obtain ⟨a, b, c, d, t, h1, rfl⟩ := h
  obtain ⟨a', b', c', d', t', h2, rfl⟩ := h'
  rw [h1] at h2
  simp only [Option.some.injEq, Prod.mk.injEq, List.cons.injEq, and_true] at h2
  obtain ⟨rfl, rfl, rfl, rfl, rfl⟩ := h2
  rfl

/-! ### Sending in a session -/

theorem updFirst_const {sid : UInt32} {f : Session → Session} {s : Session} (l : List Session) (h : l.find? (·.id = sid) = some s) :
    Ctx.updFirst (·.id = sid) (fun _ => f s) l = Ctx.updFirst (·.id = sid) f l := by
  induction l with
  | nil => rfl
  | cons a l ih =>
    unfold Ctx.updFirst
    by_cases hp : a.id = sid
    · simp only [hp, decide_true, if_true]
      have : a = s := by simpa [hp] using h
      rw [this]
    · simp only [hp, decide_false]
      have := ih (by simpa [hp] using h)
      rw [if_neg (by decide), if_neg (by decide), this]

/-- a message was (possibly) sent in session `sid`: that session's outgoing sequence number may have moved on, nothing else
changed. -/
def SentIn (sid : UInt32) (c c' : Ctx) : Prop :=
  ∃ l sent, (l = c.sessions ∨ l = Ctx.updFirst (·.id = sid) (·.bump false) c.sessions) ∧ c.sent <+: sent ∧
    c' = { c with sessions := l, sent := sent }

theorem encodeSecured_sentIn (sid : UInt32) (msg : Bytes) (isApp : Bool) (c : Ctx) :
    (Ctx.encodeSecured e sid msg false isApp).wp c (fun _ => SentIn sid c) (fun _ => SentIn sid c) := by
  have hr : SentIn sid c c := ⟨_, _, .inl rfl, List.prefix_refl _, rfl⟩
  unfold Ctx.encodeSecured
  rw [M.wp_bind]
  cases Ctx.intoBuf (e.tr.encapApp msg isApp) 4160 with
  | err st => exact hr
  | panic => trivial
  | ok app =>
    rw [M.wp]; simp only [Res.lift]
    show M.wp _ c _ _
    rw [M.wp_bind]
    unfold Ctx.onSession
    rw [M.wp_bind, M.wp_get]
    split
    · exact hr
    · rename_i s hs
      have hb : SentIn sid c (c.updSession sid fun _ => s.bump false) := by
        refine ⟨_, _, .inr rfl, List.prefix_refl _, ?_⟩
        unfold Ctx.updSession
        rw [updFirst_const (f := (·.bump false)) _ hs]
      have hb' : SentIn sid c (c.updSession sid fun _ => s) := by
        refine ⟨_, _, .inl rfl, List.prefix_refl _, ?_⟩
        unfold Ctx.updSession
        rw [updFirst_const (f := fun s => s) _ hs]
        congr 1
        generalize c.sessions = l
        induction l with
        | nil => rfl
        | cons a l ih => unfold Ctx.updFirst; rw [ih]; split <;> rfl
      split
      · rename_i a s' hx
        obtain ⟨_, _, rfl⟩ := Session.dispatchDir_ok.1 hx
        rw [M.wp_bind, M.wp_set, M.wp_pure]
        cases Ctx.intoBuf (e.tr.encap a true) 4160 with
        | ok p => exact hb
        | err st => exact hb
        | panic => trivial
      · rename_i st s' hx
        rw [M.wp_bind, M.wp_set, M.wp_fail]
        rcases Session.dispatchDir_err hx with ⟨_, rfl⟩ | ⟨_, _, rfl⟩
        · exact hb'
        · exact hb
      · trivial

theorem sendSecuredPlain_sentIn (sid : UInt32) {b : Bytes} {k : UInt8} (hb : Starts k b) (hk : k ≠ 0x6C ∧ k ≠ 0x65 ∧ k ≠ 0x67) (isApp : Bool) (c : Ctx) :
    (sendSecuredPlain e sid b isApp).wp c (fun _ => SentIn sid c) (fun _ => SentIn sid c) := by
  unfold sendSecuredPlain
  refine M.wp.bind (encodeSecured_sentIn sid b isApp c) ?_
  rintro pkt c1 ⟨l, sent, hl, hsent, rfl⟩
  have hfin : SentIn sid c { c with sessions := l, sent := sent ++ [pkt] } :=
    ⟨l, sent ++ [pkt], hl, hsent.trans (List.prefix_append _ _), rfl⟩
  unfold Ctx.devSend
  rw [M.wp_bind, M.wp_bind, M.wp_get, M.wp_bind, M.wp_set]
  split
  · rw [M.wp_pure, hb.get, M.wp_bind, M.wp_unwrap]
    intro a ha
    cases ha
    unfold afterSecured
    have h2 : ¬ (k = ReqRespCode.rspFinishRsp.get ∨ k = ReqRespCode.rspPskFinishRsp.get) := by
      rintro (h | h)
      · exact hk.2.1 h
      · exact hk.2.2 h
    rw [if_neg (show ¬ k = ReqRespCode.rspEndSessionAck.get from hk.1), if_neg h2]
    exact hfin
  · exact hfin

/-- sending an ERROR (or any message that does not change the phase) in a session. -/
theorem sendSecured_sentIn (sid : UInt32) {b : Bytes} {k : UInt8} (hb : Starts k b) (hk : k ≠ 0x6C ∧ k ≠ 0x65 ∧ k ≠ 0x67) (isApp : Bool) (c : Ctx) :
    (sendSecured e sid b isApp).wp c (fun _ => SentIn sid c) (fun _ => SentIn sid c) := by
  unfold sendSecured
  rw [M.wp_bind, M.wp_get, M.wp_ite]
  refine ⟨fun _ => ?_, fun _ => sendSecuredPlain_sentIn sid hb hk isApp c⟩
  rw [writeError_nil c { code := .responseTooLarge } rfl, M.wp_bind, M.wp_unwrap]
  intro a ha
  cases ha
  rw [M.wp_ite]
  exact ⟨fun _ => trivial, fun _ => sendSecuredPlain_sentIn sid (starts_error _ _ _) (by decide) isApp c⟩

/-- a history: packets received one after the other, each with the environment of that step. -/
inductive Run (c0 : Ctx) : List (Env × Bytes) → Ctx → Prop
  | nil : Run c0 [] c0
  | ok {h e rx c b c'} : Run c0 h c → processMessage e rx c = .ok b c' → Run c0 (h ++ [(e, rx)]) c'
  | err {h e rx c u c'} : Run c0 h c → processMessage e rx c = .err u c' → Run c0 (h ++ [(e, rx)]) c'

theorem Run.induct {c0 : Ctx} {P : List (Env × Bytes) → Ctx → Prop} (h0 : P [] c0)
    (hs : ∀ h e rx c c', Run c0 h c → HashLaw e → P h c → Step e rx c c' → P (h ++ [(e, rx)]) c') {h : List (Env × Bytes)} {c : Ctx}
    (hr : Run c0 h c) (hl : ∀ p ∈ h, HashLaw p.1) : P h c := by
  induction hr with
  | nil => exact h0
  | ok hr hp ih =>
    rename_i h e rx c b c'
    have hle : HashLaw e := hl (e, rx) (by simp)
    exact hs _ _ _ _ _ hr hle (ih fun p hp => hl p (by simp [hp])) ((process_step hle rx c).ok hp)
  | err hr hp ih =>
    rename_i h e rx c b c'
    have hle : HashLaw e := hl (e, rx) (by simp)
    exact hs _ _ _ _ _ hr hle (ih fun p hp => hl p (by simp [hp])) ((process_step hle rx c).err hp)

end Rsp
end Verif
