/-
What the responder sends is as large as the requester allows.
-/
import Verif.Responder.Unsent
import Verif.Responder.Process
import Verif.Responder.InSession

namespace Verif

/-- Packet `p` carries message `m`: in the clear, or sealed in a record of some session, as SPDM message or as application data. -/
def Carried (e : Env) (m : Bytes) (isApp : Bool) (p : Bytes) : Prop :=
  (isApp = false ∧ Ctx.encap e m = .ok p) ∨
  ∃ (s : Session) (app rec : Bytes) (d : Bool), Ctx.intoBuf (e.tr.encapApp m isApp) 4160 = .ok app ∧ Session.encodeMsg e.crypto s app 4160 (s.dir d) = .ok rec ∧
    Ctx.intoBuf (e.tr.encap rec true) 4160 = .ok p

/-- Packet `p` carries a message of at most `size` bytes; 0 is no limit, and there is none for application data. -/
def Within (e : Env) (size : UInt32) (p : Bytes) : Prop :=
  ∃ m isApp, Carried e m isApp p ∧ (isApp = true ∨ size = 0 ∨ m.length ≤ size.toNat)

namespace Rsp

variable {e : Env}

/-- at most `n` packets were sent, all within the limit the requester set. -/
def Passed (e : Env) (n : Nat) (c c' : Ctx) : Prop :=
  c'.neg = c.neg ∧ ∃ l, l.length ≤ n ∧ c'.sent = c.sent ++ l ∧ ∀ p ∈ l, Within e c.neg.reqDts p

theorem Passed.refl (n : Nat) (c : Ctx) : Passed e n c c := ⟨rfl, [], Nat.zero_le _, by simp, by simp⟩
theorem Passed.one {n : Nat} {c : Ctx} {c1 : Ctx} {p : Bytes} (h1 : c1.neg = c.neg) (h2 : c1.sent = c.sent ++ [p]) (hp : Within e c.neg.reqDts p) : Passed e (n + 1) c c1 :=
  ⟨h1, [p], by simp, h2, by simpa using hp⟩
theorem Passed.trans {m n : Nat} {a b c : Ctx} (h : Passed e m a b) (h' : Passed e n b c) : Passed e (m + n) a c := by
  obtain ⟨h1, l, h2, h3, h4⟩ := h
  obtain ⟨g1, k, g2, g3, g4⟩ := h'
  refine ⟨g1.trans h1, l ++ k, by simp; omega, by rw [g3, h3, List.append_assoc], fun p hp => ?_⟩
  rcases List.mem_append.1 hp with hp | hp
  · exact h4 p hp
  · rw [h1] at g4; exact g4 p hp
theorem Passed.mono {m n : Nat} {a b : Ctx} (h : Passed e m a b) (hmn : m ≤ n) : Passed e n a b := by
  obtain ⟨h1, l, h2, h3⟩ := h
  exact ⟨h1, l, by omega, h3⟩

/-- nothing sent, parameters kept. -/
def Silent (c c' : Ctx) : Prop := c'.neg = c.neg ∧ c'.sent = c.sent
instance : M.Pre Silent where
  refl _ := ⟨rfl, rfl⟩
  trans h h' := ⟨h'.1.trans h.1, h'.2.trans h.2⟩

theorem Passed.still {n : Nat} {a b c : Ctx} (h : Passed e n a b) (h' : Silent b c) : Passed e n a c := by
  obtain ⟨h1, l, h2, h3, h4⟩ := h
  exact ⟨h'.1.trans h1, l, h2, h'.2.trans h3, h4⟩

theorem still_onSession {α : Type} (i : UInt32) {missing : M Status Ctx α} (x : M Status Session α) (hm : M.Rel Silent missing) : M.Rel Silent (Ctx.onSession i missing x) := by
  intro c
  unfold Ctx.onSession
  simp only [M.wp_bind, M.wp_get]
  split
  · exact hm c
  · split
    · exact ⟨rfl, rfl⟩
    · exact ⟨rfl, rfl⟩
    · trivial

theorem still_setState (st : ConnState) : M.Rel Silent (setState st : M Status Ctx Unit) := M.Rel.modify fun _ => ⟨rfl, rfl⟩

theorem still_afterSend (op : UInt8) : M.Rel Silent (afterSend op) := by
  unfold afterSend
  repeat' (first
    | exact still_setState _ | exact M.Rel.pure _ | exact M.Rel.get | exact M.Rel.unwrap _
    | exact M.Rel.modify fun _ => ⟨rfl, rfl⟩ | exact still_onSession _ _ M.Rel.panic
    | apply M.Rel.ite | apply M.Rel.bind | intro _)

theorem still_afterSecured (sid : UInt32) (op : UInt8) : M.Rel Silent (afterSecured sid op) := by
  unfold afterSecured
  repeat' (first
    | exact M.Rel.pure _ | exact still_onSession _ _ M.Rel.panic
    | apply M.Rel.ite | intro _)

/-- run `x` from `c`: at most `n` packets within the limit, whatever the result. -/
def Passing (e : Env) (n : Nat) {ε α : Type} (x : M ε Ctx α) : Prop := ∀ c, x.wp c (fun _ => Passed e n c) (fun _ => Passed e n c)

theorem out_devSend {p : Bytes} {c0 c : Ctx} (hs : Silent c0 c) (hp : Within e c0.neg.reqDts p) :
    (Ctx.devSend e p).wp c (fun _ => Passed e 1 c0) (fun _ => Passed e 1 c0) := by
  unfold Ctx.devSend
  simp only [M.wp_bind, M.wp_get, M.wp_set]
  have : Passed e 1 c0 { c with sent := c.sent ++ [p] } := Passed.one hs.1 (by show c.sent ++ [p] = _; rw [hs.2]) hp
  cases e.send c.sent.length p with
  | none => exact this
  | some st => exact this

theorem out_sendPlain {b : Bytes} {c : Ctx} (h : c.neg.reqDts = 0 ∨ b.length ≤ c.neg.reqDts.toNat) : (sendPlain e b).wp c (fun _ => Passed e 1 c) (fun _ => Passed e 1 c) := by
  unfold sendPlain
  rw [M.wp_bind]
  cases hp : Ctx.encap e b with
  | err st => exact Passed.refl _ _
  | panic => trivial
  | ok pkt =>
    show M.wp (Ctx.devSend e pkt >>= _) c _ _
    rw [M.wp_bind]
    refine (out_devSend (M.Pre.refl (R := Silent) c) ⟨b, false, .inl ⟨rfl, hp⟩, .inr h⟩).mono (fun _ c1 h1 => ?_) (fun _ _ h => h)
    rw [M.wp_bind]
    cases b[1]? with
    | none => trivial
    | some op => exact (still_afterSend op c1).mono (fun _ _ h => h1.still h) (fun _ _ h => h1.still h)

theorem large {c : Ctx} {b : Bytes} (h : tooLarge c b = false) : c.neg.reqDts = 0 ∨ b.length ≤ c.neg.reqDts.toNat := by
  unfold tooLarge at h
  simp at h
  by_cases h0 : c.neg.reqDts = 0
  · exact .inl h0
  · exact .inr (h h0)

theorem out_sendMessage (b : Bytes) : Passing e 1 (sendMessage e b) := by
  intro c
  unfold sendMessage
  rw [M.wp_bind, M.wp_get]
  cases ht : tooLarge c b with
  | false => simp only [Bool.false_eq_true, if_false]; exact out_sendPlain (large ht)
  | true =>
    simp only [if_true]
    rw [M.wp_bind, M.wp_unwrap]
    intro err _
    cases ht' : tooLarge c err with
    | true => trivial
    | false => simp only [Bool.false_eq_true, if_false]; exact out_sendPlain (large ht')

theorem still_encodeSecured (sid : UInt32) (msg : Bytes) (isApp : Bool) : M.Rel Silent (Ctx.encodeSecured e sid msg false isApp) := by
  unfold Ctx.encodeSecured
  repeat' (first | exact M.Rel.lift _ | exact still_onSession _ _ (M.Rel.fail _) | apply M.Rel.bind | intro _)

theorem carried_of {sid : UInt32} {msg pkt : Bytes} {isReq isApp : Bool} {c c1 : Ctx} (h : Ctx.encodeSecured e sid msg isReq isApp c = .ok pkt c1) : Carried e msg isApp pkt := by
  unfold Ctx.encodeSecured at h
  obtain ⟨app, c2, h3, g2⟩ := M.bind_ok.1 h
  obtain ⟨h3', rfl⟩ := liftOk.1 h3
  obtain ⟨enc, c3, h4, g3⟩ := M.bind_ok.1 g2
  obtain ⟨g3', rfl⟩ := liftOk.1 g3
  cases hs : c2.session? sid with
  | none => simp [Ctx.onSession, hs] at h4
  | some s =>
    obtain ⟨s', h5, rfl⟩ := onSession_ok hs h4
    obtain ⟨k1, k2, rfl⟩ := Session.dispatchDir_ok.1 h5
    exact .inr ⟨s, app, enc, isReq, h3', k2, g3'⟩

theorem out_sendSecuredPlain {sid : UInt32} {b : Bytes} {isApp : Bool} {c : Ctx} (h : isApp = true ∨ c.neg.reqDts = 0 ∨ b.length ≤ c.neg.reqDts.toNat) :
    (sendSecuredPlain e sid b isApp).wp c (fun _ => Passed e 1 c) (fun _ => Passed e 1 c) := by
  unfold sendSecuredPlain
  rw [M.wp_bind]
  have hs := still_encodeSecured (e := e) sid b isApp c
  cases hp : Ctx.encodeSecured e sid b false isApp c with
  | panic => unfold M.wp; rw [hp]; trivial
  | err st c1 =>
    have h1 := hs.err hp
    unfold M.wp; rw [hp]
    exact (Passed.refl 1 c).still h1
  | ok pkt c1 =>
    have h1 := hs.ok hp
    unfold M.wp; rw [hp]
    show M.wp _ c1 _ _
    rw [M.wp_bind]
    refine (out_devSend h1 ⟨b, isApp, carried_of hp, h⟩).mono (fun _ c2 h2 => ?_) (fun _ _ h => h)
    rw [M.wp_bind]
    cases b[1]? with
    | none => trivial
    | some op => exact (still_afterSecured sid op c2).mono (fun _ _ h => h2.still h) (fun _ _ h => h2.still h)

theorem out_sendSecured (sid : UInt32) (b : Bytes) (isApp : Bool) : Passing e 1 (sendSecured e sid b isApp) := by
  intro c
  unfold sendSecured
  rw [M.wp_bind, M.wp_get]
  by_cases ht : isApp = false ∧ tooLarge c b = true
  · rw [if_pos ht, M.wp_bind, M.wp_unwrap]
    intro err _
    cases ht' : tooLarge c err with
    | true => trivial
    | false => simp only [Bool.false_eq_true, if_false]; exact out_sendSecuredPlain (.inr (large ht'))
  · rw [if_neg ht]
    refine out_sendSecuredPlain ?_
    cases isApp with
    | true => exact .inl rfl
    | false =>
      refine .inr (large ?_)
      cases hl : tooLarge c b with
      | false => rfl
      | true => exact absurd ⟨rfl, hl⟩ ht

theorem out_send (sid : Option UInt32) (b : Bytes) : Passing e 1 (send e sid b) := by
  cases sid with
  | none => exact out_sendMessage b
  | some i => exact out_sendSecured i b false

theorem out_sendError {ε : Type} (code : ErrorCode) : Passing e 1 (sendError e code : M ε Ctx Unit) := by
  intro c
  unfold sendError
  rw [M.wp_bind, M.wp_get, M.wp_bind, M.wp_unwrap]
  intro b _
  have := out_sendMessage (e := e) b c
  unfold quiet M.wp
  dsimp only
  cases hx : sendMessage e b c with
  | ok a c' => exact this.ok hx
  | err a c' => exact this.err hx
  | panic => trivial

/-- parameters may be set first, then at most `n` packets are sent, within the limit then in force. -/
def Sends (e : Env) (n : Nat) (c c' : Ctx) : Prop := ∃ c1, Unsent c c1 ∧ Passed e n c1 c'

/-- run `x` from any context: whatever the result, at most `n` packets were sent. -/
def Sending (e : Env) (n : Nat) {ε α : Type} (x : M ε Ctx α) : Prop := ∀ c, x.wp c (fun _ => Sends e n c) (fun _ => Sends e n c)

theorem Sends.refl (n : Nat) (c : Ctx) : Sends e n c c := ⟨c, M.Pre.refl (R := Unsent) c, Passed.refl _ _⟩

theorem Passing.sending {ε α : Type} {n : Nat} {x : M ε Ctx α} (h : Passing e n x) : Sending e n x := fun c =>
  (h c).mono (fun _ _ h => ⟨c, M.Pre.refl (R := Unsent) c, h⟩) (fun _ _ h => ⟨c, M.Pre.refl (R := Unsent) c, h⟩)

theorem Sending.mono {ε α : Type} {m n : Nat} {x : M ε Ctx α} (h : Sending e m x) (hmn : m ≤ n) : Sending e n x := fun c =>
  (h c).mono (fun _ _ ⟨c1, h1, h2⟩ => ⟨c1, h1, h2.mono hmn⟩) (fun _ _ ⟨c1, h1, h2⟩ => ⟨c1, h1, h2.mono hmn⟩)

theorem sending_unsent {ε α : Type} {n : Nat} {x : M ε Ctx α} (h : M.Rel Unsent x) : Sending e n x := fun c =>
  (h c).mono (fun _ c' h => ⟨c', h, Passed.refl _ _⟩) (fun _ c' h => ⟨c', h, Passed.refl _ _⟩)

/-- nothing is sent by `x`, the rest is up to `g`. -/
theorem sending_after {ε α β : Type} {n : Nat} {x : M ε Ctx α} {g : α → M ε Ctx β} (h : M.Rel Unsent x) (hg : ∀ a, Sending e n (g a)) : Sending e n (x >>= g) := fun c => by
  rw [M.wp_bind]
  refine (h c).mono (fun a c1 h1 => ?_) (fun _ c' h => ⟨c', h, Passed.refl _ _⟩)
  refine (hg a c1).mono (fun _ c' h => ?_) (fun _ c' h => ?_) <;>
  · obtain ⟨c2, h2, h3⟩ := h
    exact ⟨c2, M.Pre.trans (R := Unsent) h1 h2, h3⟩

/-- `x` sends, then `g` sends more. -/
theorem sending_more {ε α β : Type} {m n : Nat} {x : M ε Ctx α} {g : α → M ε Ctx β} (h : Sending e m x) (hg : ∀ a, Passing e n (g a)) : Sending e (m + n) (x >>= g) := fun c => by
  rw [M.wp_bind]
  refine (h c).mono (fun a c1 h1 => ?_) (fun _ c' h => ?_)
  · obtain ⟨c2, h2, h3⟩ := h1
    exact (hg a c1).mono (fun _ c' h => ⟨c2, h2, h3.trans h⟩) (fun _ c' h => ⟨c2, h2, h3.trans h⟩)
  · obtain ⟨c2, h2, h3⟩ := h
    exact ⟨c2, h2, h3.mono (Nat.le_add_right _ _)⟩

theorem sending_reply {n : Nat} {x : H Bytes} (h : Sending e n x) : Sending e n (reply x) := fun c => by
  have := h c
  unfold reply M.wp
  dsimp only
  cases hx : x c with
  | ok b c' => exact this.ok hx
  | panic => trivial
  | err r c' =>
    dsimp only
    cases writeError c' r with
    | none => trivial
    | some b => exact this.err hx

theorem unsent_reply {x : H Bytes} (h : M.Rel Unsent x) : M.Rel Unsent (reply x) := fun c => by
  have := h c
  unfold reply M.wp
  dsimp only
  cases hx : x c with
  | ok b c' => exact this.ok hx
  | panic => trivial
  | err r c' =>
    dsimp only
    cases writeError c' r with
    | none => trivial
    | some b => exact this.err hx

/-! ### the handlers -/

theorem ns_encodeVersion : M.Rel Unsent encodeVersion := fun c => by
  unfold encodeVersion M.wp
  dsimp only
  cases Msg.encode c.cc _ _ <;> first | trivial | exact (rfl : Unsent c c)

theorem ns_versionRsp (bytes : Bytes) : M.Rel Unsent (versionRsp bytes) := by
  unfold versionRsp
  refine M.Rel.bind (ns_header _) fun ⟨h, r⟩ => ?_
  dsimp only
  refine M.Rel.ite (fun _ => M.Rel.fail _) fun _ => ?_
  refine M.Rel.bind (ns_resetBuffers _ _) fun _ => M.Rel.bind (ns_readReq _ _ _) fun ⟨_, req⟩ => ?_
  refine M.Rel.bind (ns_modify fun _ => rfl) fun _ => M.Rel.bind (ns_orUnspecified (ns_appendA _)) fun _ => ?_
  exact M.Rel.bind ns_encodeVersion fun rsp => M.Rel.bind (ns_orAppended (ns_appendA _)) fun _ => M.Rel.pure _

theorem ns_exchangeStart (bytes : Bytes) : M.Rel Unsent (exchangeStart bytes) := by
  unfold exchangeStart; rel

theorem ns_orTeardown {α : Type} (sid : UInt32) {x : M Status Ctx α} (h : M.Rel Unsent x) : M.Rel Unsent (orTeardown sid x) := by
  unfold orTeardown
  refine M.Rel.bind (M.Rel.try' h) fun r => ?_
  cases r with
  | ok a => exact M.Rel.pure _
  | error _ => exact M.Rel.bind (ns_onSession _ _ _ M.Rel.panic) fun _ => M.Rel.fail _

theorem ns_responseHmac (sid : UInt32) : M.Rel Unsent (responseHmac e sid) := by
  unfold responseHmac
  unsent
  all_goals refine ns_orTeardown _ ?_
  · exact M.Rel.lift _
  · exact ns_appendK _

theorem ns_keyExchangeSig (sid : UInt32) : M.Rel Unsent (keyExchangeSig e sid) := by
  unfold keyExchangeSig; unsent

theorem ns_keyExchangePatch (sid : UInt32) (b : Bool) (asym hs : Nat) (sig rsp : Bytes) : M.Rel Unsent (keyExchangePatch e sid b asym hs sig rsp) := by
  unfold keyExchangePatch
  have := ns_responseHmac (e := e) sid
  unsent

theorem ns_keyExchangeBody (m : KeyEx) (req : Bytes) (sid : UInt32) (rspId : UInt16) (a b o : Bytes) : M.Rel Unsent (keyExchangeBody e m req sid rspId a b o) := by
  unfold keyExchangeBody rememberSession
  have := ns_keyExchangeSig (e := e) sid
  unsent
  all_goals first | exact ns_modify fun _ => rfl | exact ns_keyExchangePatch _ _ _ _ _ _

theorem ns_keyExchangeRsp (bytes : Bytes) : M.Rel Unsent (keyExchangeRsp e bytes) := by
  unfold keyExchangeRsp
  have := ns_exchangeStart bytes
  unsent
  all_goals first | exact ns_modify fun _ => rfl | exact ns_keyExchangeBody _ _ _ _ _ _ _

theorem ns_pskEstablish (b : Bool) (sid : UInt32) : M.Rel Unsent (pskEstablish e b sid) := by
  unfold pskEstablish
  refine M.Rel.ite (fun _ => M.Rel.pure _) fun _ => M.Rel.bind (ns_thOf _) fun th => fun c => ?_
  simp only [M.wp_bind, M.wp_get]
  rw [M.wp_unwrap]
  intro s _
  cases Session.genData e.crypto c.neg.version th s with
  | ok a s' => exact (rfl : Unsent c _)
  | err a s' => trivial
  | panic => trivial

theorem ns_pskExchangeBody (req : Bytes) (sid : UInt32) (rspId : UInt16) (a b o : Bytes) : M.Rel Unsent (pskExchangeBody e req sid rspId a b o) := by
  unfold pskExchangeBody
  have := ns_responseHmac (e := e) sid
  unsent
  all_goals exact ns_pskEstablish _ _

theorem ns_pskExchangeRsp (bytes : Bytes) : M.Rel Unsent (pskExchangeRsp e bytes) := by
  unfold pskExchangeRsp pskContext
  have := ns_exchangeStart bytes
  unsent
  all_goals exact ns_pskExchangeBody _ _ _ _ _ _

theorem sends_errorThen (rsp : Bytes) : Sending e 1 (sendError e .unspecified >>= fun _ => pure rsp : H Bytes) :=
  sending_more (m := 1) (n := 0) (x := sendError e .unspecified) (g := fun _ => pure rsp) (out_sendError .unspecified).sending
    (fun _ c => (Passed.refl 0 c : Passed e 0 c c))

theorem sends_finishChallenge (asym : Nat) (rsp : Bytes) : Sending e 1 (finishChallenge e asym rsp) := by
  intro c
  unfold finishChallenge
  rw [M.wp_bind, M.wp_get]
  cases challengeSig e c with
  | panic => trivial
  | err st =>
    dsimp only
    exact sends_errorThen rsp c
  | ok sig =>
    dsimp only
    refine sending_unsent ?_ c
    unsent
    all_goals exact ns_modify fun _ => rfl

theorem sends_challengeRsp (bytes : Bytes) : Sending e 1 (challengeRsp e bytes) := by
  unfold challengeRsp
  refine sending_after ns_afterNegotiation fun _ => sending_after (ns_checkVersion _) fun r => ?_
  refine sending_after (ns_resetBuffers _ _) fun _ => sending_after (ns_readReq _ _ _) fun ⟨m, req⟩ => ?_
  dsimp only
  refine sending_after (ns_summaryHash _) fun _ => sending_after (M.Rel.ofOption _ _) fun sum => sending_after M.Rel.get fun c => ?_
  refine sending_after (M.Rel.ofOption _ _) fun chain => sending_after (ns_orUnspecified (ns_appendC _)) fun _ => ?_
  refine sending_after (M.Rel.unwrap _) fun ch => sending_after (M.Rel.ofOption _ _) fun nonce => sending_after (M.Rel.unwrap _) fun asym => ?_
  refine sending_after (ns_encodeRsp _ _) fun rsp => sending_after (ns_liftH _ _) fun body => sending_after (ns_orAppended (ns_appendC _)) fun _ => ?_
  exact sends_finishChallenge _ _

theorem sends_finishMeasurement (sid : Option UInt32) (b : Bool) (asym : Nat) (rsp : Bytes) : Sending e 1 (finishMeasurement e sid b asym rsp) := by
  unfold finishMeasurement
  cases b with
  | false =>
    rw [if_neg (by simp)]
    exact sending_unsent (by unsent)
  | true =>
    rw [if_pos rfl]
    refine sending_after (by unsent) fun body => sending_after (by unsent) fun _ => sending_after (by unsent) fun c => ?_
    cases measurementSig e sid c with
    | panic => exact fun _ => trivial
    | err st => exact sends_errorThen rsp
    | ok sig =>
      refine sending_unsent ?_
      unsent
      all_goals exact ns_modify fun c => sent_resetM _ c

theorem ns_measureBlocks (c : Ctx) (op : MeasOperation) : M.Rel Unsent (measureBlocks e c op) := by
  unfold measureBlocks
  refine M.Rel.bind (M.Rel.unwrap _) fun t => ?_
  cases op <;> (dsimp only; unsent)

theorem ns_measurementSlot (m : GetMeas) : M.Rel Unsent (measurementSlot m) := by
  unfold measurementSlot
  unsent
  all_goals exact ns_modify fun _ => rfl

theorem sends_measurementRsp (sid : Option UInt32) (bytes : Bytes) : Sending e 1 (measurementRsp e sid bytes) := by
  unfold measurementRsp
  refine sending_after ns_afterNegotiation fun _ => sending_after (ns_checkVersion _) fun r => ?_
  refine sending_after (ns_resetBuffers _ _) fun _ => sending_after (ns_readReq _ _ _) fun ⟨m, req⟩ => ?_
  dsimp only
  refine sending_after M.Rel.get fun c => sending_after (M.Rel.unwrap _) fun asym => sending_after (ns_measurementSlot _) fun _ => ?_
  refine sending_after (ns_orUnspecified (ns_appendM _)) fun _ => sending_after (ns_measureBlocks _ _) fun ⟨number, record⟩ => ?_
  dsimp only
  refine sending_after (M.Rel.ofOption _ _) fun nonce => sending_after (ns_encodeRsp _ _) fun rsp => ?_
  exact sends_finishMeasurement _ _ _ _

theorem sends_handleError (code : ErrorCode) (sid : Option UInt32) (bytes : Bytes) : Sending e 1 (handleError e code sid bytes) :=
  sending_after (unsent_reply (ns_errorResponse _ _)) fun b => (out_send sid b).sending

theorem sends_handleFinish (sid : UInt32) (bytes : Bytes) : Sending e 1 (handleFinish e sid bytes) := by
  unfold handleFinish
  refine sending_after M.Rel.get fun c => sending_after (ns_finishRsp _) fun b => ?_
  split
  · exact (out_sendMessage b).sending
  · exact (out_sendSecured sid b false).sending

theorem sends_plainFinish (bytes : Bytes) : Sending e 1 (plainFinish e bytes) := by
  unfold plainFinish
  refine sending_after M.Rel.get fun c => ?_
  cases (if c.cc.inClear then c.rt.lastSession else none) with
  | none => exact sends_handleError _ _ _
  | some sid =>
    dsimp only
    cases c.session? sid with
    | none => exact sends_handleError _ _ _
    | some s =>
      dsimp only
      split
      · exact sends_handleFinish _ _
      · exact sends_handleError _ _ _

/-- how many packets a request may draw: two when signing fails, otherwise one. -/
def quota (k : ReqRespCode) : Nat := if k = .reqChallenge ∨ k = .reqGetMeasurements then 2 else 1

theorem quota_pos (k : ReqRespCode) : 1 ≤ quota k := by unfold quota; split <;> omega

theorem sends_dispatchCode (k : ReqRespCode) (bytes : Bytes) : Sending e (quota k) (dispatchCode e k bytes) := by
  have fail : ∀ n, Sending e n (M.fail .unsupportedCap : M Status Ctx Unit) := fun n => sending_unsent (M.Rel.fail _)
  unfold dispatchCode
  cases k <;> dsimp only
  case reqGetVersion => exact sending_after (unsent_reply (ns_versionRsp _)) fun b => (out_sendMessage b).sending
  case reqGetCapabilities => exact sending_after (unsent_reply (ns_capabilityRsp _)) fun b => (out_sendMessage b).sending
  case reqNegotiateAlgorithms => exact sending_after (unsent_reply (ns_algorithmRsp _)) fun b => (out_sendMessage b).sending
  case reqGetDigests => exact sending_after (unsent_reply (ns_digestRsp _)) fun b => (out_send none b).sending
  case reqGetCertificate => exact sending_after (unsent_reply (ns_certificateRsp _)) fun b => (out_send none b).sending
  case reqChallenge => exact sending_more (m := 1) (n := 1) (sending_reply (sends_challengeRsp _)) fun b => out_sendMessage b
  case reqGetMeasurements => exact sending_more (m := 1) (n := 1) (sending_reply (sends_measurementRsp _ _)) fun b => out_send none b
  case reqKeyExchange => exact sending_after (ns_keyExchangeRsp _) fun b => (out_sendMessage b).sending
  case reqPskExchange => exact sending_after (ns_pskExchangeRsp _) fun b => (out_sendMessage b).sending
  case reqVendorDefinedRequest => exact sending_after (unsent_reply (ns_vendorRsp _)) fun b => (out_send none b).sending
  case reqFinish => exact sends_plainFinish _
  case reqPskFinish => exact sends_handleError _ _ _
  case reqHeartbeat => exact sends_handleError _ _ _
  case reqKeyUpdate => exact sends_handleError _ _ _
  case reqEndSession => exact sends_handleError _ _ _
  case reqResponseIfReady => exact sends_handleError _ _ _
  all_goals exact fail _

theorem sends_dispatch (bytes : Bytes) (k : ReqRespCode) (hk : ∀ h r, Header.read (Reader.init bytes) = .ok h r → h.code = k) : Sending e (quota k) (dispatch e bytes) := by
  intro c
  unfold dispatch
  rw [M.wp_bind]
  cases hr : Header.read (Reader.init bytes) with
  | ok h r =>
    simp only [Res.read, hr]
    have := hk h r hr
    subst this
    exact sends_dispatchCode _ _ c
  | err a r => simp only [Res.read, hr]; exact Sends.refl _ _
  | panic => simp only [Res.read, hr]; trivial

theorem sends_dispatchHandshake (sid : UInt32) (bytes : Bytes) : Sending e 1 (dispatchHandshake e sid bytes) := by
  have fail : Sending e 1 (M.fail .unsupportedCap : M Status Ctx Unit) := sending_unsent (M.Rel.fail _)
  unfold dispatchHandshake
  refine sending_after M.Rel.get fun c => ?_
  split
  · exact fail
  · refine sending_after (M.Rel.lift _) fun ⟨h, _⟩ => ?_
    dsimp only
    cases h.code <;> dsimp only
    case reqFinish => exact sends_handleFinish _ _
    case reqPskFinish => exact sending_after (ns_pskFinishRsp _) fun b => (out_sendSecured _ b false).sending
    case reqVendorDefinedRequest => exact sending_after (unsent_reply (ns_vendorRsp _)) fun b => (out_send _ b).sending
    all_goals first | exact fail | exact sends_handleError _ _ _

theorem sends_dispatchApplication (sid : UInt32) (bytes : Bytes) : Sending e 2 (dispatchApplication e sid bytes) := by
  have fail : Sending e 2 (M.fail .unsupportedCap : M Status Ctx Unit) := sending_unsent (M.Rel.fail _)
  unfold dispatchApplication
  refine sending_after (M.Rel.lift _) fun ⟨h, _⟩ => ?_
  dsimp only
  cases h.code <;> dsimp only
  case reqGetDigests => exact sending_after (unsent_reply (ns_digestRsp _)) fun b => (out_send _ b).sending.mono (by decide)
  case reqGetCertificate => exact sending_after (unsent_reply (ns_certificateRsp _)) fun b => (out_send _ b).sending.mono (by decide)
  case reqGetMeasurements => exact sending_more (m := 1) (n := 1) (sending_reply (sends_measurementRsp _ _)) fun b => out_send _ b
  case reqHeartbeat => exact sending_after (unsent_reply (ns_heartbeatRsp _ _)) fun b => (out_sendSecured _ b false).sending.mono (by decide)
  case reqKeyUpdate => exact sending_after (unsent_reply (ns_keyUpdateRsp _ _)) fun b => (out_sendSecured _ b false).sending.mono (by decide)
  case reqEndSession => exact sending_after (unsent_reply (ns_endSessionRsp _ _)) fun b => (out_sendSecured _ b false).sending.mono (by decide)
  case reqVendorDefinedRequest => exact sending_after (unsent_reply (ns_vendorRsp _)) fun b => (out_send _ b).sending.mono (by decide)
  all_goals first | exact fail | exact (sends_handleError _ _ _).mono (by decide)

theorem sends_dispatchSecured (sid : UInt32) (bytes : Bytes) : Sending e 2 (dispatchSecured e sid bytes) := by
  have fail : Sending e 2 (M.fail .unsupportedCap : M Status Ctx Unit) := sending_unsent (M.Rel.fail _)
  unfold dispatchSecured
  refine sending_after M.Rel.get fun c => ?_
  cases c.session? sid with
  | none => exact fail
  | some s =>
    dsimp only
    cases s.state with
    | handshaking => exact (sends_dispatchHandshake _ _).mono (by decide)
    | established => exact sends_dispatchApplication _ _
    | notStarted => exact fail

theorem sends_dispatchApp (sid : UInt32) (bytes : Bytes) : Sending e 1 (dispatchApp e sid bytes) :=
  sending_after (M.Rel.unwrap _) fun b => (out_sendSecured sid b true).sending

theorem sending_isOk {ε : Type} {n : Nat} {x : M Status Ctx Unit} (h : Sending e n x) : Sending e n (isOk x : M ε Ctx Bool) := fun c => by
  have := h c
  unfold isOk M.wp
  dsimp only
  cases hx : x c with
  | ok b c' => exact this.ok hx
  | panic => trivial
  | err r c' => exact this.err hx

theorem ns_openSecured (pkt : Bytes) : M.Rel Unsent (openSecured e pkt) := by
  unfold openSecured
  refine M.Rel.bind (M.Rel.mapErr _ (M.Rel.lift _)) fun ⟨sid, _⟩ => ?_
  refine M.Rel.bind (M.Rel.mapErr _ (ns_onSession _ _ _ (M.Rel.fail _))) fun app => ?_
  exact M.Rel.bind (M.Rel.mapErr _ (M.Rel.lift _)) fun ⟨msg, isApp⟩ => M.Rel.pure _

theorem quota_le (k : ReqRespCode) : quota k ≤ 2 := by unfold quota; split <;> omega

theorem sends_processMessage (rx : Bytes) : Sending e 2 (processMessage e rx) := by
  unfold processMessage
  refine sending_after (M.Rel.mapErr _ (M.Rel.lift _)) fun ⟨pkt, secured⟩ => ?_
  dsimp only
  cases secured with
  | true =>
    rw [if_pos rfl]
    refine sending_after (ns_openSecured pkt) fun ⟨sid, msg, isApp⟩ => ?_
    dsimp only
    cases isApp with
    | true => exact (sending_isOk (sends_dispatchApp sid msg)).mono (by decide)
    | false => exact sending_isOk (sends_dispatchSecured sid msg)
  | false =>
    rw [if_neg (by simp)]
    cases hr : Header.read (Reader.init pkt) with
    | ok h r => exact (sending_isOk (sends_dispatch pkt h.code fun h' r' hh => by rw [hr] at hh; cases hh; rfl)).mono (quota_le _)
    | err a r => exact (sending_isOk (sends_dispatch pkt .reqChallenge fun h' r' hh => by rw [hr] at hh; cases hh)).mono (quota_le _)
    | panic => exact (sending_isOk (sends_dispatch pkt .reqChallenge fun h' r' hh => by rw [hr] at hh; cases hh)).mono (quota_le _)

theorem sends_plain {rx b : Bytes} (h : Plain e rx b) (k : ReqRespCode) (hk : ∀ h r, Header.read (Reader.init b) = .ok h r → h.code = k) : Sending e (quota k) (processMessage e rx) := fun c => by
  have := sending_isOk (ε := Unit) (sends_dispatch (e := e) b k hk) c
  unfold M.wp at this ⊢
  rw [process_plain rx h c]
  exact this

end Rsp
end Verif
