/-
The requester's side of the encapsulated exchange, message by message.
-/
import Verif.Encap.Served
import Verif.Requester.Frame

namespace Verif
namespace Encap
open Rsp Props

variable {e : REnv}

/-- in session `sid` the requester received and opened `b`. -/
def Hears (e : REnv) (sid : UInt32) (c : Ctx) (b : Bytes) (c1 : Ctx) : Prop :=
  ∃ p s, e.recv c.sent = some p ∧ c.session? sid = some s ∧ s.state ≠ .notStarted ∧ Req.RecordIn e s p b ∧ c1 = c.updSession sid fun _ => s.bump false

/-- in session `sid` the requester sealed and sent `msg`. -/
def Tells (e : REnv) (sid : UInt32) (c : Ctx) (msg : Bytes) (c1 : Ctx) : Prop :=
  ∃ pkt s, c.session? sid = some s ∧ s.state ≠ .notStarted ∧ Req.RecordOut e s msg pkt ∧ c1 = withSent pkt (c.updSession sid fun _ => s.bump true)

theorem hears_of {sid : UInt32} {c c1 : Ctx} {b : Bytes} (h : Req.receiveSecured e sid c = .ok b c1) : Hears e sid c b c1 := by
  obtain ⟨p, h1, h2⟩ := Req.receiveSecured_ok h
  obtain ⟨s, h3, h4, h5, h6⟩ := Req.decodeSecured_ok h2
  exact ⟨p, s, h1, h3, h4, h5, h6⟩

theorem tells_of {sid : UInt32} {c c1 : Ctx} {msg : Bytes} {u : Unit} (h : Req.sendSecured e sid msg false c = .ok u c1) : Tells e sid c msg c1 := by
  obtain ⟨pkt, s, h1, h2, h3, h4⟩ := Req.sendSecured_ok h
  exact ⟨pkt, s, h1, h2, h3, h4⟩

theorem Hears.fields {sid : UInt32} {c c1 : Ctx} {b : Bytes} (h : Hears e sid c b c1) :
    c1.neg = c.neg ∧ c1.rt = c.rt ∧ c1.config = c.config ∧ c1.prov = c.prov ∧ c1.peer = c.peer ∧ c1.sent = c.sent := by
  obtain ⟨p, s, _, _, _, _, rfl⟩ := h
  exact ⟨rfl, rfl, rfl, rfl, rfl, rfl⟩

theorem Tells.fields {sid : UInt32} {c c1 : Ctx} {b : Bytes} (h : Tells e sid c b c1) :
    c1.neg = c.neg ∧ c1.rt = c.rt ∧ c1.config = c.config ∧ c1.prov = c.prov ∧ c1.peer = c.peer := by
  obtain ⟨p, s, _, _, _, rfl⟩ := h
  exact ⟨rfl, rfl, rfl, rfl, rfl⟩

/-- `encapsulated` is a request the requester finds in the message it received, and `msg` what it answers. -/
def Replies (e : Env) (c : Ctx) (id : UInt8) (encapsulated msg : Bytes) : Prop :=
  ∃ v k t rsp, encapsulated = v :: k :: t ∧ msg = [c.neg.version.get, 0xEB, id, 0] ++ rsp ∧ Answers e c v k t rsp

theorem answer_ok (hl : HashLaw e.toEnv) {sid : UInt32} {id : UInt8} {req : Bytes} {c c1 : Ctx} {u : Unit} (hsz : ∀ ch, c.prov.chain 0 = some ch → ch.length < 65536)
    (h : answer e sid id req c = .ok u c1) : ∃ msg, Replies e.toEnv c id req msg ∧ Tells e sid c msg c1 := by
  unfold answer at h
  obtain ⟨c0, c00, h0, h⟩ := M.bind_ok.1 h
  cases h0
  obtain ⟨b, c2, h1, h2⟩ := M.bind_ok.1 h
  obtain ⟨h1, rfl⟩ := Req.liftOk.1 h1
  obtain ⟨v, k, t, rsp, g1, g2, g3⟩ := delivery_ok hl hsz h1
  exact ⟨b, ⟨v, k, t, rsp, g1, g2, g3⟩, tells_of h2⟩

theorem padded_length (b : Bytes) : 4096 ≤ (padded b).length := by unfold padded; simp; omega

theorem padded_split (b : Bytes) (n : Nat) (h : n ≤ 4096) : ∃ front rest, padded b = front ++ rest ∧ front.length = n ∧ rest = (padded b).drop n := by
  refine ⟨(padded b).take n, (padded b).drop n, (List.take_append_drop _ _).symm, ?_, rfl⟩
  have : 4096 ≤ (padded b).length := by unfold padded; simp; omega
  rw [List.length_take]; omega

theorem padded_cons2 (b : Bytes) : ∃ a0 a1 t, padded b = a0 :: a1 :: t ∧ t = (padded b).drop 2 := by
  obtain ⟨f, r, h1, h2, h3⟩ := padded_split b 2 (by omega)
  match f, h2 with
  | [a0, a1], _ => exact ⟨a0, a1, r, h1, by rw [h3]⟩

theorem carrier_ok {k : ReqRespCode} {b : Bytes} {r : Reader} {c c1 : Ctx} (h : carrier k b c = .ok r c1) :
    c1 = c ∧ ∃ kc t, padded b = c.neg.version.get :: kc :: t ∧ ReqRespCode.ofCode kc = k ∧ r = ⟨t, 2⟩ := by
  obtain ⟨a0, a1, t, ht, -⟩ := padded_cons2 b
  unfold carrier at h
  rw [ht] at h
  unfold Res.read at h
  rw [header_read] at h
  dsimp only at h
  obtain ⟨⟨hd, r0⟩, c2, h1, h2⟩ := M.bind_ok.1 h
  obtain ⟨h1, hc⟩ := Req.liftOk.1 h1
  cases h1
  obtain ⟨c0, c00, h0, h3⟩ := M.bind_ok.1 h2
  cases h0
  rw [hc] at h3
  by_cases hx : c.neg.version ≠ SpdmVersion.ofCode a0 ∨ ReqRespCode.ofCode a1 ≠ k
  · rw [if_pos hx] at h3; cases h3
  · rw [if_neg hx] at h3
    cases h3
    have hv : c.neg.version = SpdmVersion.ofCode a0 := Decidable.not_not.1 fun g => hx (.inl g)
    have hk : ReqRespCode.ofCode a1 = k := Decidable.not_not.1 fun g => hx (.inr g)
    exact ⟨rfl, a1, t, by rw [ht, hv]; simp, hk, rfl⟩

theorem sendGet_ok {sid : UInt32} {c c1 : Ctx} {u : Unit} (h : sendGet e sid c = .ok u c1) : Tells e sid c [c.neg.version.get, 0xEA, 0, 0] c1 := by
  unfold sendGet at h
  obtain ⟨c0, c00, h0, h⟩ := M.bind_ok.1 h
  cases h0
  have hw : Writes (Enc.seq [Header.encode ⟨c.neg.version, .reqGetEncapsulatedRequest⟩, encGet]) [c.neg.version.get, 0xEA, 0, 0] :=
    (Writes.seq_cons (Header.encode_writes _) (Writes.seq_cons encGet_writes Writes.seq_nil)).cast (by simp [Header.wire, ReqRespCode.get])
  rw [(hw (Writer.init 4) (by simp [Writer.WF, Writer.init])).1 (by simp [Writer.init])] at h
  exact tells_of h

/-- the requester heard ENCAPSULATED_REQUEST `id` and answered the request in it. -/
def Asked (e : REnv) (sid : UInt32) (c c1 : Ctx) : Prop :=
  ∃ b c2 id x msg, Hears e sid c b c2 ∧ (padded b).take 4 = [c.neg.version.get, 0x6A, id, x] ∧ Replies e.toEnv c2 id ((padded b).drop 4) msg ∧ Tells e sid c2 msg c1

theorem receiveRequest_ok (hl : HashLaw e.toEnv) {sid : UInt32} {c c1 : Ctx} {u : Unit} (hsz : ∀ ch, c.prov.chain 0 = some ch → ch.length < 65536)
    (h : receiveRequest e sid c = .ok u c1) : Asked e sid c c1 := by
  unfold receiveRequest at h
  obtain ⟨b, c2, h1, h⟩ := M.bind_ok.1 h
  have hh := hears_of h1
  obtain ⟨r, c3, h2, h⟩ := M.bind_ok.1 h
  obtain ⟨rfl, kc, t, ht, hk, rfl⟩ := carrier_ok h2
  have hlen : 4096 ≤ (padded b).length := by unfold padded; simp; omega
  rw [ht] at hlen
  match t, hlen with
  | [], hlen => simp at hlen
  | [_], hlen => simp at hlen
  | id :: x :: t, _ =>
    obtain ⟨⟨id', r'⟩, c4, h3, h⟩ := M.bind_ok.1 h
    obtain ⟨h3, rfl⟩ := Req.liftOk.1 h3
    have hr : Res.read Status.invalidMsgSize rdId ⟨id :: x :: t, 2⟩ = .ok (id, ⟨t, 4⟩) := by simp [Res.read, rdId]
    rw [hr] at h3
    cases h3
    have hkc : kc = 0x6A := by have := congrArg ReqRespCode.get hk; simp at this; exact this
    obtain ⟨msg, g1, g2⟩ := answer_ok hl (by rw [hh.fields.2.2.2.1]; exact hsz) h
    refine ⟨b, _, id, x, msg, hh, ?_, g1, g2⟩
    rw [ht, hkc, hh.fields.1]
    rfl

/-- where the payload of an ENCAPSULATED_RESPONSE_ACK begins: version 1.2 added four bytes. -/
def ackSize (c : Ctx) : Nat := if 0x12 ≤ c.neg.version.get then 8 else 4

/-- the acknowledgements the requester receives, until one that ends the exchange. -/
inductive Acks (e : REnv) (sid : UInt32) : Ctx → Ctx → Prop where
  /-- payload type 0: the exchange is over. -/
  | absent {c c1 : Ctx} {b : Bytes} {id : UInt8} : Hears e sid c b c1 → b.length = 8 → (padded b).take 4 = [c.neg.version.get, 0x6B, id, 0] → Acks e sid c c1
  /-- payload type 2: the exchange is over, and the responder said which slot to use. -/
  | slot {c c1 : Ctx} {b : Bytes} {id s : UInt8} : Hears e sid c b c1 → b.length = 9 → (padded b).take 4 = [c.neg.version.get, 0x6B, id, 2] →
      (padded b)[ackSize c]? = some s → s < 8 → Acks e sid c { c1 with rt := { c1.rt with localSlot := s } }
  /-- payload type 1, or any other: there is a further request, which is answered. -/
  | more {c c1 c2 c3 : Ctx} {b msg : Bytes} {id k : UInt8} : Hears e sid c b c1 → (padded b).take 4 = [c.neg.version.get, 0x6B, id, k] → k ≠ 0 → k ≠ 2 →
      Replies e.toEnv c1 id ((padded b).drop (ackSize c)) msg → Tells e sid c1 msg c2 → Acks e sid c2 c3 → Acks e sid c c3

theorem ack_read {cc : Cc} {id k : UInt8} {t : Bytes} (hlen : 4 ≤ t.length) :
    ∃ a, Res.read Status.invalidMsgSize (Ack.read cc) ⟨id :: k :: t, 2⟩ =
      .ok (⟨id, EncapAckPayload.ofCode k, a⟩, if cc.ge12 = true then ⟨t.drop 4, 8⟩ else ⟨t, 4⟩) := by
  match t, hlen with
  | a0 :: a1 :: a2 :: a3 :: t, _ =>
    by_cases hg : cc.ge12 = true
    · refine ⟨a0, ?_⟩
      simp only [Res.read, Ack.read, M.bind_apply, rdU8_cons, EncapAckPayload.read_cons, hg, if_true, rdU24_cons, M.pure_apply]
      rfl
    · refine ⟨0, ?_⟩
      simp only [Res.read, Ack.read, M.bind_apply, rdU8_cons, EncapAckPayload.read_cons, hg, M.pure_apply]
      rfl

theorem receiveAck_ok (hl : HashLaw e.toEnv) {sid : UInt32} {c c1 : Ctx} {more : Bool} (hsz : ∀ ch, c.prov.chain 0 = some ch → ch.length < 65536)
    (h : receiveAck e sid c = .ok more c1) :
    (more = false ∧ Acks e sid c c1) ∨ (more = true ∧ ∀ c2, Acks e sid c1 c2 → Acks e sid c c2) := by
  unfold receiveAck at h
  obtain ⟨b, c2, h1, h⟩ := M.bind_ok.1 h
  have hh := hears_of h1
  obtain ⟨r, c3, h2, h⟩ := M.bind_ok.1 h
  obtain ⟨rfl, kc, t, ht, hk, rfl⟩ := carrier_ok h2
  have hlen : 4096 ≤ (padded b).length := by unfold padded; simp; omega
  obtain ⟨c0, c00, h0, h⟩ := M.bind_ok.1 h
  cases h0
  have hkc : kc = 0x6B := by have := congrArg ReqRespCode.get hk; simp at this; exact this
  subst hkc
  match t, ht with
  | [], ht => rw [ht] at hlen; simp at hlen
  | [_], ht => rw [ht] at hlen; simp at hlen
  | id :: k :: t, ht =>
    have htl : 4 ≤ t.length := by rw [ht] at hlen; simp at hlen; omega
    obtain ⟨a, ha⟩ := ack_read (cc := c3.cc) (id := id) (k := k) htl
    rw [ha] at h
    obtain ⟨⟨m, r'⟩, c4, h3, h⟩ := M.bind_ok.1 h
    obtain ⟨h3, rfl⟩ := Req.liftOk.1 h3
    injection h3 with h3
    injection h3 with hm hr
    subst hm
    have hneg := hh.fields.1
    have htake : (padded b).take 4 = [c.neg.version.get, 0x6B, id, k] := by rw [ht, hneg]; rfl
    have hused : r'.used = ackSize c ∧ r'.rest = (padded b).drop (ackSize c) := by
      subst hr
      have : c4.cc.ge12 = true ↔ 0x12 ≤ c.neg.version.get := by
        show decide (c4.neg.version.get ≥ 0x12) = true ↔ _
        rw [hneg]; simp
      unfold ackSize
      by_cases hg : c4.cc.ge12 = true
      · rw [if_pos hg, if_pos (this.1 hg), ht]
        exact ⟨rfl, rfl⟩
      · rw [if_neg hg, if_neg fun g => hg (this.2 g), ht]
        exact ⟨rfl, rfl⟩
    dsimp only at h
    by_cases hk0 : k = 0
    · subst hk0
      have h : (if b.length = 8 then (pure false : M Status Ctx Bool) else M.fail .invalidMsgSize) c4 = .ok more c1 := h
      by_cases hb : b.length = 8
      · rw [if_pos hb] at h
        cases h
        exact .inl ⟨rfl, .absent hh hb htake⟩
      · rw [if_neg hb] at h; cases h
    by_cases hk2 : k = 2
    · subst hk2
      have h : (if b.length = 9 then (do
          let (slot, _) ← (Res.read .invalidMsgSize rdU8 r').lift
          if slot ≥ 8 then M.fail .invalidMsgField else do
          M.modify fun c => { c with rt := { c.rt with localSlot := slot } }
          pure false : M Status Ctx Bool) else M.fail .invalidMsgSize) c4 = .ok more c1 := h
      by_cases hb : b.length = 9
      · rw [if_pos hb] at h
        have hn : ackSize c < (padded b).length := by
          unfold ackSize; split <;> omega
        obtain ⟨sl, hsl⟩ : ∃ sl, (padded b)[ackSize c]? = some sl := ⟨_, List.getElem?_eq_getElem hn⟩
        have hrest : r'.rest = sl :: (padded b).drop (ackSize c + 1) := by
          rw [hused.2]
          rw [List.drop_eq_getElem_cons hn]
          rw [List.getElem?_eq_getElem hn] at hsl
          cases hsl
          rfl
        have hrd : Res.read Status.invalidMsgSize rdU8 r' = .ok (sl, ⟨(padded b).drop (ackSize c + 1), r'.used + 1⟩) := by
          obtain ⟨rest, used⟩ := r'
          dsimp only at hrest
          subst hrest
          simp [Res.read]
        rw [hrd] at h
        obtain ⟨⟨sl', _⟩, c5, h4, h⟩ := M.bind_ok.1 h
        obtain ⟨h4, rfl⟩ := Req.liftOk.1 h4
        cases h4
        dsimp only at h
        by_cases hs8 : sl ≥ 8
        · rw [if_pos hs8] at h; cases h
        · rw [if_neg hs8] at h
          simp only [M.bind_apply, M.modify_apply, M.pure_apply] at h
          injection h with h5 h6
          subst h5 h6
          refine .inl ⟨rfl, .slot hh hb htake hsl ?_⟩
          exact UInt8.not_le.1 hs8
      · rw [if_neg hb] at h; cases h
    · have hp : ∀ x : EncapAckPayload, EncapAckPayload.ofCode k = x → x ≠ .absent ∧ x ≠ .reqSlotNumber := by
        intro x hx
        have hg : k = x.get := by rw [← hx]; simp
        constructor
        · rintro rfl; exact hk0 hg
        · rintro rfl; exact hk2 hg
      have h : (do answer e sid id ((padded b).drop r'.used); pure true : M Status Ctx Bool) c4 = .ok more c1 := by
        have := hp _ rfl
        revert h
        cases hx : EncapAckPayload.ofCode k with
        | absent => exact absurd hx this.1
        | reqSlotNumber => exact absurd hx this.2
        | present => exact fun h => h
        | unknown b => exact fun h => h
      obtain ⟨u, c5, h5, h6⟩ := M.bind_ok.1 h
      cases h6
      obtain ⟨msg, g1, g2⟩ := answer_ok hl (by rw [hh.fields.2.2.2.1]; exact hsz) h5
      rw [hused.1] at g1
      exact .inr ⟨rfl, fun c2 hc => .more hh htake hk0 hk2 g1 g2 hc⟩


/-! ### Everything the requester does, whatever the outcome -/

/-- a message of the requester's side of the exchange. -/
def Says (e : Env) (c : Ctx) (msg : Bytes) : Prop := msg = [c.neg.version.get, 0xEA, 0, 0] ∨ ∃ id encapsulated, Replies e c id encapsulated msg

/-- what serving encapsulated requests in session `sid` can do to a requester, in any number of steps. -/
inductive Serving (e : REnv) (sid : UInt32) (c0 : Ctx) : Ctx → Prop where
  | none : Serving e sid c0 c0
  /-- a record counter of the session advances. -/
  | count {c : Ctx} {s : Session} (isReq : Bool) : Serving e sid c0 c → c.session? sid = some s → Serving e sid c0 (c.updSession sid fun _ => s.bump isReq)
  /-- a message is sent. -/
  | tell {c c1 : Ctx} {msg : Bytes} : Serving e sid c0 c → Says e.toEnv c msg → Tells e sid c msg c1 → Serving e sid c0 c1
  /-- the slot the requester will use is set. -/
  | slot {c : Ctx} {s : UInt8} : Serving e sid c0 c → s < 8 → Serving e sid c0 { c with rt := { c.rt with localSlot := s } }

theorem Serving.trans {sid : UInt32} {a b c : Ctx} (h : Serving e sid a b) (h' : Serving e sid b c) : Serving e sid a c := by
  induction h' with
  | none => exact h
  | count i _ g ih => exact .count i ih g
  | tell _ g g' ih => exact .tell ih g g'
  | slot _ g ih => exact .slot ih g

theorem updSession_same {c : Ctx} {sid : UInt32} {s : Session} (h : c.session? sid = some s) : (c.updSession sid fun _ => s) = c := by
  have : ∀ l : List Session, l.find? (·.id = sid) = some s → Ctx.updFirst (·.id = sid) (fun _ => s) l = l := by
    intro l
    induction l with
    | nil => intro _; rfl
    | cons a l ih =>
      intro hf
      by_cases ha : a.id = sid
      · simp [List.find?_cons, ha] at hf; subst hf; simp [Ctx.updFirst, ha]
      · simp [List.find?_cons, ha] at hf; simp [Ctx.updFirst, ha]; exact ih (by simpa using hf)
  unfold Ctx.updSession
  rw [this _ h]

theorem session?_other {c : Ctx} {sid i : UInt32} {s : Session} (h : s.id = sid) (hi : i ≠ sid) : (c.updSession sid fun _ => s).session? i = c.session? i := by
  have : ∀ l : List Session, (Ctx.updFirst (·.id = sid) (fun _ => s) l).find? (·.id = i) = l.find? (·.id = i) := by
    intro l
    induction l with
    | nil => rfl
    | cons a l ih =>
      by_cases ha : a.id = sid
      · have h1 : ¬ s.id = i := fun g => hi (g.symm.trans h)
        have h2 : ¬ a.id = i := fun g => hi (g.symm.trans ha)
        simp [Ctx.updFirst, ha, List.find?_cons, h1, h2]
        have h3 : (sid = i) = False := by simp; exact fun g => hi g.symm
        simp [h, h3]
      · simp only [Ctx.updFirst, ha, decide_false, List.find?_cons]
        simp only [Bool.false_eq_true, if_false, List.find?_cons]
        rw [ih]
  unfold Ctx.session? Ctx.updSession
  exact this _

theorem Serving.fields {sid : UInt32} {c c' : Ctx} (h : Serving e sid c c') :
    c'.neg = c.neg ∧ c'.config = c.config ∧ c'.prov = c.prov ∧ c'.peer = c.peer ∧ c.sent <+: c'.sent ∧
    (∃ sl, c'.rt = { c.rt with localSlot := sl } ∧ (sl = c.rt.localSlot ∨ sl < 8)) ∧ ∀ i ≠ sid, c'.session? i = c.session? i := by
  have hother : ∀ (c : Ctx) (s : Session) (isReq : Bool), c.session? sid = some s → ∀ i ≠ sid, (c.updSession sid fun _ => s.bump isReq).session? i = c.session? i := by
    intro c s isReq hs i hi
    exact session?_other (by rw [Session.bump_id]; exact session?_id hs) hi
  induction h with
  | none => exact ⟨rfl, rfl, rfl, rfl, List.prefix_refl _, ⟨_, rfl, .inl rfl⟩, fun _ _ => rfl⟩
  | count i _ g ih =>
    obtain ⟨h1, h2, h3, h4, h5, h6, h7⟩ := ih
    exact ⟨h1, h2, h3, h4, h5, h6, fun j hj => (hother _ _ _ g j hj).trans (h7 j hj)⟩
  | tell _ _ g ih =>
    obtain ⟨h1, h2, h3, h4, h5, h6, h7⟩ := ih
    obtain ⟨pkt, s, k1, k2, k3, rfl⟩ := g
    exact ⟨h1, h2, h3, h4, h5.trans (List.prefix_append _ _), h6, fun j hj => (hother _ _ _ k1 j hj).trans (h7 j hj)⟩
  | slot _ g ih =>
    obtain ⟨h1, h2, h3, h4, h5, ⟨sl, h6, h6'⟩, h7⟩ := ih
    exact ⟨h1, h2, h3, h4, h5, ⟨_, by rw [h6], .inr g⟩, h7⟩

/-- the requester's own chain fits its length field. -/
def Small (c : Ctx) : Prop := ∀ ch, c.prov.chain 0 = some ch → ch.length < 65536

/-- `Serving`, for contexts that are `Small`. -/
def Serves (e : REnv) (sid : UInt32) (c c' : Ctx) : Prop := Small c → Serving e sid c c'

instance (sid : UInt32) : M.Pre (Serves e sid) where
  refl _ _ := .none
  trans h h' hs := (h hs).trans (h' (by unfold Small; rw [(h hs).fields.2.2.1]; exact hs))

theorem onSession_counts {sid : UInt32} {x : Session → SecretParam → Res Bytes} {isReq : Bool} {st : Status} {c : Ctx} :
    M.wp (Ctx.onSession sid (M.fail st) (Session.dispatchDir x isReq)) c
      (fun a c' => ∃ s, c.session? sid = some s ∧ s.state ≠ .notStarted ∧ x s (s.dir isReq) = .ok a ∧ c' = c.updSession sid fun _ => s.bump isReq)
      (fun _ c' => c' = c ∨ ∃ s, c.session? sid = some s ∧ c' = c.updSession sid fun _ => s.bump isReq) := by
  unfold M.wp
  cases hx : Ctx.onSession sid (M.fail st) (Session.dispatchDir x isReq) c with
  | panic => trivial
  | ok a c' =>
    cases hs : c.session? sid with
    | none => simp [Ctx.onSession, hs] at hx
    | some s =>
      obtain ⟨s', h1, h2⟩ := onSession_ok hs hx
      obtain ⟨k1, k2, rfl⟩ := Session.dispatchDir_ok.1 h1
      exact ⟨s, rfl, k1, k2, h2⟩
  | err y c' =>
    dsimp only
    cases hs : c.session? sid with
    | none => simp [Ctx.onSession, hs] at hx; exact .inl hx.2.symm
    | some s =>
      unfold Ctx.onSession at hx
      simp only [M.bind_apply, M.get_apply, hs] at hx
      cases hd : Session.dispatchDir x isReq s with
      | panic => simp [hd] at hx
      | ok a s' => simp [hd] at hx
      | err z s' =>
        simp [hd] at hx
        rcases Session.dispatchDir_err hd with ⟨_, rfl⟩ | ⟨_, _, rfl⟩
        · left; rw [← hx.2]; exact updSession_same hs
        · right; exact ⟨s, rfl, hx.2.symm⟩

theorem sendSecured_serves {sid : UInt32} {msg : Bytes} {c : Ctx} (h : Small c → Says e.toEnv c msg) :
    M.wp (Req.sendSecured e sid msg false) c (fun _ c' => Serves e sid c c') (fun _ c' => Serves e sid c c') := by
  unfold Req.sendSecured
  rw [M.wp_bind, M.wp_get]
  by_cases hd : false = false ∧ c.neg.rspDts ≠ 0 ∧ c.neg.rspDts.toNat < msg.length
  · rw [if_pos hd]; exact fun _ => .none
  rw [if_neg hd, M.wp_bind]
  unfold Ctx.encodeSecured
  rw [M.wp_bind]
  cases ha : Ctx.intoBuf (e.tr.encapApp msg false) 4160 with
  | panic => trivial
  | err x => exact fun _ => .none
  | ok app =>
    show M.wp (Ctx.onSession sid (M.fail .invalidParameter) (Session.encodeSecured e.crypto app 4160 true) >>= fun enc =>
      (Ctx.intoBuf (e.tr.encap enc true) 4160).lift) c _ _
    rw [M.wp_bind]
    unfold Session.encodeSecured
    refine onSession_counts.mono ?_ ?_
    · rintro rec c1 ⟨s, k1, k2, k3, rfl⟩
      cases he : Ctx.intoBuf (e.tr.encap rec true) 4160 with
      | panic => trivial
      | err x => exact fun _ => .count true .none k1
      | ok pkt =>
        have ht : Tells e sid c msg (withSent pkt (c.updSession sid fun _ => s.bump true)) := ⟨pkt, s, k1, k2, ⟨app, rec, ha, k3, he⟩, rfl⟩
        show M.wp (Ctx.devSend e.toEnv pkt) (c.updSession sid fun _ => s.bump true) _ _
        unfold Ctx.devSend
        rw [M.wp_bind, M.wp_get, M.wp_bind, M.wp_set]
        cases e.send (c.updSession sid fun _ => s.bump true).sent.length pkt with
        | none => exact fun hs => .tell .none (h hs) ht
        | some st => exact fun hs => .tell .none (h hs) ht
    · rintro _ c1 (rfl | ⟨s, k1, rfl⟩)
      · exact fun _ => .none
      · exact fun _ => .count true .none k1

theorem receiveSecured_serves (sid : UInt32) : M.Rel (Serves e sid) (Req.receiveSecured e sid) := by
  intro c
  unfold Req.receiveSecured
  rw [M.wp_bind]
  unfold Req.receive
  rw [M.wp_bind, M.wp_get, M.wp_bind]
  cases hr : e.recv c.sent with
  | none => exact fun _ => .none
  | some p =>
    show M.wp (if p.length ≤ 4160 then (pure p : M Status Ctx Bytes) else M.panic) c _ _
    by_cases hp : p.length ≤ 4160
    · rw [if_pos hp, M.wp_pure]
      unfold Ctx.decodeSecured
      rw [M.wp_bind]
      cases hd : Ctx.intoBuf2 (e.tr.decap p) 4160 with
      | panic => trivial
      | err x => exact fun _ => .none
      | ok r =>
        show M.wp (if r.2 = false then M.fail .decapFail else do
          let app ← Ctx.onSession sid (M.fail .invalidParameter) (Session.decodeSecured e.crypto r.1 4160 false)
          let out ← (Ctx.intoBuf2 (e.tr.decapApp app) 4096).lift
          pure out.1) c _ _
        by_cases hf : r.2 = false
        · rw [if_pos hf]; exact fun _ => .none
        · rw [if_neg hf, M.wp_bind]
          unfold Session.decodeSecured
          refine onSession_counts.mono ?_ ?_
          · rintro app c1 ⟨s, k1, k2, k3, rfl⟩
            rw [M.wp_bind]
            cases he : Ctx.intoBuf2 (e.tr.decapApp app) 4096 with
            | panic => trivial
            | err x => exact fun _ => .count false .none k1
            | ok out => exact fun _ => .count false .none k1
          · rintro _ c1 (rfl | ⟨s, k1, rfl⟩)
            · exact fun _ => .none
            · exact fun _ => .count false .none k1
    · rw [if_neg hp]; trivial

theorem answer_serves (hl : HashLaw e.toEnv) (sid : UInt32) (id : UInt8) (req : Bytes) : M.Rel (Serves e sid) (answer e sid id req) := by
  intro c
  unfold answer
  rw [M.wp_bind, M.wp_get, M.wp_bind]
  cases hd : delivery e.toEnv c id req with
  | panic => trivial
  | err x => exact fun _ => .none
  | ok b =>
    exact sendSecured_serves fun hs => .inr ⟨id, req, by
      obtain ⟨v, k, t, rsp, g1, g2, g3⟩ := delivery_ok hl hs hd
      exact ⟨v, k, t, rsp, g1, g2, g3⟩⟩

theorem carrier_serves (sid : UInt32) (k : ReqRespCode) (b : Bytes) : M.Rel (Serves e sid) (carrier k b) := by
  unfold carrier
  rel

theorem sendGet_serves (sid : UInt32) : M.Rel (Serves e sid) (sendGet e sid) := by
  intro c
  unfold sendGet
  rw [M.wp_bind, M.wp_get]
  have hw : Writes (Enc.seq [Header.encode ⟨c.neg.version, .reqGetEncapsulatedRequest⟩, encGet]) [c.neg.version.get, 0xEA, 0, 0] :=
    (Writes.seq_cons (Header.encode_writes _) (Writes.seq_cons encGet_writes Writes.seq_nil)).cast (by simp [Header.wire, ReqRespCode.get])
  rw [(hw (Writer.init 4) (by simp [Writer.WF, Writer.init])).1 (by simp [Writer.init])]
  exact sendSecured_serves fun _ => .inl rfl

theorem receiveRequest_serves (hl : HashLaw e.toEnv) (sid : UInt32) : M.Rel (Serves e sid) (receiveRequest e sid) := by
  have f1 := receiveSecured_serves (e := e) sid
  have f2 := answer_serves hl sid
  have f3 := carrier_serves (e := e) sid
  unfold receiveRequest
  rel
  · exact f3 _ _
  · exact f2 _ _

theorem receiveAck_serves (hl : HashLaw e.toEnv) (sid : UInt32) : M.Rel (Serves e sid) (receiveAck e sid) := by
  have f1 := receiveSecured_serves (e := e) sid
  have f2 := answer_serves hl sid
  have f3 := carrier_serves (e := e) sid
  unfold receiveAck
  refine M.Rel.bind f1 fun b => M.Rel.bind (f3 _ _) fun r => M.Rel.bind M.Rel.get fun c => M.Rel.bind (M.Rel.lift _) fun x => ?_
  obtain ⟨m, r⟩ := x
  dsimp only
  cases m.payload with
  | absent => dsimp only; rel
  | present => exact M.Rel.bind (f2 _ _) fun _ => M.Rel.pure _
  | unknown _ => exact M.Rel.bind (f2 _ _) fun _ => M.Rel.pure _
  | reqSlotNumber =>
    dsimp only
    refine M.Rel.ite (fun _ => M.Rel.bind (M.Rel.lift _) fun y => ?_) fun _ => M.Rel.fail _
    obtain ⟨slot, _⟩ := y
    intro c
    dsimp only
    by_cases h8 : slot ≥ 8
    · rw [if_pos h8]; exact fun _ => .none
    · rw [if_neg h8]
      exact fun _ => .slot .none (UInt8.not_le.1 h8)

theorem ackLoop_serves (hl : HashLaw e.toEnv) (sid : UInt32) : ∀ fuel, M.Rel (Serves e sid) (ackLoop e sid fuel)
  | 0 => by unfold ackLoop; rel
  | fuel + 1 => by
    have f1 := receiveAck_serves hl sid
    have f2 := ackLoop_serves hl sid fuel
    unfold ackLoop
    rel

theorem opening_serves (hl : HashLaw e.toEnv) (sid : UInt32) (m : UInt8) : M.Rel (Serves e sid) (opening e sid m) := by
  have f1 := receiveRequest_serves hl sid
  have f2 := answer_serves hl sid
  have f3 := sendGet_serves (e := e) sid
  unfold opening
  rel
  rename_i c
  cases Msg.encode c.cc ⟨⟨c.neg.version, .reqGetDigests⟩, .getDigests⟩ (Writer.init 4) with
  | panic => exact M.Rel.panic
  | err _ _ => exact M.Rel.fail _
  | ok _ w => exact f2 _ _

theorem exchange_serves (hl : HashLaw e.toEnv) (fuel : Nat) (sid : UInt32) (m : UInt8) : M.Rel (Serves e sid) (exchange e fuel sid m) := by
  have f1 := opening_serves hl sid m
  have f2 := ackLoop_serves hl sid fuel
  unfold exchange
  rel

/-! ### The whole exchange, when it succeeds -/

theorem ackLoop_ok (hl : HashLaw e.toEnv) {sid : UInt32} : ∀ {fuel : Nat} {c c' : Ctx} {u : Unit}, Small c → ackLoop e sid fuel c = .ok u c' → Acks e sid c c'
  | 0, _, _, _, _, h => by cases h
  | fuel + 1, c, c', u, hs, h => by
    unfold ackLoop at h
    obtain ⟨more, c1, h1, h2⟩ := M.bind_ok.1 h
    have hsv : Serves e sid c c1 := (receiveAck_serves hl sid c).ok h1
    rcases receiveAck_ok hl hs h1 with ⟨rfl, g⟩ | ⟨rfl, g⟩
    · rw [if_neg (by simp)] at h2
      cases h2
      exact g
    · rw [if_pos rfl] at h2
      exact g _ (ackLoop_ok hl (by unfold Small; rw [(hsv hs).fields.2.2.1]; exact hs) h2)

theorem opening_ok (hl : HashLaw e.toEnv) {sid : UInt32} {m : UInt8} {c c' : Ctx} {u : Unit} (hs : Small c) (h : opening e sid m c = .ok u c') :
    (m = 4 ∧ ∃ msg, Replies e.toEnv c 0 [c.neg.version.get, 0x81, 0, 0] msg ∧ Tells e sid c msg c') ∨
    (m ≠ 4 ∧ ∃ c1, Tells e sid c [c.neg.version.get, 0xEA, 0, 0] c1 ∧ Asked e sid c1 c') := by
  unfold opening at h
  by_cases hm : m = 4
  · rw [if_pos hm] at h
    obtain ⟨c0, c00, h0, h⟩ := M.bind_ok.1 h
    cases h0
    have hw : Writes (Msg.encode c.cc ⟨⟨c.neg.version, .reqGetDigests⟩, .getDigests⟩) [c.neg.version.get, 0x81, 0, 0] :=
      (Writes.seq_cons (Header.encode_writes _) (Writes.seq_cons (encNoParams_writes) Writes.seq_nil)).cast (by simp [Header.wire, ReqRespCode.get])
    rw [(hw (Writer.init 4) (by simp [Writer.WF, Writer.init])).1 (by simp [Writer.init])] at h
    have h : answer e sid 0 [c.neg.version.get, 0x81, 0, 0] c = .ok u c' := h
    obtain ⟨msg, g1, g2⟩ := answer_ok hl hs h
    exact .inl ⟨hm, msg, g1, g2⟩
  · rw [if_neg hm] at h
    obtain ⟨u1, c1, h1, h2⟩ := M.bind_ok.1 h
    have ht := sendGet_ok h1
    exact .inr ⟨hm, c1, ht, receiveRequest_ok hl (by rw [ht.fields.2.2.2.1]; exact hs) h2⟩

end Encap
end Verif
