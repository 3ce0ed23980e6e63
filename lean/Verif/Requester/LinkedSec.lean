/-
Secured messages over a link between this requester and this responder.
-/
import Verif.Requester.LinkedEx
import Verif.Requester.FinishEx
import Verif.Requester.Peer
import Verif.Responder.InSession
import Verif.Responder.Unsent
import Verif.Props.Record

namespace Verif
namespace Req
open Rsp
open Props (SameChannel Opens)

/-- Records come out of the transport as they went in, possibly followed by padding, and still marked as secured; so do the messages inside them,
as SPDM messages. -/
structure CarriesSealed (tr : Transport) : Prop where
  record : ∀ r pkt r' fl, Ctx.intoBuf (tr.encap r true) 4160 = .ok pkt → Ctx.intoBuf2 (tr.decap pkt) 4160 = .ok (r', fl) → fl = true ∧ ∃ pad, r' = r ++ pad
  message : ∀ m a m' fl, Ctx.intoBuf (tr.encapApp m false) 4160 = .ok a → Ctx.intoBuf2 (tr.decapApp a) 4096 = .ok (m', fl) → m' = m ∧ fl = false

theorem sealed_mctp : CarriesSealed Mctp.transport where
  record r pkt r' fl h h' := by
    obtain ⟨n, buf, he, hn, rfl⟩ := intoBuf_ok h
    obtain ⟨n', buf', h1, h2, h3⟩ := intoBuf2_ok.1 h'
    dsimp only at h3
    subst h3
    generalize (4160 : Nat) = sz at *
    have he : Mctp.encap r true (List.replicate sz 0) = .ok n buf := he
    rw [Mctp.encap_eq] at he
    split at he
    · have hnb := Out.ok.inj he
      have hframe : buf.take n = 6 :: r := by
        rw [← hnb.1, ← hnb.2]
        simp [Nat.add_comm 1]
      rw [hframe] at h1
      have h1 : Mctp.decap (6 :: r) (List.replicate sz 0) = .ok (n', fl) buf' := h1
      rw [Mctp.decap_cons] at h1
      split at h1
      · cases h1
        exact ⟨rfl, [], by rw [List.take_left' rfl, List.append_nil]⟩
      · cases h1
    · split at he <;> cases he
  message m a m' fl h h' := by
    obtain ⟨n, buf, he, hn, rfl⟩ := intoBuf_ok h
    obtain ⟨n', buf', h1, h2, h3⟩ := intoBuf2_ok.1 h'
    dsimp only at h3
    subst h3
    generalize (4160 : Nat) = sz at *
    generalize (4096 : Nat) = sz' at *
    have he : Mctp.encapApp m false (List.replicate sz 0) = .ok n buf := he
    rw [Mctp.encapApp_eq] at he
    split at he
    · have hnb := Out.ok.inj he
      have hframe : buf.take n = 5 :: m := by
        rw [← hnb.1, ← hnb.2]
        simp [Nat.add_comm 1]
      rw [hframe] at h1
      have h1 : Mctp.decapApp (5 :: m) (List.replicate sz' 0) = .ok (n', fl) buf' := h1
      rw [Mctp.decapApp_cons] at h1
      split at h1
      · cases h1
        exact ⟨by rw [List.take_left' rfl], rfl⟩
      · cases h1
    · split at he <;> cases he

theorem copyAt_zero {x b b' : Bytes} {u : Unit} (h : copyAt 0 x b = .ok u b') : x.length ≤ b.length ∧ b' = x ++ b.drop x.length := by
  by_cases hl : 0 + x.length ≤ b.length
  · rw [copyAt_ok hl] at h
    cases h
    exact ⟨by omega, by simp⟩
  · unfold copyAt at h
    simp at h
    split at h <;> simp_all

theorem sealed_doe : CarriesSealed PciDoe.transport where
  record m pkt r' fl h h' := by
    obtain ⟨n, buf, he, hn, rfl⟩ := intoBuf_ok h
    obtain ⟨n', buf', h1, h2, h3⟩ := intoBuf2_ok.1 h'
    dsimp only at h3
    subst h3
    have hsz : (4160 : Nat) ≤ 5000 := by decide
    generalize (4160 : Nat) = sz at *
    have he : PciDoe.encap m true (List.replicate sz 0) = .ok n buf := he
    have hm : PciDoe.aligned m.length ≤ sz := by
      have he' := he
      unfold PciDoe.encap at he'
      obtain ⟨hs, b1, _, he2⟩ := M.bind_ok.1 he'
      obtain ⟨b2, b3, hg, he3⟩ := M.bind_ok.1 he2
      obtain ⟨_, he4⟩ := M.guard_ok.1 he3
      obtain ⟨_, b4, _, he5⟩ := M.bind_ok.1 he4
      have := (M.pure_ok.1 he5).1
      omega
    have hge := PciDoe.aligned_ge m.length
    by_cases hf : 8 + PciDoe.aligned m.length ≤ sz
    · have hx := PciDoe.encap_eq m true (List.replicate sz 0) (by omega) (by rw [List.length_replicate]; exact hf)
      rw [he] at hx
      have hnb := Out.ok.inj hx
      obtain ⟨pad, hpl, hframe⟩ : ∃ pad : Bytes, pad.length = PciDoe.aligned m.length - m.length ∧
          buf.take n = 1 :: 0 :: 2 :: 0 :: (putU32 (PciDoe.lenField (PciDoe.aligned m.length)) ++ (m ++ pad)) := by
        refine ⟨List.replicate (PciDoe.aligned m.length - m.length) 0, by simp, ?_⟩
        rw [hnb.1, hnb.2, List.append_assoc, List.take_append, List.take_append]
        rw [List.take_of_length_le (l := PciDoe.header _ _) (by simp), List.take_of_length_le (l := m) (by simp; omega)]
        rw [List.drop_replicate, List.take_replicate, PciDoe.header_length,
          show min (8 + PciDoe.aligned m.length - 8 - m.length) (sz - (8 + m.length)) = PciDoe.aligned m.length - m.length by omega]
        rfl
      have hd : PciDoe.declared (PciDoe.lenField (PciDoe.aligned m.length)) = PciDoe.aligned m.length :=
        PciDoe.declared_lenField (by omega) (PciDoe.aligned_mod _)
      have hlen : (m ++ pad).length = PciDoe.aligned m.length := by rw [List.length_append]; omega
      rw [hframe] at h1
      have h1 := (PciDoe.decap_eq 1 0 2 0 _ (m ++ pad) _).symm.trans h1
      rw [hd] at h1
      split at h1
      · cases h1
        refine ⟨rfl, pad, ?_⟩
        rw [List.take_of_length_le (l := m ++ pad) (by omega), List.take_left' hlen]
      · cases h1
    · obtain ⟨b', hb', _⟩ := PciDoe.encap_short m true (List.replicate sz 0) (by omega) (by rw [List.length_replicate]; omega)
      rw [he] at hb'; cases hb'
  message m a m' fl h h' := by
    obtain ⟨n, buf, he, hn, rfl⟩ := intoBuf_ok h
    obtain ⟨n', buf', h1, h2, h3⟩ := intoBuf2_ok.1 h'
    dsimp only at h3
    subst h3
    generalize (4160 : Nat) = sz at *
    generalize (4096 : Nat) = sz' at *
    have he : PciDoe.encapApp m false (List.replicate sz 0) = .ok n buf := he
    have h1 : PciDoe.decapApp (buf.take n) (List.replicate sz' 0) = .ok (n', fl) buf' := h1
    obtain ⟨_, b1, g1, g2⟩ := M.bind_ok.1 he
    obtain ⟨g3, rfl⟩ := M.pure_ok.1 g2
    obtain ⟨-, rfl⟩ := copyAt_zero g1
    obtain ⟨_, b2, k1, k2⟩ := M.bind_ok.1 h1
    obtain ⟨k3, rfl⟩ := M.pure_ok.1 k2
    obtain ⟨-, rfl⟩ := copyAt_zero k1
    rw [← g3] at *
    cases k3
    exact ⟨by rw [List.take_left' rfl, List.take_left' rfl], rfl⟩

variable {e : REnv} {f : Env} {r0 : Ctx}

theorem SameSession.out {s s' : Session} (h : SameSession s s') : ∃ x y, s = { s' with slotId := x, secureVersion := y } := ⟨_, _, h.symm⟩

theorem SameSession.of {s' : Session} {x y : UInt8} : SameSession { s' with slotId := x, secureVersion := y } s' := rfl

theorem SameSession.channel {s s' : Session} (h : SameSession s s') (hs : s.state ≠ .notStarted) (b : Bool) : SameChannel s s' b := by
  obtain ⟨x, y, rfl⟩ := h.out
  exact ⟨rfl, hs, rfl, rfl, rfl, rfl⟩

theorem bump_slot (s : Session) (x y : UInt8) (b : Bool) :
    Session.bump { s with slotId := x, secureVersion := y } b = { s.bump b with slotId := x, secureVersion := y } := by
  cases s with
  | mk i p m st => cases st <;> cases b <;> rfl

theorem SameSession.bump {s s' : Session} (h : SameSession s s') (b : Bool) : SameSession (s.bump b) (s'.bump b) := by
  obtain ⟨x, y, rfl⟩ := h.out
  rw [bump_slot]
  exact .of

/-- what one end seals, the other end, with the same keys, opens. -/
theorem decode_encoded {p : Crypto} (hc : p.AeadLaws) {s t : Session} {b : Bool} {app rec pad : Bytes} {cap cap' : Nat} (h : SameChannel s t b)
    (he : Session.encodeMsg p s app cap (s.dir b) = .ok rec) (hcap : app.length ≤ cap') : Session.decodeMsg p t (rec ++ pad) cap' (t.dir b) = .ok app := by
  have hx : Session.encodeSecured p app cap b s = .ok rec (s.bump b) := by
    unfold Session.encodeSecured
    exact Session.dispatchDir_ok.2 ⟨h.started, he, rfl⟩
  obtain ⟨t', h1, -⟩ := Props.C14_round_trip p hc s t _ b app rec pad cap cap' h hx hcap
  unfold Session.decodeSecured at h1
  exact (Session.dispatchDir_ok.1 h1).2.1

theorem intoBuf_length {x : M Status Bytes Nat} {cap : Nat} {b : Bytes} (h : Ctx.intoBuf x cap = .ok b) : b.length ≤ cap := by
  obtain ⟨n, buf, _, h2, rfl⟩ := intoBuf_ok h
  exact Nat.le_trans (List.length_take_le _ _) h2

/-- what the responder seals arrives. -/
theorem sealed_back (hp : Peers e.toEnv f) (hc : f.crypto.AeadLaws) (ht : CarriesSealed f.tr) {s t : Session} {m p bytes : Bytes} (h : SameChannel s t false)
    (h1 : SealedBy f s m p) (h2 : RecordIn e t p bytes) : bytes = m := by
  obtain ⟨app, rec, a1, a2, a3⟩ := h1
  obtain ⟨rec', app', flag, b1, b2, b3⟩ := h2
  rw [hp.tr] at b1 b3
  rw [hp.crypto] at b2
  obtain ⟨-, pad, rfl⟩ := ht.record _ _ _ _ a3 b1
  have hd := decode_encoded (pad := pad) (cap' := 4160) hc h a2 (intoBuf_length a1)
  have := Res.ok.inj (hd.symm.trans b2)
  subst this
  exact (ht.message _ _ _ _ a1 b3).1

theorem bump_only (sid : UInt32) (l : List Session) :
    All2 (fun s s' => s' = s ∨ (s.id = sid ∧ (s'.id = sid ∨ s'.Erased))) l (Ctx.updFirst (·.id = sid) (·.bump true) l) := by
  induction l with
  | nil => exact .nil
  | cons a l ih =>
    unfold Ctx.updFirst
    split
    · rename_i h
      have h : a.id = sid := by simpa using h
      exact .cons (.inr ⟨h, .inl (by rw [Session.bump_id]; exact h)⟩) (All2.refl (fun _ => .inl rfl) _)
    · exact .cons (.inl rfl) ih

theorem header_front {id : UInt32} {seq : UInt64} {n : Nat} {l : UInt16} {t : Bytes} :
    ∃ r, Res.read .invalidParameter rdU32 (Reader.init (Session.header id seq n l ++ t)) = .ok (id, r) := by
  unfold Session.header
  rw [List.append_assoc, List.append_assoc]
  exact ⟨⟨_, _⟩, by simp [Res.read, Reader.init, rdU32_put]; exact ⟨rfl, rfl⟩⟩

/-- one exchange in a session, seen from both sides. -/
theorem linked_opens (hl : Linked e f r0) (hp : Peers e.toEnv f) (hc : f.crypto.AeadLaws) (ht : CarriesSealed f.tr) {sent : List Bytes} {rc : Ctx} {sid : UInt32} {s s' : Session}
    {req pkt p : Bytes} (h1 : e.recv (sent ++ [pkt]) = some p) (h4 : RecordOut e s req pkt) (hsid : s.id = sid) (h' : rc.session? sid = some s') (hch : SameChannel s s' true)
    (hrun : Toy.runAll f r0 sent = some rc) :
    ∃ rc', dispatchSecured f sid req (rc.updSession sid (·.bump true)) = .ok () rc' ∧ rc'.sent = rc.sent ++ [p] ∧ Toy.runAll f r0 (sent ++ [pkt]) = some rc' ∧
      SecOnly sid rc rc' := by
  obtain ⟨rc0, rc', g1, g2, g3⟩ := hl.answers _ _ _ h1
  rw [hrun] at g1
  cases g1
  obtain ⟨app, rec, a1, a2, a3⟩ := h4
  rw [hp.tr] at a1 a3
  rw [hp.crypto] at a2
  have hsid' := session?_id h'
  suffices hgoal : dispatchSecured f sid req (rc.updSession sid (·.bump true)) = .ok () rc' by
    refine ⟨rc', hgoal, g3, runAll_snoc hrun g2, ?_⟩
    have h0 : SecOnly sid rc (rc.updSession sid (·.bump true)) := by
      exact ⟨rfl, rfl, rfl, rfl, rfl, rfl, rfl, List.prefix_refl _, bump_only _ _⟩
    exact M.Pre.trans h0 ((rel_dispatchSecured _).ok hgoal)
  unfold processMessage at g2
  obtain ⟨⟨b1, fl⟩, c2, k1, k2⟩ := M.bind_ok.1 g2
  obtain ⟨k1', rfl⟩ := lift_ok.1 k1
  obtain ⟨rfl, pad, rfl⟩ := ht.record _ _ _ _ a3 k1'
  dsimp only at k2
  rw [if_pos rfl] at k2
  obtain ⟨⟨sid2, msg, isApp⟩, c3, k3, k4⟩ := M.bind_ok.1 k2
  unfold openSecured at k3
  obtain ⟨⟨sid3, r⟩, c4, k5, k6⟩ := M.bind_ok.1 k3
  obtain ⟨k5', rfl⟩ := lift_ok.1 k5
  have ha2 := a2
  rw [Session.encodeMsg_ok] at ha2
  obtain ⟨-, -, -, -, -, ct, tag, -, -, -, hrec⟩ := ha2
  have hsid3 : sid3 = sid := by
    obtain ⟨r, hr⟩ := header_front (id := s.id) (seq := (s.dir true).seq) (n := s.seqCount.toNat) (l := Session.recLen app.length 16) (t := ct ++ tag ++ pad)
    rw [hrec, List.append_assoc, List.append_assoc, ← List.append_assoc ct] at k5'
    have := Res.ok.inj (hr.symm.trans k5')
    cases this
    exact hsid
  subst hsid3
  obtain ⟨app', c5, k7, k8⟩ := M.bind_ok.1 k6
  rw [mapErr_ok] at k7
  obtain ⟨s2, k9, rfl⟩ := onSession_ok h' k7
  unfold Session.decodeSecured at k9
  obtain ⟨-, k10, rfl⟩ := Session.dispatchDir_ok.1 k9
  have hd := decode_encoded (pad := pad) (cap' := 4160) hc hch a2 (intoBuf_length a1)
  have := Res.ok.inj (hd.symm.trans k10)
  subst this
  obtain ⟨⟨msg', fl'⟩, c6, k11, k12⟩ := M.bind_ok.1 k8
  obtain ⟨k11', rfl⟩ := lift_ok.1 k11
  obtain ⟨rfl, rfl⟩ := ht.message _ _ _ _ a1 k11'
  cases k12
  dsimp only at k4
  rw [if_neg (by decide)] at k4
  have k13 := isOk_true.1 k4
  rw [← k13]
  unfold Ctx.updSession
  rw [← updFirst_const (f := fun s => s.bump true) _ h']

/-! ### what the responder sends in a session -/

/-- what `send_secured_message` does, exactly. -/
theorem sendSecured_after {sid : UInt32} {code : UInt8} {b : Bytes} {c c' : Ctx} {u : Unit} (hb : Starts code b) (h : Rsp.sendSecured f sid b false c = .ok u c') :
    ∃ s pkt, c.session? sid = some s ∧ s.state ≠ .notStarted ∧ SealedBy f s (outgoing c b) pkt ∧
      afterSecured sid (if tooLarge c b then 0x7F else code) (withSent pkt (c.updSession sid fun _ => s.bump false)) = .ok u c' := by
  have hplain : ∀ {b : Bytes} {code : UInt8}, Starts code b → sendSecuredPlain f sid b false c = .ok u c' → ∃ s pkt, c.session? sid = some s ∧ s.state ≠ .notStarted ∧
      SealedBy f s b pkt ∧ afterSecured sid code (withSent pkt (c.updSession sid fun _ => s.bump false)) = .ok u c' := by
    intro b code hb h
    unfold sendSecuredPlain at h
    obtain ⟨pkt, c1, g1, g2⟩ := M.bind_ok.1 h
    obtain ⟨s, k1, k2, k3, rfl⟩ := seals g1
    obtain ⟨_, c2, g3, g4⟩ := M.bind_ok.1 g2
    unfold Ctx.devSend at g3
    simp only [M.bind_apply, M.get_apply, M.set_apply] at g3
    cases hd : f.send (c.updSession sid fun _ => s.bump false).sent.length pkt with
    | some st => rw [hd] at g3; cases g3
    | none =>
      rw [hd] at g3
      cases g3
      obtain ⟨op, c3, g5, g6⟩ := M.bind_ok.1 g4
      rw [hb.get] at g5
      cases g5
      exact ⟨s, pkt, k1, k2, k3, g6⟩
  unfold Rsp.sendSecured at h
  rw [M.bind_apply, M.get_apply] at h
  dsimp only at h
  cases ht : tooLarge c b with
  | false =>
    have hout : outgoing c b = b := by unfold outgoing; rw [ht]; rfl
    rw [if_neg (by simp [ht])] at h
    rw [hout]
    exact hplain hb h
  | true =>
    rw [if_pos (by simp [ht])] at h
    obtain ⟨err, c1, g1, g2⟩ := M.bind_ok.1 h
    rw [writeError_nil c _ rfl] at g1
    cases g1
    have hout : outgoing c b = errorBytes c.neg.version .responseTooLarge 0 := by unfold outgoing; rw [ht]; rfl
    rw [hout]
    by_cases hl : tooLarge c (errorBytes c.neg.version .responseTooLarge 0) = true
    · rw [if_pos (by exact hl)] at g2; cases g2
    · rw [if_neg (by exact hl)] at g2
      exact hplain (starts_error _ _ _) g2

/-- the context after the answer `r` was sent. -/
def answered (sid : UInt32) (r : UInt8) (p : Bytes) (c : Ctx) (s : Session) : Ctx :=
  if r = 0x6C then withSent p (c.updSession sid fun _ => (s.bump false).setDefault)
  else if r = 0x65 ∨ r = 0x67 then withSent p (c.updSession sid fun _ => { s.bump false with state := .established })
  else withSent p (c.updSession sid fun _ => s.bump false)

theorem answered_sent {sid : UInt32} {r : UInt8} {p : Bytes} {c : Ctx} {s : Session} : (answered sid r p c s).sent = c.sent ++ [p] := by
  unfold answered
  split
  · rfl
  · split <;> rfl

theorem afterSecured_ok {sid : UInt32} {r : UInt8} {p : Bytes} {c c' : Ctx} {s : Session} {u : Unit} (hs : c.session? sid = some s)
    (h : afterSecured sid r (withSent p (c.updSession sid fun _ => s.bump false)) = .ok u c') : c' = answered sid r p c s := by
  have hid := session?_id hs
  have hs1 : (withSent p (c.updSession sid fun _ => s.bump false)).session? sid = some (s.bump false) := session?_const hs (by rw [Session.bump_id]; exact hid)
  unfold afterSecured at h
  unfold answered
  split at h
  · rename_i h1
    rw [if_pos (by exact h1)]
    rw [teardown_ok hs1] at h
    cases h
    exact congrArg (withSent p) (updSession_twice (c := c) (s := s.bump false) (by rw [Session.bump_id]; exact hid))
  · rename_i h1
    rw [if_neg (by exact h1)]
    split at h
    · rename_i h2
      rw [if_pos (by exact h2)]
      obtain ⟨s', h3, rfl⟩ := onSession_ok hs1 h
      cases h3
      exact congrArg (withSent p) (updSession_twice (c := c) (s := s.bump false) (by rw [Session.bump_id]; exact hid))
    · rename_i h2
      rw [if_neg (by exact h2)]
      cases h
      rfl

/-- The answer to a secured request, as the requester sees it: what the handler wrote, unless it is an ERROR. -/
theorem secured_answer_of (hp : Peers e.toEnv f) (hc : f.crypto.AeadLaws) (ht : CarriesSealed f.tr) {X : M Status Ctx Bytes} {rc1 rc' : Ctx} {sid : UInt32} {t : Session}
    {p bytes t' : Bytes} {v r k : UInt8} (hX : ∀ b c2, X rc1 = .ok b c2 → Starts r b ∨ Starts 0x7F b) (hX2 : ∀ b c2, X rc1 = .ok b c2 → rc1.sent <+: c2.sent)
    (hch : ∀ b c2 s2, X rc1 = .ok b c2 → c2.session? sid = some s2 → SameChannel s2 t false)
    (hout : (do let b ← X; Rsp.sendSecured f sid b false : M Status Ctx Unit) rc1 = .ok () rc') (hsent : rc'.sent = rc1.sent ++ [p]) (hin : RecordIn e t p bytes)
    (hb : bytes = v :: k :: t') (hk : k ≠ 0x7F) :
    k = r ∧ ∃ c2 s2, X rc1 = .ok bytes c2 ∧ c2.sent = rc1.sent ∧ c2.session? sid = some s2 ∧ s2.state ≠ .notStarted ∧ rc' = answered sid r p c2 s2 := by
  obtain ⟨b, c2, h1, h2⟩ := M.bind_ok.1 hout
  obtain ⟨code, hcode, hst⟩ : ∃ code, (code = r ∨ code = 0x7F) ∧ Starts code b := by
    rcases hX _ _ h1 with h | h
    · exact ⟨r, .inl rfl, h⟩
    · exact ⟨0x7F, .inr rfl, h⟩
  obtain ⟨s2, pkt, g1, g2, g3, g4⟩ := sendSecured_after hst h2
  have g5 := afterSecured_ok g1 g4
  have hpk : c2.sent = rc1.sent ∧ p = pkt := by
    have : rc'.sent = c2.sent ++ [pkt] := by
      rw [g5]; exact answered_sent
    rw [this] at hsent
    have hl := congrArg List.length hsent
    simp only [List.length_append, List.length_cons, List.length_nil] at hl
    have := List.append_inj hsent (by omega)
    exact ⟨this.1, by simpa using this.2.symm⟩
  obtain ⟨hse, rfl⟩ := hpk
  have hback := sealed_back hp hc ht (hch _ _ _ h1 g1) g3 hin
  have hfit : tooLarge c2 b = false := by
    cases ht : tooLarge c2 b with
    | false => rfl
    | true =>
      unfold outgoing at hback
      rw [ht, if_pos rfl, hb] at hback
      cases hback
      exact absurd rfl hk
  have hbb : bytes = b := by rw [hback]; unfold outgoing; rw [hfit]; rfl
  subst hbb
  rw [hfit] at g5
  obtain ⟨w, z, hz⟩ := hst
  rw [hb] at hz
  cases hz
  rcases hcode with rfl | rfl
  · exact ⟨rfl, c2, s2, h1, hse, g1, g2, g5⟩
  · exact absurd rfl hk

/-- the same, for a handler that sends nothing itself. -/
theorem secured_answer (hp : Peers e.toEnv f) (hc : f.crypto.AeadLaws) (ht : CarriesSealed f.tr) {X : M Status Ctx Bytes} {rc1 rc' : Ctx} {sid : UInt32} {t : Session}
    {p bytes t' : Bytes} {v r k : UInt8} (hX : ∀ b c2, X rc1 = .ok b c2 → Starts r b ∨ Starts 0x7F b) (hX2 : ∀ b c2, X rc1 = .ok b c2 → rc1.sent = c2.sent)
    (hch : ∀ b c2 s2, X rc1 = .ok b c2 → c2.session? sid = some s2 → SameChannel s2 t false)
    (hout : (do let b ← X; Rsp.sendSecured f sid b false : M Status Ctx Unit) rc1 = .ok () rc') (hsent : rc'.sent = rc1.sent ++ [p]) (hin : RecordIn e t p bytes)
    (hb : bytes = v :: k :: t') (hk : k ≠ 0x7F) :
    k = r ∧ ∃ c2 s2, X rc1 = .ok bytes c2 ∧ c2.session? sid = some s2 ∧ s2.state ≠ .notStarted ∧ rc' = answered sid r p c2 s2 := by
  obtain ⟨h1, c2, s2, h2, -, h3⟩ := secured_answer_of hp hc ht hX (fun b c2 h => by rw [hX2 b c2 h]; exact List.prefix_refl _) hch hout hsent hin hb hk
  exact ⟨h1, c2, s2, h2, h3⟩

/-! ### FINISH -/

theorem error_reply {code : ErrorCode} {bytes b : Bytes} {c c' : Ctx} (h : reply (errorResponse code bytes) c = .ok b c') : c' = c ∧ Starts 0x7F b := by
  have hb := (reply_wp ((codes_errorResponse code bytes).mono fun _ h => h.elim) c).ok h
  refine ⟨?_, ?_⟩
  · unfold reply errorResponse at h
    simp only [M.bind_apply, M.get_apply] at h
    cases hr : Header.read (Reader.init bytes) with
    | panic => simp [hr] at h
    | err _ _ =>
      simp only [hr, M.fail_apply] at h
      rw [writeError_nil _ _ rfl] at h
      cases h; rfl
    | ok hd _ =>
      simp only [hr] at h
      by_cases hv : hd.version ≠ c.neg.version
      · rw [if_pos hv] at h
        simp only [M.fail_apply] at h
        rw [writeError_nil _ _ rfl] at h
        cases h; rfl
      · rw [if_neg hv] at h
        simp only [M.fail_apply] at h
        rw [writeError_nil _ _ rfl] at h
        cases h; rfl
  · rcases hb with hb | ⟨_, _, rfl⟩
    · exact hb
    · exact starts_error _ _ _

/-- an ERROR is not another answer. -/
theorem error_answer (hp : Peers e.toEnv f) (hc : f.crypto.AeadLaws) (ht : CarriesSealed f.tr) {rc1 rc' : Ctx} {sid : UInt32} {s1 t : Session} {code : ErrorCode}
    {p bytes t' msg : Bytes} {v k : UInt8} (hs : rc1.session? sid = some s1) (hch : SameChannel s1 t false) (hout : Rsp.handleError f code (some sid) msg rc1 = .ok () rc')
    (hsent : rc'.sent = rc1.sent ++ [p]) (hin : RecordIn e t p bytes) (hb : bytes = v :: k :: t') (hk : k ≠ 0x7F) : False := by
  refine hk (secured_answer (r := 0x7F) hp hc ht (X := reply (errorResponse code msg)) ?_ ?_ ?_ hout hsent hin hb hk).1
  · intro b c2 h; exact .inr (error_reply h).2
  · intro b c2 h; rw [(error_reply h).1]
  · intro b c2 s2 h h2
    rw [(error_reply h).1, hs] at h2
    cases h2
    exact hch

theorem dispatch_handshake {c c' : Ctx} {sid : UInt32} {s : Session} {v k : UInt8} {t : Bytes} (hs : c.session? sid = some s) (hst : s.state = .handshaking)
    (h : dispatchSecured f sid (v :: k :: t) c = .ok () c') :
    c.cc.inClear = false ∧ (match ReqRespCode.ofCode k with
      | .reqFinish => Rsp.handleFinish f sid (v :: k :: t)
      | .reqPskFinish => Rsp.handlePskFinish f sid (v :: k :: t)
      | .reqVendorDefinedRequest => Rsp.handleVendor f (some sid) (v :: k :: t)
      | .reqGetVersion | .reqGetCapabilities | .reqNegotiateAlgorithms | .reqGetDigests | .reqGetCertificate | .reqChallenge
      | .reqGetMeasurements | .reqKeyExchange | .reqPskExchange | .reqHeartbeat | .reqKeyUpdate | .reqEndSession =>
        Rsp.handleError f .unexpectedRequest (some sid) (v :: k :: t)
      | .reqResponseIfReady => Rsp.handleError f .unsupportedRequest (some sid) (v :: k :: t)
      | _ => M.fail .unsupportedCap) c = .ok () c' := by
  unfold dispatchSecured at h
  rw [M.bind_apply, M.get_apply] at h
  dsimp only at h
  rw [hs] at h
  dsimp only at h
  rw [hst] at h
  dsimp only at h
  unfold dispatchHandshake at h
  rw [M.bind_apply, M.get_apply] at h
  dsimp only at h
  by_cases hc : c.cc.inClear = true
  · rw [if_pos hc] at h; cases h
  · rw [if_neg hc, M.bind_apply] at h
    simp only [Res.read, header_read, Res.lift] at h
    exact ⟨by simpa using hc, h⟩

theorem dispatch_application {c c' : Ctx} {sid : UInt32} {s : Session} {v k : UInt8} {t : Bytes} (hs : c.session? sid = some s) (hst : s.state = .established)
    (h : dispatchSecured f sid (v :: k :: t) c = .ok () c') :
    (match ReqRespCode.ofCode k with
      | .reqGetDigests => Rsp.handleDigest f (some sid) (v :: k :: t)
      | .reqGetCertificate => Rsp.handleCertificate f (some sid) (v :: k :: t)
      | .reqGetMeasurements => Rsp.handleMeasurement f (some sid) (v :: k :: t)
      | .reqHeartbeat => Rsp.handleHeartbeat f sid (v :: k :: t)
      | .reqKeyUpdate => Rsp.handleKeyUpdate f sid (v :: k :: t)
      | .reqEndSession => Rsp.handleEndSession f sid (v :: k :: t)
      | .reqVendorDefinedRequest => Rsp.handleVendor f (some sid) (v :: k :: t)
      | .reqGetVersion | .reqGetCapabilities | .reqNegotiateAlgorithms | .reqChallenge | .reqKeyExchange | .reqPskExchange
      | .reqFinish | .reqPskFinish => Rsp.handleError f .unexpectedRequest (some sid) (v :: k :: t)
      | .reqResponseIfReady => Rsp.handleError f .unsupportedRequest (some sid) (v :: k :: t)
      | _ => M.fail .unsupportedCap) c = .ok () c' := by
  unfold dispatchSecured at h
  rw [M.bind_apply, M.get_apply] at h
  dsimp only at h
  rw [hs] at h
  dsimp only at h
  rw [hst] at h
  dsimp only at h
  unfold dispatchApplication at h
  rw [M.bind_apply] at h
  simp only [Res.read, header_read, Res.lift] at h
  exact h

/-- the data keys depend on the secrets and the transcript only. -/
theorem genData_agree {p : Crypto} {v : SpdmVersion} {th : Bytes} {s t s' t' : Session} (hs : Session.genData p v th s = .ok () s') (ht : Session.genData p v th t = .ok () t')
    (h1 : s.hash = t.hash) (h2 : s.usePsk = t.usePsk) (h3 : s.master = t.master) (h4 : s.pskHint = t.pskHint) (h5 : s.aead = t.aead) (h6 : s.app = t.app) :
    ∃ A, s' = { s with app := A } ∧ t' = { t with app := A } := by
  obtain ⟨a, b, ka, kb, ex, g1, g2, g3, g4, g5, rfl⟩ := Session.genData_ok.1 hs
  obtain ⟨a', b', ka', kb', ex', k1, k2, k3, k4, k5, rfl⟩ := Session.genData_ok.1 ht
  rw [← h1, ← h2, ← h3, ← h4] at k1 k2 k5
  cases Res.ok.inj (g1.symm.trans k1)
  cases Res.ok.inj (g2.symm.trans k2)
  cases Res.ok.inj (g5.symm.trans k5)
  rw [← h1, ← h5] at k3 k4
  cases Res.ok.inj (g3.symm.trans k3)
  cases Res.ok.inj (g4.symm.trans k4)
  exact ⟨_, rfl, by rw [h6]⟩

/-- two sessions whose keys in force are the same. -/
structure Alike (s t : Session) : Prop where
  id : s.id = t.id
  state : s.state = t.state
  aead : s.aead = t.aead
  seqCount : s.seqCount = t.seqCount
  hs : s.state = .handshaking → s.hs = t.hs
  app : s.state = .established → s.app = t.app

theorem Alike.bump {s t : Session} (h : Alike s t) (b : Bool) : Alike (s.bump b) (t.bump b) := by
  obtain ⟨h1, h2, h3, h4, h5, h6⟩ := h
  cases s with
  | mk i p m st =>
    cases t with
    | mk i' p' m' st' =>
      cases h2
      cases st
      · exact ⟨h1, rfl, h3, h4, fun h => (by cases h), fun h => (by cases h)⟩
      · cases h5 rfl
        cases b <;> exact ⟨h1, rfl, h3, h4, fun _ => rfl, fun h => (by cases h)⟩
      · cases h6 rfl
        cases b <;> exact ⟨h1, rfl, h3, h4, fun h => (by cases h), fun _ => rfl⟩

theorem Alike.trans {s t u : Session} (h : Alike s t) (h' : Alike t u) : Alike s u :=
  ⟨h.id.trans h'.id, h.state.trans h'.state, h.aead.trans h'.aead, h.seqCount.trans h'.seqCount, fun g => (h.hs g).trans (h'.hs (h.state ▸ g)),
    fun g => (h.app g).trans (h'.app (h.state ▸ g))⟩

theorem Alike.channel {s t : Session} (h : Alike s t) (hs : s.state ≠ .notStarted) (b : Bool) : SameChannel s t b := by
  refine ⟨h.state, hs, h.id, h.aead, h.seqCount, ?_⟩
  unfold Session.dir
  rw [← h.state]
  cases hh : s.state with
  | notStarted => exact absurd hh hs
  | handshaking => cases b <;> simp only <;> rw [h.hs hh]
  | established => cases b <;> simp only <;> rw [h.app hh]

/-- what the handlers of FINISH record does not touch the counters. -/
theorem bump_fed (s : Session) (x y : UInt8) (l : Option HashCtx) (g : Bool) (t : Option HashCtx) (b : Bool) :
    Session.bump { s with slotId := x, secureVersion := y, l1l2 := l, fInit := g, th := t } b =
      { s.bump b with slotId := x, secureVersion := y, l1l2 := l, fInit := g, th := t } := by
  cases s with
  | mk i p m st => cases st <;> cases b <;> rfl

theorem bump_handshaking {s : Session} (h : s.state = .handshaking) (b : Bool) : ∃ k, s.bump b = { s with hs := k } := by
  cases s with
  | mk i p m st => cases h; cases b <;> exact ⟨_, rfl⟩

theorem bump_data {s : Session} (h : s.state = .handshaking) (A : AppSecret) (b : Bool) : Session.bump { s with app := A } b = { s.bump b with app := A } := by
  cases s with
  | mk i p m st => cases h; cases b <;> rfl

/-- both ends derive the data keys from the same secrets. -/
theorem data_agree {p : Crypto} {v : SpdmVersion} {th : Bytes} {s a b : Session} {x y : UInt8} {T0 T : Option HashCtx} (hst : s.state = .handshaking)
    (ha : Session.genData p v th { Session.bump (Session.bump { s with slotId := x, secureVersion := y, l1l2 := none, fInit := true, th := T0 } true) false with
                                   fInit := true, th := T } = .ok () a)
    (hb : Session.genData p v th { s.bump true with l1l2 := none, fInit := true, th := T } = .ok () b) :
    SameSession { a with state := .established } { b.bump false with state := .established } ∧ a.usePsk = s.usePsk ∧ a.mutAuth = s.mutAuth ∧ a.hash = s.hash := by
  cases s with
  | mk i ps m st =>
    cases hst
    obtain ⟨A, rfl, rfl⟩ := genData_agree ha hb rfl rfl rfl rfl rfl rfl
    exact ⟨rfl, rfl, rfl, rfl⟩

/-- FINISH without mutual authentication, at the responder. -/
theorem finishRsp_plain {sid : UInt32} {v sl : UInt8} {mac b : Bytes} {c c' : Ctx} {s : Session} {x : HashCtx} (hs : c.session? sid = some s) (hx : s.th = some x)
    (hm : s.mutAuth = 0) (hclear : c.cc.inClear = false) (hmac : c.cc.DigestOk mac) (h : finishRsp f sid ([v, 0xE5, 0, sl] ++ mac) c = .ok b c') :
    ∃ th2 s', s.usePsk = false ∧ b = [c.neg.version.get, 0x65, 0, 0] ∧
      f.crypto.hash x.algo (x.data ++ [v, 0xE5, 0, sl] ++ mac ++ b) = some th2 ∧
      Session.genData f.crypto c.neg.version th2 { s with l1l2 := none, fInit := true, th := some ⟨x.algo, x.data ++ [v, 0xE5, 0, sl] ++ mac ++ b⟩ } = .ok () s' ∧
      c'.session? sid = some s' := by
  obtain ⟨v', k, attr, slot, sig, mac', rest, s0, x0, d, th, rmac, th2, s', a1, a2, a3, a4, a5, a6, a7, a8, a9, a10, -, a12, a13, a14, -⟩ := finishRsp_ok h
  rw [hs] at a4
  cases a4
  rw [hx] at a5
  cases a5
  obtain ⟨rfl, rfl, rfl⟩ := a7.1 hm
  have h1 : mac.length = mac'.length := by
    unfold Cc.DigestOk at hmac a3
    rw [hmac] at a3
    exact Option.some.inj a3
  have h2 : rest = [] := by
    have := congrArg List.length a1
    simp only [List.length_append, List.length_cons, List.length_nil] at this
    exact List.eq_nil_of_length_eq_zero (by omega)
  subst h2
  simp only [List.append_nil, List.cons_append, List.nil_append, List.cons.injEq] at a1
  obtain ⟨rfl, rfl, -, rfl, rfl⟩ := a1
  have hb : b = [c.neg.version.get, 0x65, 0, 0] := by
    rw [a10]; unfold finishRspBytes; rw [hclear]; rfl
  simp only [List.append_nil] at a12 a13
  exact ⟨th2, s', a6, hb, a12, a13, a14⟩

theorem said_session {c c1 : Ctx} {sid : UInt32} {s : Session} {p : Bytes} (hs : c.session? sid = some s)
    (h : c1 = withSent p (c.updSession sid fun _ => (s.bump true).bump false)) : c1.session? sid = some ((s.bump true).bump false) := by
  rw [h]
  exact session?_const hs (by simp only [Session.bump_id]; exact session?_id hs)

/-- FINISH over the link: both ends are in the application phase of the same session. -/
theorem linked_finish (hl : Linked e f r0) (hp : Peers e.toEnv f) (hc : f.crypto.AeadLaws) (ht : CarriesSealed f.tr) {c c' rc : Ctx} {slot : Option UInt8} {sid : UInt32}
    {s s' : Session} (hrun : Toy.runAll f r0 c.sent = some rc) (hset : Settled rc c) (hs : c.session? sid = some s) (hs' : rc.session? sid = some s') (hsame : SameSession s s')
    (hm : s.mutAuth = 0) (hh : s.hash = c.neg.baseHash) (hclear : c.cc.inClear = false) (h : finish e slot sid c = .ok () c') :
    ∃ rc' t t', Toy.runAll f r0 c'.sent = some rc' ∧ c'.session? sid = some t ∧ rc'.session? sid = some t' ∧ SameSession t t' ∧ s.state = .handshaking ∧
      t.state = .established ∧ t.usePsk = false ∧ t.mutAuth = 0 ∧ t.hash = s.hash ∧ SecOnly sid rc rc' := by
  obtain ⟨sl, x, th, mac, bytes, v, p, q, rmac, tl, th2, s1, s2, c0, c1, a1, a2, a3, a4, a5, a6, a7, a8, a9, a10, -, a12, -, a14, a15, a16, -, a18, s3, a19, a20⟩ := finish_ok hs hm h
  rw [hclear] at a8 a10
  have hrm : rmac = [] := by simpa [OptOk] using a10
  subst hrm
  rw [if_neg (by decide)] at a8
  obtain ⟨pkt, pk, b1, sx, b2, b3, b4, b5, b6⟩ := a8
  rw [a5] at b2
  cases b2
  have hsid := session?_id hs
  have hsid' := session?_id hs'
  obtain ⟨x0, y0, rfl⟩ := hsame.out
  have hst : s'.state ≠ .notStarted := b3
  rw [a6] at b1
  obtain ⟨rc', g1, g2, g3, g4⟩ := linked_opens hl hp hc ht b1 b4 hsid hs' ⟨rfl, hst, rfl, rfl, rfl, rfl⟩ hrun
  have hopen : (rc.updSession sid (·.bump true)).session? sid = some (s'.bump true) := session?_upd hs' (by rw [Session.bump_id]; exact hsid')
  have hsent : rc'.sent = (rc.updSession sid (·.bump true)).sent ++ [pk] := g2
  have hcc : ∀ (F : Neg → Bool), (∀ n b, F { n with terminationPolicy := b } = F n) → F rc.neg = F c.neg := fun F hF => hset.same F hF
  have hb : bytes = v :: 0x65 :: (p :: q :: tl) := by rw [a9]; rfl
  cases hstate : s'.state with
  | notStarted => exact absurd hstate hst
  | established =>
    exfalso
    have := dispatch_application hopen (by rw [Session.bump_state]; exact hstate) g1
    have hal : Alike s' { s' with slotId := x0, secureVersion := y0, l1l2 := none, fInit := true, th := some ⟨x.algo, x.data ++ [c.neg.version.get, 0xE5, 0, sl] ++ mac⟩ } :=
      ⟨rfl, rfl, rfl, rfl, fun _ => rfl, fun _ => rfl⟩
    exact error_answer hp hc ht hopen ((hal.bump true).channel (by rw [Session.bump_state]; exact hst) false) this hsent b5 hb (by decide)
  | handshaking =>
    obtain ⟨-, hd⟩ := dispatch_handshake hopen (by rw [Session.bump_state]; exact hstate) g1
    have hclear' : (rc.updSession sid (·.bump true)).cc.inClear = false := by
      rw [← hclear]
      exact hset.same (fun n => (Cc.mk n false false).inClear) fun _ _ => rfl
    have hd : (do let b ← finishRsp f sid ([c.neg.version.get, 0xE5, 0, sl] ++ mac); Rsp.sendSecured f sid b false : M Status Ctx Unit) (rc.updSession sid (·.bump true)) = .ok () rc' := by
      change Rsp.handleFinish f sid _ _ = _ at hd
      unfold Rsp.handleFinish at hd
      rw [M.bind_apply, M.get_apply] at hd
      dsimp only at hd
      rw [hclear'] at hd
      exact hd
    have hm' : (s'.bump true).mutAuth = 0 := by obtain ⟨k, hk⟩ := bump_handshaking hstate true; rw [hk]; exact hm
    have hth : (s'.bump true).th = some x := by obtain ⟨k, hk⟩ := bump_handshaking hstate true; rw [hk]; exact a2
    have hmac : (rc.updSession sid (·.bump true)).cc.DigestOk mac := by
      have h1 : (rc.updSession sid (·.bump true)).cc.hashSize? = c.cc.hashSize? := hset.same (fun n => (Cc.mk n false false).hashSize?) fun _ _ => rfl
      unfold Cc.DigestOk
      rw [h1]
      have := hp.hmac s'.hash s'.hs.reqFinished th mac (by rw [← hp.crypto]; exact a4)
      rw [← this, show s'.hash = c.neg.baseHash from hh]
      rfl
    have hfin : ∀ b c2, finishRsp f sid ([c.neg.version.get, 0xE5, 0, sl] ++ mac) (rc.updSession sid (·.bump true)) = .ok b c2 → _ :=
      fun b c2 h => finishRsp_plain hopen hth hm' hclear' hmac h
    have hans := secured_answer (r := 0x65) (t := _) hp hc ht (X := finishRsp f sid ([c.neg.version.get, 0xE5, 0, sl] ++ mac)) ?_ ?_ ?_ hd hsent b5 hb (by decide)
    · obtain ⟨-, c2, t2, k1, k2, k3, rfl⟩ := hans
      obtain ⟨th', u', l1, l2, l3, l4, l5⟩ := hfin _ _ k1
      rw [k2] at l5
      cases l5
      have hver : (rc.updSession sid (·.bump true)).neg.version = c.neg.version := hset.same (fun n => n.version) fun _ _ => rfl
      rw [hver] at l2 l4
      have hpq : tl = [] ∧ [v, 0x65, p, q] = [c.neg.version.get, 0x65, 0, 0] := by
        rw [a9] at l2
        simp only [List.append_nil, List.cons_append, List.nil_append, List.cons.injEq] at l2
        obtain ⟨rfl, -, rfl, rfl, rfl⟩ := l2
        exact ⟨rfl, rfl⟩
      obtain ⟨rfl, hrsp⟩ := hpq
      rw [l2, ← hp.crypto] at l3
      simp only [hrsp, List.append_nil] at a12 a14 a20
      rw [a12] at l3
      cases l3
      rw [l2, ← hp.crypto] at l4
      have hs3 := said_session a5 b6
      rw [a19] at hs3
      rw [Option.some.inj hs3] at a20
      rw [a20] at a14
      obtain ⟨e1, e2, e3, e4⟩ := data_agree hstate a14 l4
      refine ⟨_, _, _, ?_, a15, ?_, e1, rfl, rfl, ?_, ?_, e4, g4⟩
      · rw [a18, b6, show ∀ g, (withSent pkt (c0.updSession sid g)).sent = c0.sent ++ [pkt] from fun _ => rfl, a6]; exact g3
      · exact session?_const k2 (by show (Session.bump _ false).id = sid; rw [Session.bump_id]; exact session?_id k2)
      · exact e2.trans (by obtain ⟨k, hk⟩ := bump_handshaking hstate true; rw [hk] at l1; exact l1)
      · exact e3.trans hm
    · intro b c2 h
      exact .inl ((post_finishRsp (e := f) sid _ _).ok h)
    · intro b c2 h
      exact ((ns_finishRsp (e := f) (i := sid) _ _).ok h).symm
    · intro b c2 t2 h h2
      obtain ⟨th', u', k1, k2, k3, k4, k5⟩ := hfin b c2 h
      rw [k5] at h2
      cases h2
      obtain ⟨_, _, _, _, _, -, -, -, -, -, rfl⟩ := Session.genData_ok.1 k4
      refine Alike.channel (Alike.trans (t := s'.bump true) ?_ (Alike.bump (s := s') ?_ true)) ?_ false
      · exact ⟨rfl, rfl, rfl, rfl, fun _ => rfl, fun h => absurd h (by rw [show Session.state _ = (s'.bump true).state from rfl, Session.bump_state, hstate]; decide)⟩
      · exact ⟨rfl, rfl, rfl, rfl, fun _ => rfl, fun _ => rfl⟩
      · rw [show Session.state _ = (s'.bump true).state from rfl, Session.bump_state]; exact hst

end Req
end Verif
