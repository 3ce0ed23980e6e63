/-
Application data over a link.
-/
import Verif.Requester.LinkedStep

namespace Verif
namespace Req
open Rsp
open Props (SameChannel)

variable {e : REnv} {f : Env} {r0 : Ctx}

/-- Application data comes out of the transport as it went in, and still marked as application data. -/
def MarksApp (tr : Transport) : Prop :=
  ∀ m a cap m' fl, Ctx.intoBuf (tr.encapApp m true) 4160 = .ok a → Ctx.intoBuf2 (tr.decapApp a) cap = .ok (m', fl) → m' = m ∧ fl = true

theorem marks_mctp : MarksApp Mctp.transport := by
  intro m a cap m' fl h h'
  obtain ⟨n, buf, he, hn, rfl⟩ := intoBuf_ok h
  obtain ⟨n', buf', h1, h2, h3⟩ := intoBuf2_ok.1 h'
  dsimp only at h3
  subst h3
  generalize (4160 : Nat) = sz at *
  have he : Mctp.encapApp m true (List.replicate sz 0) = .ok n buf := he
  rw [Mctp.encapApp_eq] at he
  split at he
  · have hnb := Out.ok.inj he
    have hframe : buf.take n = 1 :: m := by
      rw [← hnb.1, ← hnb.2]
      simp [Nat.add_comm 1]
    rw [hframe] at h1
    have h1 : Mctp.decapApp (1 :: m) (List.replicate cap 0) = .ok (n', fl) buf' := h1
    rw [Mctp.decapApp_cons] at h1
    split at h1
    · cases h1
      exact ⟨by rw [List.take_left' rfl], rfl⟩
    · cases h1
  · split at he <;> cases he

/-- An answer of the application that is not taken for a response that ends a phase of the session (finding F2). -/
def Harmless (b : Bytes) : Prop := ∃ x y t, b = x :: y :: t ∧ y ≠ 0x6C ∧ y ≠ 0x65 ∧ y ≠ 0x67

/-- Application data in a session: the requester gets what the responder's application answered, and the sessions stay the same. -/
theorem linked_application (hl : Linked e f r0) (hp : Peers e.toEnv f) (hc : f.crypto.AeadLaws) (ht : CarriesSealed f.tr) (hm : MarksApp f.tr)
    {c c1 c' rc : Ctx} {sid : UInt32} {s s' : Session} {data b : Bytes} {u : Unit} (ha : ∀ b, f.app sid data = some b → Harmless b) (hrun : Toy.runAll f r0 c.sent = some rc) (hs : c.session? sid = some s)
    (hs' : rc.session? sid = some s') (hsame : SameSession s s') (h1 : sendSecured e sid data true c = .ok u c1) (h2 : receiveSecured e sid c1 = .ok b c') :
    ∃ rc' t t', Toy.runAll f r0 c'.sent = some rc' ∧ c'.session? sid = some t ∧ rc'.session? sid = some t' ∧ SameSession t t' ∧ t = (s.bump true).bump false ∧
      SecOnly sid rc rc' ∧ f.app sid data = some b := by
  have hsid := session?_id hs
  have hsid' := session?_id hs'
  -- the requester
  unfold sendSecured at h1
  obtain ⟨_, _, h00, h01⟩ := M.bind_ok.1 h1
  cases h00
  rw [if_neg (by rintro ⟨h, -⟩; cases h)] at h01
  obtain ⟨pkt, c2, h3, h4⟩ := M.bind_ok.1 h01
  unfold Ctx.encodeSecured at h3
  obtain ⟨app, c3, h5, h6⟩ := M.bind_ok.1 h3
  obtain ⟨a1, rfl⟩ := liftOk.1 h5
  obtain ⟨rec, c4, h7, h8⟩ := M.bind_ok.1 h6
  obtain ⟨a3, rfl⟩ := liftOk.1 h8
  obtain ⟨t1, h9, rfl⟩ := onSession_ok hs h7
  obtain ⟨hst, a2, rfl⟩ := Session.dispatchDir_ok.1 h9
  obtain ⟨rfl, -⟩ := devSend_ok h4
  obtain ⟨p, h10, h11⟩ := receiveSecured_ok h2
  obtain ⟨s2, h12, -, h13, rfl⟩ := decodeSecured_ok h11
  have hs2 : (withSent pkt (c3.updSession sid fun _ => s.bump true)).session? sid = some (s.bump true) := session?_const hs (by rw [Session.bump_id]; exact hsid)
  rw [hs2] at h12
  cases h12
  -- the responder
  obtain ⟨rc0, rc', g1, g2, g3⟩ := hl.answers _ _ _ (show e.recv (c3.sent ++ [pkt]) = some p from h10)
  rw [hrun] at g1
  cases g1
  rw [hp.tr] at a1 a3
  rw [hp.crypto] at a2
  have hst' : s'.state ≠ .notStarted := by obtain ⟨x, y, rfl⟩ := hsame.out; exact hst
  have hch := hsame.channel hst true
  have hopen : (rc.updSession sid (·.bump true)).session? sid = some (s'.bump true) := session?_upd hs' (by rw [Session.bump_id]; exact hsid')
  have hd : dispatchApp f sid data (rc.updSession sid (·.bump true)) = .ok () rc' := by
    unfold processMessage at g2
    obtain ⟨⟨b1, fl⟩, c2, k1, k2⟩ := M.bind_ok.1 g2
    obtain ⟨k1', rfl⟩ := lift_ok.1 k1
    obtain ⟨rfl, pad, rfl⟩ := ht.record _ _ _ _ a3 k1'
    dsimp only at k2
    rw [if_pos rfl] at k2
    obtain ⟨⟨sid2, msg, isApp⟩, c3, k3, k4⟩ := M.bind_ok.1 k2
    unfold openSecured at k3
    obtain ⟨⟨sid3, r⟩, c4, k5, k6⟩ := M.bind_ok.1 k3
    obtain ⟨k5', rfl⟩ := lift_ok.1 k5
    have ha2 := a2
    rw [Session.encodeMsg_ok] at ha2
    obtain ⟨-, -, -, -, -, ct, tag, -, -, -, hrec⟩ := ha2
    have hsid3 : sid3 = sid := by
      obtain ⟨r, hr⟩ := header_front (id := s.id) (seq := (s.dir true).seq) (n := s.seqCount.toNat) (l := Session.recLen app.length 16) (t := ct ++ tag ++ pad)
      rw [hrec, List.append_assoc, List.append_assoc, ← List.append_assoc ct] at k5'
      have := Res.ok.inj (hr.symm.trans k5')
      cases this
      exact hsid
    subst hsid3
    obtain ⟨app', c5, k7, k8⟩ := M.bind_ok.1 k6
    rw [mapErr_ok] at k7
    obtain ⟨s2, k9, rfl⟩ := onSession_ok hs' k7
    unfold Session.decodeSecured at k9
    obtain ⟨-, k10, rfl⟩ := Session.dispatchDir_ok.1 k9
    have hd := decode_encoded (pad := pad) (cap' := 4160) hc hch a2 (intoBuf_length a1)
    have := Res.ok.inj (hd.symm.trans k10)
    subst this
    obtain ⟨⟨msg', fl'⟩, c6, k11, k12⟩ := M.bind_ok.1 k8
    obtain ⟨k11', rfl⟩ := lift_ok.1 k11
    obtain ⟨rfl, rfl⟩ := hm _ _ _ _ _ a1 k11'
    cases k12
    dsimp only at k4
    rw [if_pos rfl] at k4
    have k13 := isOk_true.1 k4
    rw [← k13]
    unfold Ctx.updSession
    rw [← updFirst_const (f := fun s => s.bump true) _ hs']
  have hsec : SecOnly sid rc rc' :=
    M.Pre.trans (R := SecOnly sid) (b := rc.updSession sid (·.bump true)) ⟨rfl, rfl, rfl, rfl, rfl, rfl, rfl, List.prefix_refl _, bump_only _ _⟩ ((rel_dispatchApp _ _).ok hd)
  unfold dispatchApp at hd
  obtain ⟨ans, c5, k1, k2⟩ := M.bind_ok.1 hd
  obtain ⟨hap, rfl⟩ := unwrap_ok.1 k1
  obtain ⟨x, y, tl, rfl, n1, n2, n3⟩ := ha _ hap
  unfold Rsp.sendSecured at k2
  obtain ⟨_, _, k00, k01⟩ := M.bind_ok.1 k2
  cases k00
  rw [if_neg (by rintro ⟨h, -⟩; cases h)] at k01
  unfold sendSecuredPlain at k01
  obtain ⟨pk, c6, k3, k4⟩ := M.bind_ok.1 k01
  unfold Ctx.encodeSecured at k3
  obtain ⟨app2, c7, k5, k6⟩ := M.bind_ok.1 k3
  obtain ⟨b1, rfl⟩ := liftOk.1 k5
  obtain ⟨rec2, c8, k7, k8⟩ := M.bind_ok.1 k6
  obtain ⟨b3, rfl⟩ := liftOk.1 k8
  obtain ⟨t2, k9, rfl⟩ := onSession_ok hopen k7
  obtain ⟨-, b2, rfl⟩ := Session.dispatchDir_ok.1 k9
  obtain ⟨_, c9, k10, k11⟩ := M.bind_ok.1 k4
  obtain ⟨rfl, -⟩ := devSend_ok (e := { f with recv := fun _ => none }) k10
  obtain ⟨op, c10, k12, k13⟩ := M.bind_ok.1 k11
  cases k12
  unfold afterSecured at k13
  rw [if_neg (show ¬ y = ReqRespCode.rspEndSessionAck.get from n1), if_neg (by rintro (h | h) <;> contradiction)] at k13
  cases k13
  have hpk : pk = p := by
    have : (rc.sent ++ [pk] : List Bytes) = rc.sent ++ [p] := g3
    simpa using this
  subst hpk
  have hbs : b = x :: y :: tl := by
    obtain ⟨rec', app', flag, d1, d2, d3⟩ := h13
    rw [hp.tr] at d1 d3
    rw [hp.crypto] at d2
    obtain ⟨-, pad, rfl⟩ := ht.record _ _ _ _ b3 d1
    have hch2 := (hsame.bump true).channel (by rw [Session.bump_state]; exact hst) false
    have hd := decode_encoded (pad := pad) (cap' := 4160) hc ⟨hch2.state.symm, by rw [← hch2.state, Session.bump_state]; exact hst, hch2.id.symm, hch2.aead.symm, hch2.seqCount.symm, hch2.keys.symm⟩ b2 (intoBuf_length b1)
    have := Res.ok.inj (hd.symm.trans d2)
    subst this
    exact (hm _ _ _ _ _ b1 d3).1
  refine ⟨_, _, _, runAll_snoc hrun g2, session?_const hs2 (by rw [Session.bump_id, Session.bump_id]; exact hsid), session?_const hopen (by rw [Session.bump_id, Session.bump_id]; exact hsid'),
    (hsame.bump true).bump false, rfl, hsec, by rw [hbs]; exact hap⟩

theorem step_application (hf : Fit e f r0) {c c1 c' rc : Ctx} (h : InStep f r0 rc c) (hm : MarksApp f.tr) {sid : UInt32} (h0 : sid ≠ 0) {data b : Bytes} {u : Unit}
    (ha : ∀ b, f.app sid data = some b → Harmless b) (h1 : sendSecured e sid data true c = .ok u c1) (h2 : receiveSecured e sid c1 = .ok b c') :
    ∃ rc', InStep f r0 rc' c' ∧ f.app sid data = some b := by
  have hk : Kept (some sid) c c' := M.Pre.trans (R := Kept (some sid)) (kept_frame ((rel_sendSecured sid data true c).ok h1)) (kept_frame ((rel_receiveSecured sid c1).ok h2))
  cases hs : c.session? sid with
  | none =>
    unfold sendSecured at h1
    obtain ⟨_, _, h00, h01⟩ := M.bind_ok.1 h1
    cases h00
    rw [if_neg (by rintro ⟨h, -⟩; cases h)] at h01
    obtain ⟨pkt, c2, h3, h4⟩ := M.bind_ok.1 h01
    unfold Ctx.encodeSecured at h3
    obtain ⟨app, c3, h5, h6⟩ := M.bind_ok.1 h3
    obtain ⟨a1, rfl⟩ := liftOk.1 h5
    obtain ⟨rec, c4, h7, h8⟩ := M.bind_ok.1 h6
    simp [Ctx.onSession, hs] at h7
  | some s =>
    obtain ⟨s', g1, g2, g3, g4⟩ := h.lookup h0 hs
    obtain ⟨rc', t, t', b1, b2, b3, b4, b5, b6, b7⟩ := linked_application hf.linked hf.peers hf.aead hf.carries hm ha h.run hs g1 g2 h1 h2
    refine ⟨rc', h.session hk b6 b1 b2 b3 b4 ?_ ?_, b7⟩
    · rw [b5, (bump_same _ _).1, (bump_same _ _).1]; exact g3
    · rw [b5, (bump_same _ _).2, (bump_same _ _).2]; exact g4

end Req
end Verif
