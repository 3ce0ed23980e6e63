/-
GET_DIGESTS, GET_CERTIFICATE and GET_MEASUREMENTS inside a session, over a link.
-/
import Verif.Requester.LinkedOps
import Verif.Requester.LinkedCert
import Verif.Responder.SessionDoes

namespace Verif
namespace Req

open Rsp
open Props (SameChannel Opens)

variable {e : REnv} {f : Env} {r0 : Ctx}

/-- a request of the application phase, answered by a writer that touches nothing but transcripts. -/
theorem linked_inside (hl : Linked e f r0) (hp : Peers e.toEnv f) (hc : f.crypto.AeadLaws) (ht : CarriesSealed f.tr) {c c1 rc : Ctx} {sid : UInt32}
    {s s' : Session} (hrun : Toy.runAll f r0 c.sent = some rc) (hs : c.session? sid = some s) (hs' : rc.session? sid = some s') (hal : Alike s' s)
    {k r v w : UInt8} {X : H Bytes} {msg tl bytes : Bytes} (hk : k = 0xE8 ∨ k = 0xE9 ∨ k = 0xEC ∨ k = 0x81 ∨ k = 0x82 ∨ k = 0xE0) (hr : r ≠ 0x7F)
    (hsaid : Said e (some sid) c (w :: k :: msg) bytes c1) (hb : bytes = v :: r :: tl)
    (hX : ∀ c t c', dispatchSecured f sid (w :: k :: msg) c = .ok () c' → c.session? sid = some t → t.state = .established →
      (do let b ← reply X; Rsp.sendSecured f sid b false : M Status Ctx Unit) c = .ok () c')
    (hcodes : Codes r (Starts r) X) (hfr : M.Rel (Frame true (some sid)) X) (hom : M.Rel (OnlyM sid) X) :
    ∃ rc' pk c2 t2, Toy.runAll f r0 c1.sent = some rc' ∧ s'.state = .established ∧ c1.session? sid = some ((s.bump true).bump false) ∧
      reply X (rc.updSession sid (·.bump true)) = .ok bytes c2 ∧ c2.sent = rc.sent ∧ c2.session? sid = some t2 ∧ rc' = answered sid r pk c2 t2 ∧ SecOnly sid rc rc' := by
  obtain ⟨pkt, pk, b1, sx, b2, b3, b4, b5, b6⟩ := hsaid
  have hsid := session?_id hs
  have hsid' := session?_id hs'
  rw [hs] at b2
  cases b2
  have hst : s'.state ≠ .notStarted := by rw [hal.state]; exact b3
  have hal' : Alike s s' := ⟨hal.id.symm, hal.state.symm, hal.aead.symm, hal.seqCount.symm, fun g => (hal.hs (hal.state.trans g)).symm, fun g => (hal.app (hal.state.trans g)).symm⟩
  obtain ⟨rc', g1, g2, g3, g4⟩ := linked_opens hl hp hc ht b1 b4 hsid hs' (hal'.channel b3 true) hrun
  have hopen : (rc.updSession sid (·.bump true)).session? sid = some (s'.bump true) := session?_upd hs' (by rw [Session.bump_id]; exact hsid')
  have hst1 : (s'.bump true).state ≠ .notStarted := by rw [Session.bump_state]; exact hst
  have hch := (hal.bump true).channel hst1 false
  have hest := application_only hp hc ht hopen hst1 (fun _ => hch) hk g1 g2 b5 hb hr
  have hd := hX _ _ _ g1 hopen hest
  have hgo : ∀ b c2, reply X (rc.updSession sid (·.bump true)) = .ok b c2 → Starts r b ∨ Starts 0x7F b := by
    intro b c2 h
    rcases (reply_wp hcodes _).ok h with h | ⟨_, _, rfl⟩
    · exact .inl h
    · exact .inr (starts_error _ _ _)
  have hans := secured_answer_of (r := r) (t := _) hp hc ht (X := reply X) hgo (fun b c2 h => ((rel_reply hfr _).ok h).sent) ?_ hd g2 b5 hb hr
  · obtain ⟨-, c2, t2, k1, k2, k3, k4, rfl⟩ := hans
    refine ⟨_, pk, c2, t2, ?_, ?_, said_session hs b6, k1, k2, k3, rfl, g4⟩
    · rw [b6]; exact g3
    · rw [Session.bump_state] at hest; exact hest
  · intro b c2 t2 h h2
    obtain ⟨x, h3⟩ := (rel_reply hom _).ok h _ hopen
    rw [h2] at h3
    cases h3
    exact Alike.channel (Alike.trans (s := { s'.bump true with l1l2 := x }) (t := s'.bump true) ⟨rfl, rfl, rfl, rfl, fun _ => rfl, fun _ => rfl⟩ (hal.bump true)) hst1 false

/-- GET_DIGESTS in a session. -/
theorem linked_digests (hl : Linked e f r0) (hp : Peers e.toEnv f) (hc : f.crypto.AeadLaws) (ht : CarriesSealed f.tr) (hh : HashLaw f) {c c' rc : Ctx} {sid : UInt32}
    {s s' : Session} (hrun : Toy.runAll f r0 c.sent = some rc) (hs : c.session? sid = some s) (hs' : rc.session? sid = some s') (hsame : SameSession s s')
    (h : getDigests e (some sid) c = .ok () c') :
    ∃ rc' t t', Toy.runAll f r0 c'.sent = some rc' ∧ c'.session? sid = some t ∧ rc'.session? sid = some t' ∧ SameSession t t' ∧ s.state = .established ∧
      t = ((hushed s).bump true).bump false ∧ SecOnly sid rc rc' := by
  obtain ⟨bytes, tl, m, r', c1, hsaid, hb, -, -, h5⟩ := getDigests_ok h
  rw [if_neg (by intro h; cases h)] at h5
  subst h5
  obtain ⟨x, y, rfl⟩ := hsame.out
  obtain ⟨rc', pk, c2, t2, h1, h2, h3, h4, -, h6, rfl, h7⟩ := linked_inside hl hp hc ht (by rw [resetBuffers_sent]; exact hrun) (hushed_session (by decide) hs) hs'
    (hushed_alike s' x y) (by decide) (by decide) hsaid hb (fun c t c' h h2 h3 => dispatch_application h2 h3 h) (codes_digestRsp hh _ _) (rel_digestRsp _) (om_digestRsp _)
  obtain ⟨-, _, _, _, _, _, _, -, -, -, -, rfl⟩ := reply_does (k := 0x01) (digest_does_in _ _ _) h4 ⟨_, _, hb⟩ (by decide)
  have hopen : (rc.updSession sid (·.bump true)).session? sid = some (s'.bump true) := session?_upd hs' (by rw [Session.bump_id]; exact session?_id hs')
  rw [hushed_session (by decide) hopen] at h6
  cases h6
  refine ⟨_, _, _, h1, h3, answered_session (hushed_session (by decide) hopen) (by decide) (by decide) (by decide), ?_, h2, rfl, h7⟩
  rw [← hushed_bump]
  exact ((SameSession.of (s' := s')).hushed.bump true).bump false

/-- one portion in a session. -/
theorem linked_portion_in (hl : Linked e f r0) (hp : Peers e.toEnv f) (hc : f.crypto.AeadLaws) (ht : CarriesSealed f.tr) {c c' rc : Ctx} {sid : UInt32} {s s' : Session}
    {slot : UInt8} {total off len : UInt16} {out : UInt16 × UInt16} (hrun : Toy.runAll f r0 c.sent = some rc) (hsz : ∀ i ch, rc.prov.chain i = some ch → ch.length < 65536)
    (hs : c.session? sid = some s) (hs' : rc.session? sid = some s') (hq : s.l1l2 = none) (hsame : SameSession s (hushed s'))
    (h : getCertificatePartial e (some sid) slot total off len c = .ok out c') :
    ∃ rc' chain temp t t', slot = 0 ∧ rc.prov.chain 0 = some chain ∧ off.toNat ≤ chain.length ∧ Toy.runAll f r0 c'.sent = some rc' ∧ SecOnly sid rc rc' ∧
      c'.session? sid = some t ∧ rc'.session? sid = some t' ∧ SameSession t t' ∧ t.l1l2 = none ∧ s.state = .established ∧ t = (s.bump true).bump false ∧
      (let n := Props.portionLen chain.length off.toNat len.toNat
      out.1.toNat = n ∧ out.2.toNat = chain.length - off.toNat - n ∧ c.peer.temp = some temp ∧
      c'.peer = { c.peer with temp := some (storePortion off ⟨0, out.1, out.2, (chain.drop off.toNat).take n⟩ temp) }) := by
  obtain ⟨bytes, c1, p, m, temp, hsd, ⟨cc, hcc, v0, k0, t0, p0, r0', q1, q2, q3⟩, h3, h4, h5, h6, h7, h8⟩ := getCertificatePartial_ok h
  dsimp only at h8
  rw [if_neg (by intro h; cases h)] at h8
  have hbh : ∃ rest, bytes = certHeard c.neg.version.get p m ++ rest := ⟨bytes.drop r0'.used, by rw [q3]; simp⟩
  obtain ⟨rest, hrest⟩ := hbh
  have hb2 : bytes = c.neg.version.get :: 0x02 :: (([m.slot] ++ [p] ++ putU16 m.portion ++ putU16 m.remainder ++ m.data) ++ rest) := by
    rw [hrest]; rfl
  have hal : Alike s' s := by
    obtain ⟨x, y, rfl⟩ := hsame.out
    exact ⟨rfl, rfl, rfl, rfl, fun _ => rfl, fun _ => rfl⟩
  obtain ⟨rc', pk, c2, t2, g1, g2, g3, g4, -, g6, rfl, g7⟩ := linked_inside hl hp hc ht hrun hs hs' hal (k := 0x82) (r := 0x02) (by decide) (by decide) hsd hb2
    (fun c t c' h h2 h3 => dispatch_application h2 h3 h) (codes_certificateRsp _ _) (rel_certificateRsp _) (om_certificateRsp _)
  obtain ⟨-, v, k, p', off', len', t', chain, w1, w2, w3, w4, w5, rfl⟩ := reply_does (k := 0x02) (certificate_does_in sid _ (rc.updSession sid (·.bump true)) (fun i ch h => hsz i ch h)) g4 ⟨_, _, hb2⟩ (by decide)
  have hopen : (rc.updSession sid (·.bump true)).session? sid = some (s'.bump true) := session?_upd hs' (by rw [Session.bump_id]; exact session?_id hs')
  rw [hushed_session (by decide) hopen] at g6
  cases g6
  have w3 : rc.prov.chain 0 = some chain := w3
  simp only [putU16, List.cons_append, List.nil_append, List.cons.injEq] at w1
  obtain ⟨rfl, rfl, rfl, rfl, x1, x2, x3, x4, rfl⟩ := w1
  have hoff : off' = off := by
    apply UInt16.toNat_inj.1
    have a1 := congrArg UInt8.toNat x1
    have a2 := congrArg UInt8.toNat x2
    have := off.toNat_lt
    have := off'.toNat_lt
    simp [Nat.shiftRight_eq_div_pow] at a1 a2
    omega
  have hlen : len' = len := by
    apply UInt16.toNat_inj.1
    have a1 := congrArg UInt8.toNat x3
    have a2 := congrArg UInt8.toNat x4
    have := len.toNat_lt
    have := len'.toNat_lt
    simp [Nat.shiftRight_eq_div_pow] at a1 a2
    omega
  subst hoff hlen
  have hsmall := hsz _ _ w3
  have hpl : Props.portionLen chain.length off'.toNat len'.toNat ≤ 512 ∧ Props.portionLen chain.length off'.toNat len'.toNat ≤ chain.length - off'.toNat := by
    unfold Props.portionLen; omega
  generalize hn : Props.portionLen chain.length off'.toNat len'.toNat = n at hpl
  have hn1 : (UInt16.ofNat n).toNat = n := UInt16.toNat_ofNat_of_lt' (by show _ < 65536; omega)
  have hn2 : (UInt16.ofNat (chain.length - off'.toNat - n)).toNat = chain.length - off'.toNat - n := UInt16.toNat_ofNat_of_lt' (by show _ < 65536; omega)
  have hcm : [c.neg.version.get, 0x02, 0, 0] ++ putU16 (UInt16.ofNat n) ++ putU16 (UInt16.ofNat (chain.length - off'.toNat - n)) ++ (chain.drop off'.toNat).take n ++ [] =
      certHeard c.neg.version.get p m ++ rest := by
    rw [← hrest, w5, List.append_nil]
    unfold Props.certMessage
    rw [hn]
  obtain ⟨d1, d2, d3, d4⟩ := certHeard_eq (by rw [hn1, List.length_take, List.length_drop]; omega) h5 hcm
  refine ⟨_, chain, temp, _, _, rfl, w3, w4, ?_, g7, ?_, answered_session (hushed_session (by decide) hopen) (by decide) (by decide) (by decide), ?_, ?_, ?_, rfl, ?_, ?_, h7, ?_⟩
  · rw [h8]; exact g1
  · rw [h8]; exact g3
  · rw [← hushed_bump]
    exact (hsame.bump true).bump false
  · cases s with
    | mk i ps m st => cases st <;> exact hq
  · rw [← hal.state]; exact g2
  · exact (show out.1.toNat = n by rw [h6, d2, hn1]).trans hn.symm
  · rw [hn]
    show out.2.toNat = _
    rw [h6, d3, hn2]
  · rw [h8, h6]
    have : (⟨0, m.portion, m.remainder, (chain.drop off'.toNat).take n⟩ : CertRsp) = m := by rw [← d4, ← h4]
    show _ = _
    rw [hn]
    dsimp only
    rw [this]

/-- all portions, one after the other, in a session. -/
theorem linked_loop_in (hl : Linked e f r0) (hp : Peers e.toEnv f) (hc : f.crypto.AeadLaws) (ht : CarriesSealed f.tr) (fuel : Nat) {c c' rc : Ctx} {sid : UInt32} {s s' : Session}
    {slot : UInt8} {total off len out : UInt16} {chain : Bytes} (hrun : Toy.runAll f r0 c.sent = some rc) (hsz : ∀ i ch, rc.prov.chain i = some ch → ch.length < 65536)
    (hs : c.session? sid = some s) (hs' : rc.session? sid = some s') (hq : s.l1l2 = none) (hsame : SameSession s (hushed s'))
    (hch : len ≠ 0 ∨ (rc.prov.chain 0 = some chain ∧ SameSession s s')) (hend : len = 0 → off.toNat = chain.length ∧ slot = 0)
    (htemp : ∀ ch, rc.prov.chain 0 = some ch → off.toNat ≤ ch.length ∧ c.peer.temp = some (ch.take off.toNat))
    (h : certificateLoop e (some sid) slot fuel total off len c = .ok out c') :
    ∃ rc' chain t t', slot = 0 ∧ rc.prov.chain 0 = some chain ∧ Toy.runAll f r0 c'.sent = some rc' ∧ SecOnly sid rc rc' ∧ c'.peer = { c.peer with temp := some chain } ∧
      c'.session? sid = some t ∧ rc'.session? sid = some t' ∧ SameSession t t' ∧ t.mutAuth = s.mutAuth ∧ t.hash = s.hash ∧ (len ≠ 0 → s.state = .established) := by
  induction fuel generalizing c rc s s' total off len chain with
  | zero => cases h
  | succ fuel ih =>
    unfold certificateLoop at h
    by_cases hz : len = 0
    · rw [if_pos hz] at h
      cases h
      obtain ⟨hch, hss⟩ := hch.resolve_left (fun hx => hx hz)
      obtain ⟨h1, h2⟩ := htemp _ hch
      refine ⟨rc, chain, s, s', (hend hz).2, hch, hrun, SecOnly.refl _ _, ?_, hs, hs', hss, rfl, rfl, fun h => absurd hz h⟩
      rw [(hend hz).1, List.take_length] at h2
      rw [← h2]
    · rw [if_neg hz] at h
      obtain ⟨⟨portion, remainder⟩, c1, h1, h2⟩ := M.bind_ok.1 h
      obtain ⟨rc1, ch, temp, u, u', k0, k1, k2, k3, k4, u1, u2, u3, u4, u5, u6, k5, k6, k7, k8⟩ := linked_portion_in hl hp hc ht hrun hsz hs hs' hq hsame h1
      dsimp only at k5 k6 k8
      have hsm := hsz _ _ k1
      have hpl : Props.portionLen ch.length off.toNat len.toNat ≤ 512 ∧ Props.portionLen ch.length off.toNat len.toNat ≤ ch.length - off.toNat := by
        unfold Props.portionLen; omega
      generalize hn : Props.portionLen ch.length off.toNat len.toNat = n at *
      obtain ⟨_, t2⟩ := htemp _ k1
      rw [k7] at t2
      have t2 := Option.some.inj t2
      subst t2
      have hadd : (off + portion).toNat = off.toNat + n := by
        rw [UInt16.toNat_add, k5]; omega
      have hst : storePortion off ⟨0, portion, remainder, (ch.drop off.toNat).take n⟩ (ch.take off.toNat) = ch.take (off.toNat + n) := by
        unfold storePortion
        have hl : (ch.take off.toNat).length = off.toNat := by rw [List.length_take]; omega
        dsimp only
        rw [hl, k5, List.take_add, Nat.sub_self, List.replicate_zero, List.append_nil, List.take_take, List.take_take, Nat.min_self, Nat.min_self]
      rw [hst] at k8
      have hu : hushed u = u := by
        unfold hushed; rw [← u4]
      obtain ⟨rc', chain', t, t', g0, g1, g2, g3, g4, g5, g6, g7, g8, g9, -⟩ := ih (c := c1) (rc := rc1) (chain := ch) k3 (by rw [k4.prov]; exact hsz) u1 u2 u4
        (by have := u3.hushed; rw [hu] at this; exact this) (.inr ⟨by rw [k4.prov]; exact k1, u3⟩)
        (by
          intro hx
          refine ⟨?_, k0⟩
          rw [hadd]
          have hr : remainder = 0 := by
            split at hx
            · cases hx
            · exact hx
          rw [hr] at k6
          have : (0 : UInt16).toNat = 0 := rfl
          omega)
        (by
          intro ch' hch'
          rw [k4.prov, k1] at hch'
          cases hch'
          rw [hadd]
          exact ⟨by omega, by rw [k8]⟩) h2
      rw [k4.prov, k1] at g1
      cases g1
      have hfr : u.mutAuth = s.mutAuth ∧ u.hash = s.hash := by
        rw [u6]
        cases s with
        | mk i ps m st => cases st <;> exact ⟨rfl, rfl⟩
      refine ⟨rc', ch, t, t', k0, k1, g2, M.Pre.trans (R := SecOnly sid) k4 g3, ?_, g5, g6, g7, g8.trans hfr.1, g9.trans hfr.2, fun _ => u5⟩
      rw [g4, k8]

/-! ### GET_MEASUREMENTS -/

theorem bump_noted (s : Session) (x : Option HashCtx) (b : Bool) : Session.bump { s with l1l2 := x } b = { s.bump b with l1l2 := x } := by
  cases s with
  | mk i p m st => cases st <;> cases b <;> rfl

theorem bump_l1l2 (s : Session) (b : Bool) : (s.bump b).l1l2 = s.l1l2 := by
  cases s with
  | mk i p m st => cases st <;> cases b <;> rfl

theorem addM_in {c : Ctx} {sid : UInt32} {s : Session} (h : c.session? sid = some s) (msg : Bytes) :
    (addM (some sid) msg c).session? sid = some { s with l1l2 := some (nextM c (some sid) msg) } :=
  session?_upd (f := fun s => { s with l1l2 := some (nextM c (some sid) msg) }) h (show s.id = sid from session?_id h)

theorem resetM_in {c : Ctx} {sid : UInt32} {s : Session} (h : c.session? sid = some s) : (Ctx.resetM (some sid) c).session? sid = some (hushed s) :=
  session?_upd (f := hushed) h (show s.id = sid from session?_id h)

/-- the transcript after one more message. -/
def noted (n : Neg) (a : Bytes) (x : Option HashCtx) (msg : Bytes) : HashCtx :=
  match x with
  | some x => ⟨x.algo, x.data ++ msg⟩
  | none => ⟨n.baseHash, (if Cc.ge12 ⟨n, false, false⟩ then a else []) ++ msg⟩

theorem nextM_in {c : Ctx} {sid : UInt32} {s : Session} (h : c.session? sid = some s) (msg : Bytes) : nextM c (some sid) msg = noted c.neg c.rt.messageA s.l1l2 msg := by
  have : l1l2? c (some sid) = s.l1l2 := by unfold l1l2?; dsimp only; rw [h]; rfl
  unfold nextM noted
  rw [this]
  rfl

theorem getMeas_read {cc : Cc} {attr op : UInt8} {t : Bytes} {m : GetMeas} {r' : Reader} (h : GetMeas.read cc ⟨attr :: op :: t, 2⟩ = .ok m r') :
    m.attr = attr ∧ (attr &&& 1 = 0 → r'.used = 4) := by
  unfold GetMeas.read at h
  obtain ⟨a, r1, h1, h2⟩ := M.bind_ok.1 h
  rw [rdU8_ok] at h1
  obtain ⟨h1, h1'⟩ := h1
  simp only [List.cons_append, List.nil_append, List.cons.injEq] at h1
  obtain ⟨rfl, h1⟩ := h1
  split at h2
  · cases h2
  obtain ⟨o, r2, h3, h4⟩ := M.bind_ok.1 h2
  have h5 : r2.used = r1.used + 1 := by
    simp only [MeasOperation.read_ok] at h3
    have := h3.2.2
    simpa using this
  by_cases hz : attr &&& 1 = 0
  · rw [if_neg (by simpa using hz)] at h4
    cases h4
    refine ⟨rfl, fun _ => ?_⟩
    simp at h1'
    omega
  · rw [if_pos hz] at h4
    refine ⟨?_, fun h => absurd h hz⟩
    obtain ⟨nn, r3, h6, h7⟩ := M.bind_ok.1 h4
    split at h7
    · obtain ⟨_, _, _, h8⟩ := M.bind_ok.1 h7
      cases h8; rfl
    · cases h7; rfl

theorem putU24_inj {a b : UInt32} (ha : a.toNat < 16777216) (hb : b.toNat < 16777216) (h : putU24 a = putU24 b) : a = b := by
  apply UInt32.toNat_inj.1
  unfold putU24 at h
  simp only [List.cons.injEq] at h
  obtain ⟨h1, h2, h3, -⟩ := h
  have a1 := congrArg UInt8.toNat h1
  have a2 := congrArg UInt8.toNat h2
  have a3 := congrArg UInt8.toNat h3
  simp [Nat.shiftRight_eq_div_pow] at a1 a2 a3
  omega

theorem measBody_eq {v n p number param : UInt8} {record : MeasRecord} {nonce rest : Bytes} {m : Meas} (hr : record.data.length ≤ 3500) (hn : nonce.length = 32)
    (hm : m.record.data.length ≤ 4000) (hmn : m.nonce.length = 32) (ho : m.opaq.length ≤ 1024) (h : measBody v number param record nonce = measHeardBody v n p m ++ rest) :
    measHeardBody v n p m = measBody v number param record nonce := by
  have h' := h
  unfold measBody measHeardBody MeasRecord.wire opaqueWire at h
  simp only [List.cons_append, List.nil_append, List.cons.injEq, List.append_assoc] at h
  obtain ⟨-, -, -, -, -, h⟩ := h
  obtain ⟨h1, h⟩ := List.append_inj h (by simp [putU24])
  have e1 : (record.data.length.toUInt32).toNat = record.data.length := by simp; omega
  have e2 : (m.record.data.length.toUInt32).toNat = m.record.data.length := by simp; omega
  have h1 := congrArg UInt32.toNat (putU24_inj (by omega) (by omega) h1)
  rw [e1, e2] at h1
  obtain ⟨-, h⟩ := List.append_inj h h1
  obtain ⟨-, h⟩ := List.append_inj h (hn.trans hmn.symm)
  have h2 := congrArg List.length h
  simp only [putU16, List.length_append, List.length_cons, List.length_nil] at h2
  have h3 : rest = [] := List.eq_nil_of_length_eq_zero (by omega)
  rw [h', h3, List.append_nil]

theorem measHeard_in (attr : UInt8) (m : Meas) (c : Ctx) : (measHeard attr m c).sessions = c.sessions ∧ (measHeard attr m c).neg = c.neg ∧
    (measHeard attr m c).rt.messageA = c.rt.messageA := by
  obtain ⟨n1, _, _, n4, _, _, _, _, n9⟩ := noteChanged_fields m { c with rt := { c.rt with needSig := signatureRequested attr } }
  exact ⟨n9, n1, n4⟩

/-- two messages noted, one after the other. -/
theorem addM_twice {c : Ctx} {sid : UInt32} {s : Session} (h : c.session? sid = some s) (a b : Bytes) :
    (addM (some sid) b (addM (some sid) a c)).session? sid =
      some { s with l1l2 := some (noted c.neg c.rt.messageA (some (noted c.neg c.rt.messageA s.l1l2 a)) b) } := by
  have h1 := addM_in h a
  rw [addM_in h1 b, nextM_in h1, nextM_in h]
  rfl

theorem noted_same {n n' : Neg} {a a' : Bytes} {x : Option HashCtx} {msg : Bytes} (h1 : n'.baseHash = n.baseHash) (h2 : Cc.ge12 ⟨n', false, false⟩ = Cc.ge12 ⟨n, false, false⟩)
    (h3 : a' = a) : noted n' a' x msg = noted n a x msg := by
  unfold noted
  cases x with
  | some x => rfl
  | none => dsimp only; rw [h1, h2, h3]

theorem addM_sent (o : Option UInt32) (b : Bytes) (c : Ctx) : (addM o b c).sent = c.sent := by
  unfold addM
  repeat' (first | rfl | split)
theorem measHeard_sent (attr : UInt8) (m : Meas) (c : Ctx) : (measHeard attr m c).sent = c.sent := by
  unfold measHeard noteChanged
  repeat' (first | rfl | split)
theorem resetM_sent (o : Option UInt32) (c : Ctx) : (Ctx.resetM o c).sent = c.sent := by
  unfold Ctx.resetM
  repeat' (first | rfl | split)

/-- A transport that frames every message of four bytes, hence every error. -/
def Frames4 (f : Env) : Prop := ∀ a b c d : UInt8, ∃ pkt, Ctx.encap f [a, b, c, d] = .ok pkt

theorem sendError_sends {ε : Type} (hw : Frames4 f) {code : ErrorCode} {c c' : Ctx} {u : Unit} (h : (sendError f code : M ε Ctx Unit) c = .ok u c') :
    c'.sent.length = c.sent.length + 1 := by
  have key : ∀ a d x : UInt8, ∀ c', (∃ u, sendPlain f [a, 0x7F, d, x] c = .ok u c') ∨ (∃ st, sendPlain f [a, 0x7F, d, x] c = .err st c') → c'.sent.length = c.sent.length + 1 := by
    intro a d x c' hx
    obtain ⟨pkt, hp⟩ := hw a 0x7F d x
    have ha : afterSend 0x7F = pure () := rfl
    unfold sendPlain at hx
    rw [M.bind_apply, hp] at hx
    simp only [Res.lift, Ctx.devSend, M.bind_apply, M.get_apply, M.set_apply] at hx
    cases hs : f.send c.sent.length pkt with
    | none =>
      simp [hs, ha] at hx
      rw [← hx]
      simp
    | some st =>
      simp [hs] at hx
      rw [← hx]
      simp
  unfold sendError at h
  rw [M.bind_apply, M.get_apply] at h
  dsimp only at h
  rw [M.bind_apply, writeError_nil _ _ rfl, M.unwrap_some] at h
  dsimp only at h
  unfold Rsp.quiet at h
  have hm : ∀ c', (∃ u, Rsp.sendMessage f (errorBytes c.neg.version code 0) c = .ok u c') ∨ (∃ st, Rsp.sendMessage f (errorBytes c.neg.version code 0) c = .err st c') →
      c'.sent.length = c.sent.length + 1 := by
    intro c' hx
    unfold Rsp.sendMessage at hx
    rw [M.bind_apply, M.get_apply] at hx
    dsimp only at hx
    by_cases hl : tooLarge c (errorBytes c.neg.version code 0) = true
    · rw [if_pos hl, M.bind_apply, writeError_nil _ _ rfl, M.unwrap_some] at hx
      dsimp only at hx
      split at hx
      · rcases hx with ⟨_, hx⟩ | ⟨_, hx⟩ <;> cases hx
      · exact key _ _ _ c' hx
    · rw [if_neg hl] at hx
      exact key _ _ _ c' hx
  cases hx : Rsp.sendMessage f (errorBytes c.neg.version code 0) c with
  | ok a c1 =>
    rw [hx] at h
    cases h
    exact hm _ (.inl ⟨_, hx⟩)
  | err a c1 =>
    rw [hx] at h
    cases h
    exact hm _ (.inr ⟨_, hx⟩)
  | panic => rw [hx] at h; cases h

theorem SameSession.noted {s s' : Session} (h : SameSession s s') (x : Option HashCtx) : SameSession { s with l1l2 := x } { s' with l1l2 := x } := by
  obtain ⟨a, b, rfl⟩ := h.out
  exact .of

/-- GET_MEASUREMENTS in a session: the measurement transcripts of both ends stay the same. -/
theorem linked_measurements (hl : Linked e f r0) (hp : Peers e.toEnv f) (hc : f.crypto.AeadLaws) (ht : CarriesSealed f.tr) (hrl : RecordLaw f) (hw : Frames4 f) {c c' rc : Ctx} {sid : UInt32}
    {s s' : Session} {slot attr : UInt8} {op : MeasOperation} {out : UInt8 × MeasRecord} (hrun : Toy.runAll f r0 c.sent = some rc) (hset : Settled rc c)
    (hs : c.session? sid = some s) (hs' : rc.session? sid = some s') (hsame : SameSession s s') (h : getMeasurements e (some sid) slot attr op c = .ok out c') :
    ∃ rc' t t' x, Toy.runAll f r0 c'.sent = some rc' ∧ c'.session? sid = some t ∧ rc'.session? sid = some t' ∧ SameSession t t' ∧ s.state = .established ∧
      t = { (s.bump true).bump false with l1l2 := x } ∧ SecOnly sid rc rc' := by
  obtain ⟨-, nonce, bytes, rest, c1, n, p, m, hn, hsaid, hb, -, -, ⟨hm1, hm2, hm3⟩, hfin⟩ := getMeasurements_bounds h
  have hb2 : bytes = c.neg.version.get :: 0x60 :: (([n] ++ [p] ++ m.record.wire ++ m.nonce ++ opaqueWire m.opaq) ++ m.signature ++ rest) := by rw [hb]; rfl
  have hal : Alike s' s := by
    obtain ⟨x, y, rfl⟩ := hsame.out
    exact ⟨rfl, rfl, rfl, rfl, fun _ => rfl, fun _ => rfl⟩
  have hs0 : (Ctx.resetBuffers .reqGetMeasurements (some sid) c).session? sid = some s := by rw [resetMeas_fields]; exact hs
  obtain ⟨rc', pk, c2, t2, g1, g2, g3, g4, gs, g6, rfl, g7⟩ := linked_inside hl hp hc ht (by rw [resetBuffers_sent]; exact hrun) hs0 hs' hal (k := 0xE0) (r := 0x60) (by decide)
    (by decide) hsaid hb2 (fun c t c' h h2 h3 => dispatch_application h2 h3 h) (codes_measurementRsp _ _) (rel_measurementRsp _) (om_measurementRsp _)
  have hst : s.state = .established := by rw [← hal.state]; exact g2
  obtain ⟨gm, req, number, record, rnonce, asym, ⟨-, ⟨v, k, t, r', w1, w2, w3, w4⟩, -, w6, w7, -⟩, -, hdo⟩ :=
    reply_does (k := 0x60) (measurement_does hrl (some sid) _ (rc.updSession sid (·.bump true))) g4 ⟨_, _, hb2⟩ (by decide)
  dsimp only at hdo
  have hopen : (rc.updSession sid (·.bump true)).session? sid = some (s'.bump true) := session?_upd hs' (by rw [Session.bump_id]; exact session?_id hs')
  unfold GetMeas.wire at w1
  simp only [List.cons_append, List.nil_append, List.cons.injEq] at w1
  obtain ⟨rfl, rfl, rfl⟩ := w1
  obtain ⟨y1, y2⟩ := getMeas_read w3
  have hsg : gm.signed = signatureRequested attr := by
    unfold GetMeas.signed signatureRequested
    rw [y1]
    have key : ∀ a : Fin 256, ((UInt8.ofNat a.val) &&& 1 != 0) = ((UInt8.ofNat a.val) &&& 1 == 1) := by decide +kernel
    have := key ⟨attr.toNat, attr.toNat_lt⟩
    simpa using this
  have hc1 : c1.neg = c.neg ∧ c1.rt.messageA = c.rt.messageA := by
    obtain ⟨_, _, _, _, _, _, _, _, rfl⟩ := hsaid
    rw [resetMeas_fields]
    exact ⟨rfl, rfl⟩
  obtain ⟨q1, q2, q3⟩ := measHeard_in attr m c1
  have hsx : (measHeard attr m c1).session? sid = some ((s.bump true).bump false) := by
    unfold Ctx.session?; rw [q1]; exact g3
  have hreq2 := addM_twice hsx (measRequest c slot attr op nonce) (measHeardBody c.neg.version.get n p m)
  have hms : (measStart (some sid) (rc.updSession sid (·.bump true)) gm.signed).session? sid = some (s'.bump true) := by
    unfold measStart; rw [resetMeas_fields]; exact hopen
  have hmn : (measStart (some sid) (rc.updSession sid (·.bump true)) gm.signed).neg = rc.neg ∧
      (measStart (some sid) (rc.updSession sid (·.bump true)) gm.signed).rt.messageA = rc.rt.messageA := by
    unfold measStart; rw [resetMeas_fields]; exact ⟨rfl, rfl⟩
  have hsent : c'.sent = c1.sent := by
    dsimp only at hfin
    split at hfin
    · obtain ⟨_, _, -, -, -, -, -, rfl⟩ := hfin; rw [resetM_sent, addM_sent, addM_sent, measHeard_sent]
    · obtain ⟨-, rfl⟩ := hfin; rw [addM_sent, addM_sent, measHeard_sent]
  dsimp only at hfin
  cases hsig : signatureRequested attr with
  | true =>
    rw [hsig, if_pos rfl] at hfin
    rw [hsg, hsig, if_pos rfl] at hdo
    obtain ⟨_, _, -, -, -, -, -, rfl⟩ := hfin
    rcases hdo with ⟨sig, -, -, -, rfl⟩ | ⟨st, -, -, hbad⟩
    · refine ⟨_, _, _, none, by rw [hsent]; exact g1, resetM_in hreq2, answered_session g6 (by decide) (by decide) (by decide), ?_, hst, rfl, g7⟩
      have hq := resetM_in (addM_twice hms req (measBody (rc.updSession sid (·.bump true)).neg.version.get number
        (measParam2 (rc.updSession sid (·.bump true)) gm.signed gm.slot) record rnonce))
      rw [hsg, hsig] at hq
      rw [hq] at g6
      cases g6
      have := ((hsame.bump true).bump false).hushed
      show SameSession (hushed ((s.bump true).bump false)) ((hushed (s'.bump true)).bump false)
      rw [hushed_bump]
      exact this
    · exfalso
      have := sendError_sends hw hbad
      rw [gs, addM_sent, addM_sent] at this
      have hq : (measStart (some sid) (rc.updSession sid (·.bump true)) true).sent = rc.sent := by
        unfold measStart; rw [resetMeas_fields]; rfl
      rw [hq] at this
      omega
  | false =>
    rw [hsig] at hfin hsg
    rw [if_neg (by decide)] at hfin
    rw [hsg, if_neg (by decide)] at hdo
    obtain ⟨hms0, rfl⟩ := hfin
    obtain ⟨hbody, rfl⟩ := hdo
    have hz : attr &&& 1 = 0 := by
      unfold signatureRequested at hsig
      have key : ∀ a : Fin 256, ((UInt8.ofNat a.val) &&& 1 == 1) = false → (UInt8.ofNat a.val) &&& 1 = 0 := by decide +kernel
      have := key ⟨attr.toNat, attr.toNat_lt⟩
      simp only [UInt8.ofNat_toNat] at this
      exact this (by simpa using hsig)
    have hrq : req = measRequest c slot attr op nonce := by
      rw [w4, y2 hz, measRequest, GetMeas.wire]
      dsimp only
      rw [if_neg (by simp [hz])]
      rfl
    have hrec : record.data.length ≤ 3500 := by
      obtain ⟨total, -, hx⟩ := w6
      split at hx
      · exact hrl _ _ _ _ _ hx.2
      · rw [hx.2]; exact Nat.zero_le _
      · exact hrl _ _ _ _ _ hx.2.2
    have hver : (rc.updSession sid (·.bump true)).neg.version.get = c.neg.version.get := congrArg _ (hset.same (fun n => n.version) (fun _ _ => rfl))
    have hbd : measHeardBody c.neg.version.get n p m = measBody c.neg.version.get number (measParam2 (rc.updSession sid (·.bump true)) gm.signed gm.slot) record rnonce :=
      measBody_eq (rest := rest) hrec (random_length w7) hm1 hm2 hm3 (by rw [← hver, hsg, ← hbody, hb, hms0, List.append_nil, hver])
    rw [hbd] at hreq2
    rw [hsg] at hms hmn
    have hq := addM_twice hms req (measBody c.neg.version.get number (measParam2 (rc.updSession sid (·.bump true)) gm.signed gm.slot) record rnonce)
    rw [hver] at g1 g6 g7
    rw [hsg] at hq hreq2
    rw [g6] at hq
    refine ⟨_, _, _, _, by rw [hsent]; exact g1, by rw [hbd, hsg]; exact hreq2, answered_session g6 (by decide) (by decide) (by decide), ?_, hst, rfl, g7⟩
    rw [Option.some.inj hq, bump_noted (s'.bump true) _ false, hmn.1, hmn.2, q2, q3, hc1.1, hc1.2, hrq]
    have hl : (s'.bump true).l1l2 = ((s.bump true).bump false).l1l2 := by
      rw [bump_l1l2, bump_l1l2, bump_l1l2]
      obtain ⟨x, y, rfl⟩ := hsame.out
      rfl
    rw [hl, noted_same (n := c.neg) (n' := rc.neg) (hset.same (fun n => n.baseHash) (fun _ _ => rfl)) (hset.same (fun n => Cc.ge12 ⟨n, false, false⟩) (fun _ _ => rfl))
      hset.transcript, noted_same (n := c.neg) (n' := rc.neg) (hset.same (fun n => n.baseHash) (fun _ _ => rfl)) (hset.same (fun n => Cc.ge12 ⟨n, false, false⟩) (fun _ _ => rfl))
      hset.transcript]
    exact ((hsame.bump true).bump false).noted _

end Req
end Verif
