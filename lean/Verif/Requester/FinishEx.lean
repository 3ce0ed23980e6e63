/-
FINISH and PSK_FINISH at the requester: what success means, and what a failure leaves.
-/
import Verif.Requester.History

namespace Verif
namespace Req
open Rsp

variable {e : REnv} {sid : UInt32}

/-! ### failure -/

theorem orClose_ok {α : Type} {x : M Status Ctx α} {c c' : Ctx} {a : α} (h : orClose sid x c = .ok a c') : x c = .ok a c' := by
  unfold orClose at h
  simp only [M.bind_apply, M.try', closeAnd] at h
  cases hx : x c with
  | panic => simp [hx] at h
  | ok b c1 => simpa [hx] using h
  | err st c1 =>
    simp only [hx] at h
    cases ho : Ctx.onSession sid M.panic (Session.teardown sid) c1 with
    | panic => simp [ho] at h
    | ok b c1 => simp [ho] at h
    | err st c1 => simp [ho] at h

theorem orCloseIf_ok {α : Type} {x : M Status Ctx α} {c c' : Ctx} {a : α} (h : orCloseIf sid x c = .ok a c') : x c = .ok a c' := by
  unfold orCloseIf at h
  simp only [M.bind_apply, M.try'] at h
  cases hx : x c with
  | panic => simp [hx] at h
  | ok b c1 => simpa [hx] using h
  | err st c1 =>
    simp only [hx] at h
    cases ho : Ctx.onSession sid (pure ()) (Session.teardown sid) c1 with
    | panic => simp [ho] at h
    | ok b c1 => simp [ho] at h
    | err st c1 => simp [ho] at h

/-- the session with that id was closed: its slot is as a new one. -/
def Closed (sid : UInt32) (c c' : Ctx) : Prop := (∃ s, c.session? sid = some s ∧ c' = c.updSession sid fun _ => s.setDefault) ∨ (c.session? sid = none ∧ c' = c)

theorem teardown_ok {missing : M Status Ctx Unit} {c : Ctx} {s : Session} (hs : c.session? sid = some s) :
    Ctx.onSession sid missing (Session.teardown sid) c = .ok () (c.updSession sid fun _ => s.setDefault) := by
  have hid := session?_id hs
  have : Session.teardown sid s = .ok () s.setDefault := by
    simp [Session.teardown, hid]
  simp [Ctx.onSession, hs, this]

theorem orClose_err {α : Type} {x : M Status Ctx α} {c c' : Ctx} {st : Status} (h : orClose sid x c = .err st c') :
    ∃ c1, x c = .err st c1 ∧ Closed sid c1 c' := by
  unfold orClose at h
  simp only [M.bind_apply, M.try', closeAnd] at h
  cases hx : x c with
  | panic => simp [hx] at h
  | ok b c1 => simp [hx] at h
  | err st1 c1 =>
    simp only [hx] at h
    cases hs : c1.session? sid with
    | none => simp [Ctx.onSession, hs] at h
    | some s =>
      rw [M.bind_apply, teardown_ok hs] at h
      simp only [M.fail_apply] at h
      cases h
      exact ⟨_, rfl, .inl ⟨s, hs, rfl⟩⟩

theorem orCloseIf_err {α : Type} {x : M Status Ctx α} {c c' : Ctx} {st : Status} (h : orCloseIf sid x c = .err st c') :
    ∃ c1, x c = .err st c1 ∧ Closed sid c1 c' := by
  unfold orCloseIf at h
  simp only [M.bind_apply, M.try'] at h
  cases hx : x c with
  | panic => simp [hx] at h
  | ok b c1 => simp [hx] at h
  | err st1 c1 =>
    simp only [hx] at h
    cases hs : c1.session? sid with
    | none =>
      simp only [Ctx.onSession, M.bind_apply, M.get_apply, hs, M.pure_apply, M.fail_apply] at h
      cases h
      exact ⟨_, rfl, .inr ⟨hs, rfl⟩⟩
    | some s =>
      rw [M.bind_apply, teardown_ok hs] at h
      simp only [M.fail_apply] at h
      cases h
      exact ⟨_, rfl, .inl ⟨s, hs, rfl⟩⟩

/-- in a table in order, closing a session leaves no session with its id. -/
theorem closed_none {c c' : Ctx} (h0 : sid ≠ 0) (ht : ReqTable 0 c.sessions) (hl : c.sessions.length < 0xFFFD) (h : Closed sid c c') : c'.session? sid = none := by
  rcases h with ⟨s, hs, rfl⟩ | ⟨hs, rfl⟩
  · unfold Ctx.session? Ctx.updSession at *
    dsimp only
    have hd : s.setDefault.id = 0 := rfl
    generalize s.setDefault = s' at hd
    clear hs
    have key : ∀ (l : List Session) (i : Nat), ReqTable i l → i + l.length < 0xFFFD → (Ctx.updFirst (·.id = sid) (fun _ => s') l).find? (·.id = sid) = none := by
      intro l
      induction l with
      | nil => intro i _ _; rfl
      | cons a l ih =>
        intro i ht hl
        by_cases ha : a.id = sid
        · rw [show Ctx.updFirst (·.id = sid) (fun _ => s') (a :: l) = s' :: l by simp [Ctx.updFirst, ha]]
          rw [List.find?_cons_of_neg (by simp [hd, Ne.symm h0])]
          rw [List.find?_eq_none]
          intro b hb hbs
          have hbs : b.id = sid := by simpa using hbs
          -- the halves of two positions differ
          have h1 := ht.1.resolve_left (by rw [ha]; exact h0)
          rw [ha] at h1
          have h2 : ∀ (l : List Session) (j : Nat), i < j → ReqTable j l → j + l.length < 0xFFFD → b ∈ l → False := by
            intro l
            induction l with
            | nil => intro j _ _ _ hb; cases hb
            | cons d l ihl =>
              intro j hij ht hl hb
              rcases List.mem_cons.1 hb with rfl | hb
              · have h3 := ht.1.resolve_left (by rw [hbs]; exact h0)
                rw [hbs, h1] at h3
                have h4 := congrArg UInt16.toNat h3
                simp only [List.length_cons] at hl
                have e1 : (UInt16.ofNat i).toNat = i := UInt16.toNat_ofNat_of_lt' (by simp [UInt16.size]; omega)
                have e2 : (UInt16.ofNat j).toNat = j := UInt16.toNat_ofNat_of_lt' (by simp [UInt16.size]; omega)
                have e3 : (0xFFFD : UInt16).toNat = 0xFFFD := rfl
                rw [UInt16.toNat_sub_of_le, UInt16.toNat_sub_of_le, e1, e2, e3] at h4
                · omega
                · rw [UInt16.le_iff_toNat_le, e2, e3]; omega
                · rw [UInt16.le_iff_toNat_le, e1, e3]; omega
              · exact ihl (j + 1) (by omega) ht.2 (by simp at hl ⊢; omega) hb
          exact h2 l (i + 1) (by omega) ht.2 (by simp at hl ⊢; omega) hb
        · rw [show Ctx.updFirst (·.id = sid) (fun _ => s') (a :: l) = a :: Ctx.updFirst (·.id = sid) (fun _ => s') l by simp [Ctx.updFirst, ha]]
          rw [List.find?_cons_of_neg (by simp [ha])]
          exact ih (i + 1) ht.2 (by simp at hl ⊢; omega)
    exact key _ 0 ht (by omega)
  · exact hs

theorem closed_of {c c1 c' : Ctx} (h0 : sid ≠ 0) (ht : ReqTable 0 c.sessions) (hl : c.sessions.length < 0xFFFD) (hk : Kept (some sid) c c1) (h : Closed sid c1 c') :
    c'.session? sid = none := by
  have h1 := table_kept hk
  exact closed_none h0 (h1.2 hl ht) (by rw [h1.1]; exact hl) h

/-- a FINISH that fails: nothing was done because the certificate slot has no chain or there is no such session, or the session is gone. -/
theorem finish_err {slot : Option UInt8} {c c' : Ctx} {st : Status} (h0 : sid ≠ 0) (ht : ReqTable 0 c.sessions) (hl : c.sessions.length < 0xFFFD)
    (h : finish e slot sid c = .err st c') :
    (c' = c ∧ (finishSlot c slot = none ∧ st = .invalidStateLocal)) ∨ c'.session? sid = none := by
  unfold finish at h
  rw [M.bind_apply, M.get_apply] at h
  dsimp only at h
  cases hsl : finishSlot c slot with
  | none => rw [hsl] at h; cases h; exact .inl ⟨rfl, rfl, rfl⟩
  | some sl =>
    rw [hsl] at h
    right
    cases hs : c.session? sid with
    | none => rw [hs] at h; cases h; exact hs
    | some s =>
      rw [hs] at h
      simp only [M.bind_apply, M.ofOption_some, M.modify_apply] at h
      have k0 : Kept (some sid) c (Ctx.resetBuffers .reqFinish (some sid) c) := (rel_of_frame (Ctx.rel_resetBuffers (k := true) _)).ok (M.modify_apply _ _)
      cases h1 : orClose sid (encodeFinish e sid sl) (Ctx.resetBuffers .reqFinish (some sid) c) with
      | panic => rw [h1] at h; cases h
      | err st1 c1 =>
        rw [h1] at h; cases h
        obtain ⟨c2, g1, g2⟩ := orClose_err h1
        exact closed_of h0 ht hl (M.Pre.trans k0 ((kept_encodeFinish _ _).err g1)) g2
      | ok b c1 =>
        rw [h1] at h
        dsimp only at h
        have k1 := M.Pre.trans k0 ((kept_encodeFinish _ _).ok (orClose_ok h1))
        have kf : M.Rel (Kept (some sid)) (finishSend e c.cc.inClear sid b) := by
          unfold finishSend
          exact .ite (fun _ => rel_none (rel_sendMessage _)) fun _ => rel_of_frame (rel_sendSecured _ _ _)
        cases h2 : orClose sid (finishSend e c.cc.inClear sid b) c1 with
        | panic => rw [h2] at h; cases h
        | err st1 c2 =>
          rw [h2] at h; cases h
          obtain ⟨c3, g1, g2⟩ := orClose_err h2
          exact closed_of h0 ht hl (M.Pre.trans k1 (kf.err g1)) g2
        | ok u c2 =>
          rw [h2] at h
          dsimp only at h
          have k2 := M.Pre.trans k1 (kf.ok (orClose_ok h2))
          have kr : M.Rel (Kept (some sid)) (finishReceive e c.cc.inClear sid) := by
            unfold finishReceive
            exact .ite (fun _ => rel_none rel_receiveMessage) fun _ => rel_of_frame (rel_receiveSecured _)
          cases h3 : orClose sid (finishReceive e c.cc.inClear sid) c2 with
          | panic => rw [h3] at h; cases h
          | err st1 c3 =>
            rw [h3] at h; cases h
            obtain ⟨c4, g1, g2⟩ := orClose_err h3
            exact closed_of h0 ht hl (M.Pre.trans k2 (kr.err g1)) g2
          | ok rsp c3 =>
            rw [h3] at h
            dsimp only at h
            have k3 := M.Pre.trans k2 (kr.ok (orClose_ok h3))
            obtain ⟨c4, g1, g2⟩ := orCloseIf_err h
            exact closed_of h0 ht hl (M.Pre.trans k3 ((kept_handleFinish _ _).err g1)) g2

theorem pskFinish_err {c c' : Ctx} {st : Status} (h0 : sid ≠ 0) (ht : ReqTable 0 c.sessions) (hl : c.sessions.length < 0xFFFD)
    (h : pskFinish e sid c = .err st c') : c'.session? sid = none := by
  unfold pskFinish at h
  rw [M.bind_apply, M.get_apply] at h
  dsimp only at h
  cases hs : c.session? sid with
  | none => rw [hs] at h; cases h; exact hs
  | some s =>
    rw [hs] at h
    simp only [M.bind_apply, M.ofOption_some, M.modify_apply] at h
    have k0 : Kept (some sid) c (Ctx.resetBuffers .reqPskFinish (some sid) c) := (rel_of_frame (Ctx.rel_resetBuffers (k := true) _)).ok (M.modify_apply _ _)
    cases h1 : orClose sid (encodePskFinish e sid) (Ctx.resetBuffers .reqPskFinish (some sid) c) with
    | panic => rw [h1] at h; cases h
    | err st1 c1 =>
      rw [h1] at h; cases h
      obtain ⟨c2, g1, g2⟩ := orClose_err h1
      exact closed_of h0 ht hl (M.Pre.trans k0 ((kept_encodePskFinish _).err g1)) g2
    | ok b c1 =>
      rw [h1] at h
      dsimp only at h
      have k1 := M.Pre.trans k0 ((kept_encodePskFinish _).ok (orClose_ok h1))
      have kf : M.Rel (Kept (some sid)) (sendSecured e sid b false) := rel_of_frame (rel_sendSecured _ _ _)
      cases h2 : orClose sid (sendSecured e sid b false) c1 with
      | panic => rw [h2] at h; cases h
      | err st1 c2 =>
        rw [h2] at h; cases h
        obtain ⟨c3, g1, g2⟩ := orClose_err h2
        exact closed_of h0 ht hl (M.Pre.trans k1 (kf.err g1)) g2
      | ok u c2 =>
        rw [h2] at h
        dsimp only at h
        have k2 := M.Pre.trans k1 (kf.ok (orClose_ok h2))
        have kr : M.Rel (Kept (some sid)) (receiveSecured e sid) := rel_of_frame (rel_receiveSecured _)
        cases h3 : orClose sid (receiveSecured e sid) c2 with
        | panic => rw [h3] at h; cases h
        | err st1 c3 =>
          rw [h3] at h; cases h
          obtain ⟨c4, g1, g2⟩ := orClose_err h3
          exact closed_of h0 ht hl (M.Pre.trans k2 (kr.err g1)) g2
        | ok rsp c3 =>
          rw [h3] at h
          dsimp only at h
          have k3 := M.Pre.trans k2 (kr.ok (orClose_ok h3))
          obtain ⟨c4, g1, g2⟩ := orCloseIf_err h
          exact closed_of h0 ht hl (M.Pre.trans k3 ((kept_handlePskFinish _ _).err g1)) g2

/-! ### success -/

theorem appendF_th {msg : Bytes} {c c' : Ctx} {u : Unit} {s : Session} (hs : c.session? sid = some s) (h : Ctx.appendF e.toEnv true sid msg c = .ok u c') :
    ∃ x, s.th = some x := by
  unfold Ctx.appendF at h
  simp only [M.bind_apply, M.get_apply, hs] at h
  cases hx : s.th with
  | none => simp [hx] at h
  | some x => exact ⟨x, rfl⟩

theorem appendF_ok {msg : Bytes} {c c' : Ctx} {u : Unit} {s : Session} {x : HashCtx} (hs : c.session? sid = some s) (hx : s.th = some x)
    (hm : s.mutAuth = 0 ∨ s.usePsk = true ∨ s.fInit = true) (h : Ctx.appendF e.toEnv true sid msg c = .ok u c') :
    c'.session? sid = some (fed x [] msg s) ∧ Tables c c' := by
  have hid := session?_id hs
  unfold Ctx.appendF at h
  simp only [M.bind_apply, M.get_apply, hs, hx] at h
  by_cases hf : s.fInit = true
  · rw [if_pos hf, M.set_apply] at h
    cases h
    refine ⟨?_, _, rfl⟩
    rw [session?_upd (f := fun s => { s with th := some (Ctx.hashUpdate msg x) }) hs hid]
    simp [fed, Ctx.hashUpdate, ← hf]
  · rw [if_neg hf] at h
    have hd : Ctx.mutDigest e.toEnv true c s = .ok [] := by
      unfold Ctx.mutDigest
      rw [if_neg]
      · rfl
      · rintro ⟨h1, h2⟩
        rcases hm with hm | hm | hm
        · exact h2 hm
        · rw [h1] at hm; cases hm
        · exact hf hm
    rw [M.bind_apply, hd] at h
    simp only [Res.lift, M.pure_apply, M.set_apply] at h
    cases h
    refine ⟨?_, _, rfl⟩
    rw [session?_upd (f := fun s => { s with fInit := true, th := some (Ctx.hashUpdate msg (Ctx.hashUpdate [] x)) }) hs hid]
    rfl

/-- the HMAC of FINISH and PSK_FINISH: over the hash of the transcript, under the request finished key. -/
theorem requestHmac_ok {b b' : Bytes} {c c' : Ctx} {s : Session} {x : HashCtx} (hs : c.session? sid = some s) (hx : s.th = some x) (hf : s.fInit = true)
    (h : requestHmac e sid b c = .ok b' c') :
    ∃ th mac n, c.cc.hashSize? = some n ∧ e.crypto.hash x.algo x.data = some th ∧ e.crypto.hmac s.hash s.hs.reqFinished th = some mac ∧ mac.length = n ∧ n ≤ b.length ∧
      b' = b.take (b.length - n) ++ mac ∧ c'.session? sid = some (fed x [] mac s) ∧ Tables c c' := by
  unfold requestHmac at h
  obtain ⟨th, c1, h1, z1⟩ := M.bind_ok.1 h
  obtain ⟨rfl, hth⟩ := thOf_eq hs hx h1
  obtain ⟨c0, c2, h2, z2⟩ := M.bind_ok.1 z1
  cases h2
  obtain ⟨n, c3, h3, z3⟩ := M.bind_ok.1 z2
  obtain ⟨hn, rfl⟩ := unwrap_ok.1 h3
  obtain ⟨s', c4, h4, z4⟩ := M.bind_ok.1 z3
  obtain ⟨hs', rfl⟩ := unwrap_ok.1 h4
  rw [hs] at hs'; cases hs'
  obtain ⟨mac, c5, h5, z5⟩ := M.bind_ok.1 z4
  obtain ⟨hm, rfl⟩ := liftOk.1 h5
  obtain ⟨_, c6, h6, z6⟩ := M.bind_ok.1 z5
  obtain ⟨k1, k2⟩ := appendF_ok hs hx (.inr (.inr hf)) h6
  obtain ⟨hp, rfl⟩ := liftOk.1 z6
  obtain ⟨p1, p2, p3⟩ := patchTail_ok hp
  refine ⟨th, mac, n, hn, hth, ?_, p2, p1, p3, k1, k2⟩
  unfold Session.hmacReq at hm
  exact (Res.ofOption_ok.1 hm)

/-- FINISH as built, without mutual authentication. -/
theorem encodeFinish_ok {slot : UInt8} {b : Bytes} {c c' : Ctx} {s : Session} (hs : c.session? sid = some s) (hm : s.mutAuth = 0)
    (h : encodeFinish e sid slot c = .ok b c') :
    ∃ x th mac, let req := [c.neg.version.get, 0xE5, 0, slot]
      s.th = some x ∧ e.crypto.hash x.algo (x.data ++ req) = some th ∧ e.crypto.hmac s.hash s.hs.reqFinished th = some mac ∧ BaseHash.size? c.neg.baseHash = some mac.length ∧
      b = req ++ mac ∧ c'.session? sid = some { s with fInit := true, th := some ⟨x.algo, x.data ++ req ++ mac⟩ } ∧ Tables c c' := by
  unfold encodeFinish at h
  obtain ⟨c0, c2, h2, z2⟩ := M.bind_ok.1 h
  cases h2
  obtain ⟨s', c3, h3, z3⟩ := M.bind_ok.1 z2
  obtain ⟨hs', rfl⟩ := ofOption_ok.1 h3
  rw [hs] at hs'; cases hs'
  obtain ⟨sig, c4, h4, z4⟩ := M.bind_ok.1 z3
  obtain ⟨hsig, rfl⟩ := liftOk.1 h4
  unfold finishPlaceholder at hsig
  rw [if_neg (by simp [hm])] at hsig
  cases hsig
  obtain ⟨n, c5, h5, z5⟩ := M.bind_ok.1 z4
  obtain ⟨hn, rfl⟩ := unwrap_ok.1 h5
  obtain ⟨b0, c6, h6, z6⟩ := M.bind_ok.1 z5
  rw [if_neg (by simp [hm])] at h6
  have hw : ∀ cy : Ctx, cy.cc.hashSize? = some n → Finish.WF cy.cc ⟨0, slot, [], List.replicate n 0xcc⟩ := fun cy hcy => ⟨by show (0 : UInt8) ≤ 1; decide, by simp [OptOk, sigIncluded], by unfold Cc.DigestOk; rw [hcy]; simp⟩
  obtain ⟨rfl, rfl⟩ := encodeReq_ok (p := .finish _) (Finish.encode_writes (hw _ hn)) h6
  have hb0 : c6.neg.version.get :: ReqRespCode.reqFinish.get :: Finish.wire ⟨0, slot, [], List.replicate n 0xcc⟩ = [c6.neg.version.get, 0xE5, 0, slot] ++ List.replicate n 0xcc := by
    simp [Finish.wire, optWire, sigIncluded]; rfl
  rw [hb0] at z6
  obtain ⟨_, c7, h7, z7⟩ := M.bind_ok.1 z6
  have ht4 : ([c6.neg.version.get, 0xE5, 0, slot] ++ List.replicate n 0xcc : Bytes).take 4 = [c6.neg.version.get, 0xE5, 0, slot] := rfl
  rw [ht4] at h7
  obtain ⟨x, hx⟩ := appendF_th hs h7
  obtain ⟨k1, k2⟩ := appendF_ok hs hx (.inl hm) h7
  obtain ⟨b1, c8, h8, z8⟩ := M.bind_ok.1 z7
  have h8' : b1 = [c6.neg.version.get, 0xE5, 0, slot] ++ List.replicate n 0xcc ∧ c8 = c7 := by
    unfold finishSignature at h8
    simp only [M.bind_apply, M.get_apply, k1, M.ofOption_some] at h8
    rw [if_neg (by simp [fed, hm])] at h8
    cases h8
    exact ⟨rfl, rfl⟩
  obtain ⟨rfl, rfl⟩ := h8'
  obtain ⟨th, mac, n', hn', hth, hmac, hl, -, rfl, q1, q2⟩ := requestHmac_ok k1 rfl rfl z8
  rw [k2.cc, hn] at hn'; cases hn'
  refine ⟨x, th, mac, hx, by simpa using hth, hmac, ?_, ?_, ?_, k2.trans q2⟩
  · rw [hl]; exact hn
  · rw [take_front n _ _ (by simp)]
  · rw [q1]; simp [fed]

/-- PSK_FINISH as built. -/
theorem encodePskFinish_ok {b : Bytes} {c c' : Ctx} {s : Session} (hs : c.session? sid = some s) (hm : s.mutAuth = 0 ∨ s.usePsk = true)
    (h : encodePskFinish e sid c = .ok b c') :
    ∃ x th mac, let req := [c.neg.version.get, 0xE7, 0, 0]
      s.th = some x ∧ e.crypto.hash x.algo (x.data ++ req) = some th ∧ e.crypto.hmac s.hash s.hs.reqFinished th = some mac ∧ BaseHash.size? c.neg.baseHash = some mac.length ∧
      b = req ++ mac ∧ c'.session? sid = some { s with fInit := true, th := some ⟨x.algo, x.data ++ req ++ mac⟩ } ∧ Tables c c' := by
  unfold encodePskFinish at h
  obtain ⟨c0, c2, h2, z2⟩ := M.bind_ok.1 h
  cases h2
  obtain ⟨n, c5, h5, z5⟩ := M.bind_ok.1 z2
  obtain ⟨hn, rfl⟩ := unwrap_ok.1 h5
  obtain ⟨b0, c6, h6, z6⟩ := M.bind_ok.1 z5
  have hw : ∀ cy : Ctx, cy.cc.hashSize? = some n → cy.cc.DigestOk (List.replicate n 0xcc) := fun cy hcy => by unfold Cc.DigestOk; rw [hcy]; simp
  obtain ⟨rfl, rfl⟩ := encodeReq_ok (p := .pskFinish _) (encPskFinish_writes (hw _ hn)) h6
  have hb0 : c6.neg.version.get :: ReqRespCode.reqPskFinish.get :: pskFinishWire (List.replicate n 0xcc) = [c6.neg.version.get, 0xE7, 0, 0] ++ List.replicate n 0xcc := rfl
  rw [hb0] at z6
  obtain ⟨body, c7, h7, z7⟩ := M.bind_ok.1 z6
  obtain ⟨hb, rfl⟩ := liftOk.1 h7
  rw [dropTail_append (by simp)] at hb
  have hb := Res.ok.inj hb
  subst hb
  obtain ⟨_, c8, h8, z8⟩ := M.bind_ok.1 z7
  obtain ⟨x, hx⟩ := appendF_th hs h8
  obtain ⟨k1, k2⟩ := appendF_ok hs hx (hm.imp id .inl) h8
  obtain ⟨th, mac, n', hn', hth, hmac, hl, -, rfl, q1, q2⟩ := requestHmac_ok k1 rfl rfl z8
  rw [k2.cc, hn] at hn'; cases hn'
  refine ⟨x, th, mac, hx, by simpa using hth, hmac, ?_, ?_, ?_, k2.trans q2⟩
  · rw [hl]; exact hn
  · rw [take_front n _ _ (by simp)]
  · rw [q1]; simp [fed]

/-- one session that differs only by its record counters. -/
structure Counted (s s1 : Session) : Prop where
  same : s1 = { s with hs := s1.hs, app := s1.app }
  reqFinished : s1.hs.reqFinished = s.hs.reqFinished
  rspFinished : s1.hs.rspFinished = s.hs.rspFinished
  app : s.state = .handshaking → s1.app = s.app

theorem Counted.refl (s : Session) : Counted s s := ⟨rfl, rfl, rfl, fun _ => rfl⟩

theorem counted_bump (s : Session) : Counted s ((s.bump true).bump false) := by
  cases s with
  | mk i p m st =>
    cases st <;> exact ⟨rfl, rfl, rfl, fun h => by first | rfl | cases h⟩

theorem Said.session {o : Option UInt32} {req bytes : Bytes} {c c1 : Ctx} {s : Session} (h : Said e o c req bytes c1) (ho : o = none ∨ o = some sid)
    (hs : c.session? sid = some s) : ∃ s1, c1.session? sid = some s1 ∧ Counted s s1 := by
  obtain ⟨pkt, p, -, h⟩ := h
  rcases ho with rfl | rfl
  · obtain ⟨-, -, rfl⟩ := h
    exact ⟨s, hs, .refl s⟩
  · obtain ⟨s', hs', -, -, -, rfl⟩ := h
    rw [hs] at hs'; cases hs'
    refine ⟨_, ?_, counted_bump s⟩
    exact session?_const (c := { c with sent := _ }) hs (by simp [session?_id hs])

/-- FINISH_RSP as received. -/
theorem rdFinishRsp_body {c : Cc} {r r' : Reader} {m : Bytes} (h : rdFinishRsp c r = .ok m r') :
    OptOk c.inClear c.DigestOk m ∧ ∃ p q, r.After ([p, q] ++ m) r' := by
  simp only [rdFinishRsp, M.bind_ok, rdU8_ok] at h
  obtain ⟨p, _, h1, q, _, h2, h3⟩ := h
  obtain ⟨h3, h3'⟩ := rdOptDigest_ok h3
  exact ⟨h3, p, q, (h1.trans h2).trans h3'⟩

/-- what the requester does with FINISH_RSP. -/
theorem handleFinish_ok {bytes : Bytes} {c c' : Ctx} {u : Unit} {s : Session} {x : HashCtx} (hs : c.session? sid = some s) (hx : s.th = some x) (hf : s.fInit = true)
    (h : handleFinish e sid bytes c = .ok u c') :
    ∃ v p q mac t th2 s', let rsp := [v, 0x65, p, q]
      bytes = rsp ++ mac ++ t ∧ OptOk c.cc.inClear c.cc.DigestOk mac ∧
      (c.cc.inClear = true → ∃ th, e.crypto.hash x.algo (x.data ++ rsp) = some th ∧ e.crypto.hmacVerify s.hash s.hs.rspFinished th mac = true) ∧
      e.crypto.hash x.algo (x.data ++ rsp ++ mac) = some th2 ∧
      Session.genData e.crypto c.neg.version th2 { s with fInit := true, th := some ⟨x.algo, x.data ++ rsp ++ mac⟩ } = .ok () s' ∧
      c'.session? sid = some { s' with state := .established } ∧ ∃ d, Tables c d ∧ c' = { d with rt := { d.rt with lastSession := none } } := by
  unfold handleFinish at h
  obtain ⟨c0, c1, h0, z0⟩ := M.bind_ok.1 h
  cases h0
  obtain ⟨_, c2, h1, z1⟩ := M.bind_ok.1 z0
  obtain ⟨-, rfl⟩ := ofOption_ok.1 h1
  obtain ⟨r, c3, h2, z2⟩ := M.bind_ok.1 z1
  obtain ⟨rfl, v, t, rfl, rfl⟩ := expectAny_ok h2
  obtain ⟨⟨mac, rsp⟩, c4, h3, z3⟩ := M.bind_ok.1 z2
  obtain ⟨rfl, r', h4, rfl⟩ := readMsg_ok' h3
  obtain ⟨ho, p, q, ha⟩ := rdFinishRsp_body h4
  obtain ⟨n, c5, h5, z5⟩ := M.bind_ok.1 z3
  obtain ⟨hn, rfl⟩ := unwrap_ok.1 h5
  obtain ⟨_, c6, h6, z6⟩ := M.bind_ok.1 z5
  obtain ⟨_, c7, h7, z7⟩ := M.bind_ok.1 z6
  rw [M.modify_apply] at z7
  injection z7 with _ z7
  obtain ⟨m1, m2⟩ := After.message (v := v) (k := 0x65) ha
  have e2 : (v :: ReqRespCode.rspFinishRsp.get :: t).take r'.used = [v, 0x65, p, q] ++ mac := m1
  rw [e2] at h6
  have key : (c4.cc.inClear = true → ∃ th, e.crypto.hash x.algo (x.data ++ [v, 0x65, p, q]) = some th ∧ e.crypto.hmacVerify s.hash s.hs.rspFinished th mac = true) ∧
      c6.session? sid = some { s with fInit := true, th := some ⟨x.algo, x.data ++ [v, 0x65, p, q] ++ mac⟩ } ∧ Tables c4 c6 := by
    unfold finishTranscript at h6
    by_cases hc : c4.cc.inClear = true
    · rw [if_pos hc] at h6
      have hlen : mac.length = n := by
        have := ho
        unfold OptOk Cc.DigestOk at this
        rw [hc, hn] at this
        simpa using this.symm
      obtain ⟨body, d1, g1, y1⟩ := M.bind_ok.1 h6
      obtain ⟨g1', rfl⟩ := liftOk.1 g1
      rw [dropTail_append hlen] at g1'
      have g1' := Res.ok.inj g1'
      subst g1'
      obtain ⟨_, d2, g2, y2⟩ := M.bind_ok.1 y1
      obtain ⟨k1, k2⟩ := appendF_ok hs hx (.inr (.inr hf)) g2
      obtain ⟨th, d3, g3, y3⟩ := M.bind_ok.1 y2
      obtain ⟨rfl, hth⟩ := thOf_eq k1 rfl g3
      obtain ⟨d0, d4, g4, y4⟩ := M.bind_ok.1 y3
      cases g4
      obtain ⟨s', d5, g5, y5⟩ := M.bind_ok.1 y4
      obtain ⟨hs', rfl⟩ := unwrap_ok.1 g5
      rw [k1] at hs'; cases hs'
      by_cases hv : Session.verifyRsp e.crypto (fed x [] [v, 0x65, p, q] s) th mac = false
      · rw [if_pos hv] at y5; cases y5
      · rw [if_neg hv] at y5
        obtain ⟨k3, k4⟩ := appendF_ok k1 rfl (.inr (.inr rfl)) y5
        refine ⟨fun _ => ⟨th, by simpa using hth, ?_⟩, ?_, k2.trans k4⟩
        · simpa [Session.verifyRsp, fed] using hv
        · rw [k3]; simp [fed]
    · rw [if_neg hc] at h6
      obtain ⟨k1, k2⟩ := appendF_ok hs hx (.inr (.inr hf)) h6
      refine ⟨fun h => absurd h hc, ?_, k2⟩
      rw [k1]; simp [fed]
  obtain ⟨k1, k2, k3⟩ := key
  obtain ⟨th2, s', g1, g2, g3, g4⟩ := establish_ok k2 rfl h7
  refine ⟨v, p, q, mac, r'.rest, th2, s', ?_, ho, k1, g1, ?_, ?_, c7, k3.trans g4, z7.symm⟩
  · rw [m2]; rfl
  · rw [k3.neg] at g2; exact g2
  · rw [← z7]; exact g3

theorem handlePskFinish_ok {bytes : Bytes} {c c' : Ctx} {u : Unit} {s : Session} {x : HashCtx} (hs : c.session? sid = some s) (hx : s.th = some x) (hf : s.fInit = true)
    (h : handlePskFinish e sid bytes c = .ok u c') :
    ∃ p q t th2 s', let rsp := [c.neg.version.get, 0x67, p, q]
      bytes = rsp ++ t ∧ e.crypto.hash x.algo (x.data ++ rsp) = some th2 ∧
      Session.genData e.crypto c.neg.version th2 { s with fInit := true, th := some ⟨x.algo, x.data ++ rsp⟩ } = .ok () s' ∧
      c'.session? sid = some { s' with state := .established } ∧ Tables c c' := by
  unfold handlePskFinish at h
  obtain ⟨r, c3, h2, z2⟩ := M.bind_ok.1 h
  obtain ⟨rfl, v, t, rfl, hv, rfl⟩ := expect_ok h2
  obtain ⟨⟨_, rsp⟩, c4, h3, z3⟩ := M.bind_ok.1 z2
  obtain ⟨rfl, r', h4, rfl⟩ := readMsg_ok' h3
  obtain ⟨_, c6, h6, z6⟩ := M.bind_ok.1 z3
  have hvb := version_byte hv
  subst hvb
  have h4' : ∃ p q, Reader.After ⟨t, 2⟩ [p, q] r' := by
    simp only [rdNoParams, M.bind_ok, M.pure_ok, rdU8_ok] at h4
    obtain ⟨p, _, g1, q, _, g2, g3, g4⟩ := h4
    subst g4
    exact ⟨p, q, g1.trans g2⟩
  obtain ⟨p, q, ha⟩ := h4'
  obtain ⟨m1, m2⟩ := After.message (v := c4.neg.version.get) (k := 0x67) ha
  have e2 : (c4.neg.version.get :: ReqRespCode.rspPskFinishRsp.get :: t).take r'.used = [c4.neg.version.get, 0x67, p, q] := m1
  rw [e2] at h6
  obtain ⟨k1, k2⟩ := appendF_ok hs hx (.inr (.inr hf)) h6
  obtain ⟨th2, s', g1, g2, g3, g4⟩ := establish_ok k1 rfl z6
  refine ⟨p, q, r'.rest, th2, s', by rw [m2]; rfl, ?_, ?_, g3, k2.trans g4⟩
  · simpa using g1
  · rw [k2.neg] at g2; simpa [fed] using g2

theorem resetBuffers_sent (k : ReqRespCode) (c : Ctx) (sid : Option UInt32) : (Ctx.resetBuffers k sid c).sent = c.sent := by
  unfold Ctx.resetBuffers
  dsimp only
  have h1 : (if k ≠ .reqGetMeasurements then Ctx.resetM sid c else c).sent = c.sent := by
    split
    · unfold Ctx.resetM; cases sid <;> rfl
    · rfl
  generalize (if k ≠ .reqGetMeasurements then Ctx.resetM sid c else c) = d at *
  split <;> first | exact h1 | (split <;> exact h1)

theorem Tables.sent {c c' : Ctx} (h : Tables c c') : c'.sent = c.sent := by obtain ⟨l, rfl⟩ := h; rfl

theorem Counted.inClear {c c1 : Ctx} (h : c1.neg = c.neg) : c1.cc.inClear = c.cc.inClear := by
  unfold Ctx.cc Cc.inClear
  rw [h]

/-- FINISH, without mutual authentication: what success means. -/
theorem finish_ok {slot : Option UInt8} {c c' : Ctx} {u : Unit} {s : Session} (hs : c.session? sid = some s) (hm : s.mutAuth = 0)
    (h : finish e slot sid c = .ok u c') :
    ∃ sl x th mac bytes v p q rmac t th2 s1 s' c0 c1,
      let req := [c.neg.version.get, 0xE5, 0, sl]
      let rsp := [v, 0x65, p, q]
      finishSlot c slot = some sl ∧ s.th = some x ∧ e.crypto.hash x.algo (x.data ++ req) = some th ∧
      e.crypto.hmac s.hash s.hs.reqFinished th = some mac ∧
      c0.session? sid = some { s with l1l2 := none, fInit := true, th := some ⟨x.algo, x.data ++ req ++ mac⟩ } ∧ c0.sent = c.sent ∧ c0.neg = c.neg ∧
      Said e (if c.cc.inClear then none else some sid) c0 (req ++ mac) bytes c1 ∧ bytes = rsp ++ rmac ++ t ∧ OptOk c.cc.inClear c.cc.DigestOk rmac ∧
      (c.cc.inClear = true → ∃ th', e.crypto.hash x.algo (x.data ++ req ++ mac ++ rsp) = some th' ∧ e.crypto.hmacVerify s.hash s.hs.rspFinished th' rmac = true) ∧
      e.crypto.hash x.algo (x.data ++ req ++ mac ++ rsp ++ rmac) = some th2 ∧
      Counted { s with l1l2 := none, fInit := true, th := some ⟨x.algo, x.data ++ req ++ mac ++ rsp ++ rmac⟩ } s1 ∧
      Session.genData e.crypto c.neg.version th2 s1 = .ok () s' ∧
      c'.session? sid = some { s' with state := .established } ∧ c'.neg = c.neg ∧ c'.rt.lastSession = none ∧ c'.sent = c1.sent ∧
      ∃ s2, c1.session? sid = some s2 ∧ s1 = { s2 with fInit := true, th := some ⟨x.algo, x.data ++ req ++ mac ++ rsp ++ rmac⟩ } := by
  unfold finish at h
  obtain ⟨c00, c01, h00, z0⟩ := M.bind_ok.1 h
  cases h00
  obtain ⟨sl, c2, h1, z1⟩ := M.bind_ok.1 z0
  obtain ⟨hsl, rfl⟩ := ofOption_ok.1 h1
  obtain ⟨_, c3, h2, z2⟩ := M.bind_ok.1 z1
  obtain ⟨-, rfl⟩ := ofOption_ok.1 h2
  obtain ⟨_, c4, h3, z3⟩ := M.bind_ok.1 z2
  rw [M.modify_apply] at h3
  injection h3 with _ h3
  have hneg4 : c4.neg = c3.neg := by rw [← h3]; exact cc_neg (resetBuffers_cc _ _ _)
  have hsent4 : c4.sent = c3.sent := by rw [← h3]; exact resetBuffers_sent _ _ _
  have hs4 : c4.session? sid = some { s with l1l2 := none } := by
    rw [← h3, resetBuffers_session _ _ _ (by decide), hs]; rfl
  obtain ⟨b, c5, h5, z5⟩ := M.bind_ok.1 z3
  obtain ⟨x, th, mac, hx, hth, hmac, hsz, rfl, hs5, ht5⟩ := encodeFinish_ok hs4 hm (orClose_ok h5)
  obtain ⟨_, c6, h6, z6⟩ := M.bind_ok.1 z5
  obtain ⟨rsp, c7, h7, z7⟩ := M.bind_ok.1 z6
  have hneg5 : c5.neg = c3.neg := ht5.neg.trans hneg4
  have hsaid : Said e (if c3.cc.inClear then none else some sid) c5 ([c4.neg.version.get, 0xE5, 0, sl] ++ mac) rsp c7 := by
    have h6 := orClose_ok h6
    have h7 := orClose_ok h7
    unfold finishSend at h6
    unfold finishReceive at h7
    by_cases hc : c3.cc.inClear = true
    · rw [if_pos hc] at h6 h7 ⊢
      exact transact_ok (M.bind_ok.2 ⟨_, c6, h6, h7⟩)
    · rw [if_neg hc] at h6 h7 ⊢
      exact transact_ok (M.bind_ok.2 ⟨_, c6, h6, h7⟩)
  obtain ⟨s1, hs7, hcnt⟩ := hsaid.session (by split; exact .inl rfl; exact .inr rfl) hs5
  have hneg7 : c7.neg = c3.neg := hsaid.fields.1.trans hneg5
  have hx1 : s1.th = some ⟨x.algo, x.data ++ [c4.neg.version.get, 0xE5, 0, sl] ++ mac⟩ := by rw [hcnt.same]
  have hf1 : s1.fInit = true := by rw [hcnt.same]
  obtain ⟨v, p, q, rmac, t, th2, s', g1, g2, g3, g4, g5, g6, d, g7, g8⟩ := handleFinish_ok hs7 hx1 hf1 (orCloseIf_ok z7)
  have hcc : c7.cc.inClear = c3.cc.inClear := Counted.inClear hneg7
  have hdg : c7.cc.DigestOk = c3.cc.DigestOk := by unfold Ctx.cc Cc.DigestOk Cc.hashSize?; rw [hneg7]
  rw [hcc, hdg] at g2
  rw [hcc] at g3
  rw [hneg4] at *
  rw [hneg7] at g5
  have hh1 : s1.hash = s.hash := by rw [hcnt.same]
  refine ⟨sl, x, th, mac, rsp, v, p, q, rmac, t, th2, { s1 with fInit := true, th := some ⟨x.algo, x.data ++ [c3.neg.version.get, 0xE5, 0, sl] ++ mac ++ [v, 0x65, p, q] ++ rmac⟩ }, s', c5, c7,
    hsl, hx, hth, hmac, hs5, (Tables.sent ht5).trans hsent4, hneg5, hsaid, g1, g2, ?_, g4, ?_, g5, g6, ?_, ?_, ?_, s1, hs7, rfl⟩
  · intro hc
    obtain ⟨th', k1, k2⟩ := g3 hc
    refine ⟨th', k1, ?_⟩
    rw [hh1, hcnt.rspFinished] at k2
    exact k2
  · exact ⟨by rw [hcnt.same], hcnt.reqFinished, hcnt.rspFinished, hcnt.app⟩
  · rw [g8]; exact g7.neg.trans hneg7
  · rw [g8]
  · rw [g8]; exact (Tables.sent g7 :)

/-- PSK_FINISH: what success means. -/
theorem pskFinish_ok {c c' : Ctx} {u : Unit} {s : Session} (hs : c.session? sid = some s) (hm : s.mutAuth = 0 ∨ s.usePsk = true)
    (h : pskFinish e sid c = .ok u c') :
    ∃ x th mac bytes p q t th2 s1 s' c0 c1,
      let req := [c.neg.version.get, 0xE7, 0, 0]
      let rsp := [c.neg.version.get, 0x67, p, q]
      s.th = some x ∧ e.crypto.hash x.algo (x.data ++ req) = some th ∧
      e.crypto.hmac s.hash s.hs.reqFinished th = some mac ∧
      c0.session? sid = some { s with l1l2 := none, fInit := true, th := some ⟨x.algo, x.data ++ req ++ mac⟩ } ∧ c0.sent = c.sent ∧ c0.neg = c.neg ∧
      Said e (some sid) c0 (req ++ mac) bytes c1 ∧ bytes = rsp ++ t ∧
      e.crypto.hash x.algo (x.data ++ req ++ mac ++ rsp) = some th2 ∧
      Counted { s with l1l2 := none, fInit := true, th := some ⟨x.algo, x.data ++ req ++ mac ++ rsp⟩ } s1 ∧
      Session.genData e.crypto c.neg.version th2 s1 = .ok () s' ∧
      c'.session? sid = some { s' with state := .established } ∧ c'.neg = c.neg ∧ c'.sent = c1.sent ∧
      ∃ s2, c1.session? sid = some s2 ∧ s1 = { s2 with fInit := true, th := some ⟨x.algo, x.data ++ req ++ mac ++ rsp⟩ } := by
  unfold pskFinish at h
  obtain ⟨c00, c01, h00, z1⟩ := M.bind_ok.1 h
  cases h00
  obtain ⟨_, c3, h2, z2⟩ := M.bind_ok.1 z1
  obtain ⟨-, rfl⟩ := ofOption_ok.1 h2
  obtain ⟨_, c4, h3, z3⟩ := M.bind_ok.1 z2
  rw [M.modify_apply] at h3
  injection h3 with _ h3
  have hneg4 : c4.neg = c3.neg := by rw [← h3]; exact cc_neg (resetBuffers_cc _ _ _)
  have hsent4 : c4.sent = c3.sent := by rw [← h3]; exact resetBuffers_sent _ _ _
  have hs4 : c4.session? sid = some { s with l1l2 := none } := by
    rw [← h3, resetBuffers_session _ _ _ (by decide), hs]; rfl
  obtain ⟨b, c5, h5, z5⟩ := M.bind_ok.1 z3
  obtain ⟨x, th, mac, hx, hth, hmac, hsz, rfl, hs5, ht5⟩ := encodePskFinish_ok hs4 hm (orClose_ok h5)
  obtain ⟨_, c6, h6, z6⟩ := M.bind_ok.1 z5
  obtain ⟨rsp, c7, h7, z7⟩ := M.bind_ok.1 z6
  have hneg5 : c5.neg = c3.neg := ht5.neg.trans hneg4
  have hsaid : Said e (some sid) c5 ([c4.neg.version.get, 0xE7, 0, 0] ++ mac) rsp c7 :=
    transact_ok (M.bind_ok.2 ⟨_, c6, orClose_ok h6, orClose_ok h7⟩)
  obtain ⟨s1, hs7, hcnt⟩ := hsaid.session (.inr rfl) hs5
  have hneg7 : c7.neg = c3.neg := hsaid.fields.1.trans hneg5
  have hx1 : s1.th = some ⟨x.algo, x.data ++ [c4.neg.version.get, 0xE7, 0, 0] ++ mac⟩ := by rw [hcnt.same]
  have hf1 : s1.fInit = true := by rw [hcnt.same]
  obtain ⟨p, q, t, th2, s', g1, g4, g5, g6, g7⟩ := handlePskFinish_ok hs7 hx1 hf1 (orCloseIf_ok z7)
  have hn' := g7.neg.trans hneg7
  rw [hneg4] at *
  rw [hneg7] at *
  refine ⟨x, th, mac, rsp, p, q, t, th2, { s1 with fInit := true, th := some ⟨x.algo, x.data ++ [c3.neg.version.get, 0xE7, 0, 0] ++ mac ++ [c3.neg.version.get, 0x67, p, q]⟩ }, s', c5, c7,
    hx, hth, hmac, hs5, (Tables.sent ht5).trans hsent4, hneg5, hsaid, g1, g4, ?_, g5, g6, ?_, Tables.sent g7, s1, hs7, rfl⟩
  · exact ⟨by rw [hcnt.same], hcnt.reqFinished, hcnt.rspFinished, hcnt.app⟩
  · exact hn'

end Req
end Verif
