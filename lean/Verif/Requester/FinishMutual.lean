/-
FINISH of a mutually authenticated session at the requester: what success means.
-/
import Verif.Requester.FinishEx

namespace Verif
namespace Req
open Rsp

variable {e : REnv} {sid : UInt32}

/-- the first message of FINISH adds the hash of the requester's own chain to the transcript. -/
theorem appendF_own {msg : Bytes} {c c' : Ctx} {u : Unit} {s : Session} {x : HashCtx} (hs : c.session? sid = some s) (hx : s.th = some x) (hm : s.mutAuth ≠ 0)
    (hp : s.usePsk = false) (hf : s.fInit = false) (h : Ctx.appendF e.toEnv true sid msg c = .ok u c') :
    ∃ i own d, Ctx.slot? c.rt.localSlot = some i ∧ c.prov.chain i = some own ∧ e.crypto.hash c.neg.baseHash own = some d ∧
      c'.session? sid = some (fed x d msg s) ∧ Tables c c' := by
  have hid := session?_id hs
  unfold Ctx.appendF at h
  simp only [M.bind_apply, M.get_apply, hs, hx] at h
  rw [if_neg (by simp [hf]), M.bind_apply] at h
  cases hd : Ctx.mutDigest e.toEnv true c s with
  | err st => rw [hd] at h; cases h
  | panic => rw [hd] at h; cases h
  | ok d =>
    rw [hd] at h
    simp only [Res.lift, M.pure_apply, M.set_apply] at h
    cases h
    unfold Ctx.mutDigest at hd
    rw [if_pos ⟨hp, hm⟩] at hd
    obtain ⟨i, h1, h2⟩ := Res.bind_ok.1 hd
    obtain ⟨own, h3, h4⟩ := Res.bind_ok.1 h2
    refine ⟨i, own, d, ?_, ?_, Res.ofOption_ok.1 h4, ?_, _, rfl⟩
    · cases hi : Ctx.slot? c.rt.localSlot with
      | none => simp [hi, Res.unwrap] at h1
      | some j => simp only [if_true, hi, Res.unwrap] at h1; cases h1; rfl
    · exact Res.ofOption_ok.1 h3
    · rw [session?_upd (f := fun s => { s with fInit := true, th := some (Ctx.hashUpdate msg (Ctx.hashUpdate d x)) }) hs hid]
      rfl

/-- a signature is encoded only at the size of the responder's signature algorithm. -/
theorem encodeFinish_size {c c' : Ctx} {slot : UInt8} {sig mac b : Bytes} (h : encodeReq .reqFinish (.finish ⟨1, slot, sig, mac⟩) c = .ok b c') :
    c.cc.SigOk sig := by
  by_cases hk : c.cc.SigOk sig
  · exact hk
  exfalso
  simp only [encodeReq, M.bind_apply, M.get_apply] at h
  unfold encodeAs at h
  cases hx : Msg.encode c.cc ⟨⟨c.neg.version, .reqFinish⟩, .finish ⟨1, slot, sig, mac⟩⟩ (Writer.init 4096) with
  | panic => rw [hx] at h; cases h
  | err a w => rw [hx] at h; cases h
  | ok n w =>
    unfold Msg.encode at hx
    simp only [Enc.seq] at hx
    obtain ⟨_, w1, -, hx⟩ := M.bind_ok.1 hx
    obtain ⟨_, w2, hx, -⟩ := M.bind_ok.1 hx
    obtain ⟨_, w3, hx, -⟩ := M.bind_ok.1 hx
    simp only [Payload.encode, Finish.encode, Enc.seq] at hx
    obtain ⟨_, w4, -, hx⟩ := M.bind_ok.1 hx
    obtain ⟨_, w5, hx, -⟩ := M.bind_ok.1 hx
    obtain ⟨_, w6, -, hx⟩ := M.bind_ok.1 hx
    obtain ⟨_, w7, hx, -⟩ := M.bind_ok.1 hx
    obtain ⟨_, w8, hx, -⟩ := M.bind_ok.1 hx
    unfold encOpt at hx
    rw [if_pos (by decide)] at hx
    unfold encSignature at hx
    obtain ⟨n, w9, hn, hx⟩ := M.bind_ok.1 hx
    have hn : c.cc.asymSize? = some n := by
      cases hz : c.cc.asymSize? with
      | none => rw [hz] at hn; cases hn
      | some j => rw [hz] at hn; cases hn; rfl
    split at hx
    · cases hx
    · rename_i hl
      apply hk
      unfold Cc.SigOk
      rw [hn]
      simp only [ne_eq, not_not] at hl
      rw [hl]

/-- the signature of FINISH: over the transcript hash so far; it verifies under the requester's own certificates as the library cuts them out. -/
theorem finishSignature_ok {b b' : Bytes} {c c' : Ctx} {s : Session} {x : HashCtx} (hs : c.session? sid = some s) (hx : s.th = some x) (hf : s.fInit = true)
    (hm : s.mutAuth ≠ 0) (h : finishSignature e sid b c = .ok b' c') :
    ∃ d sig certs, c.cc.ge12 = true ∧ e.crypto.hash x.algo x.data = some d ∧ e.sign c.neg.baseHash c.neg.baseAsym (Spec.signedData .finish d) = some sig ∧
      ownCerts c = .ok certs ∧ e.verify c.neg.baseHash c.neg.baseAsym certs (Spec.signedData .finish d) sig = true ∧
      b' = (b.take 4 ++ sig ++ b.drop (4 + sig.length)).take b.length ∧ c'.session? sid = some (fed x [] sig s) ∧ Tables c c' := by
  unfold finishSignature at h
  obtain ⟨c0, c1, h0, z0⟩ := M.bind_ok.1 h
  cases h0
  obtain ⟨s', c2, h1, z1⟩ := M.bind_ok.1 z0
  obtain ⟨hs', rfl⟩ := ofOption_ok.1 h1
  rw [hs] at hs'; cases hs'
  rw [if_pos hm] at z1
  obtain ⟨sig, c3, h2, z2⟩ := M.bind_ok.1 z1
  obtain ⟨h2, rfl⟩ := liftOk.1 h2
  obtain ⟨b1, c4, h3, z3⟩ := M.bind_ok.1 z2
  obtain ⟨h3, rfl⟩ := liftOk.1 h3
  obtain ⟨_, c5, h4, z4⟩ := M.bind_ok.1 z3
  cases z4
  obtain ⟨k1, k2⟩ := appendF_ok hs hx (.inr (.inr hf)) h4
  unfold patchAt at h3
  split at h3
  · cases h3
    unfold finishSign at h2
    obtain ⟨d, g1, y1⟩ := Res.bind_ok.1 h2
    obtain ⟨m, g2, y2⟩ := Res.bind_ok.1 y1
    obtain ⟨sg, g3, y3⟩ := Res.bind_ok.1 y2
    obtain ⟨certs, g4, y4⟩ := Res.bind_ok.1 y3
    have hg := Props.C40_only_signed_data _ .finish d m g2
    obtain ⟨q1, q2, rfl⟩ := hg
    split at y4
    · rename_i hv
      cases y4
      exact ⟨d, sig, certs, q1, transcriptHash_ok hx g1, Res.ofOption_ok.1 g3, g4, hv, rfl, k1, k2⟩
    · cases y4
  · cases h3

theorem patched (req sig tail : Bytes) (n : Nat) (hr : req.length = 4) :
    (((req ++ List.replicate n 0 ++ tail).take 4 ++ sig ++ (req ++ List.replicate n 0 ++ tail).drop (4 + sig.length)).take (req ++ List.replicate n 0 ++ tail).length).take (4 + n) =
      req ++ (sig ++ List.replicate n 0).take n := by
  rw [List.take_take, Nat.min_eq_left (by simp; omega)]
  have h1 : (req ++ List.replicate n 0 ++ tail).take 4 = req := by
    rw [List.append_assoc, List.take_append_of_le_length (by omega), List.take_of_length_le (by omega)]
  have h2 : (req ++ List.replicate n 0 ++ tail).drop (4 + sig.length) = (List.replicate n 0 ++ tail).drop sig.length := by
    rw [List.append_assoc, ← hr, List.drop_append]
    simp
  rw [h1, h2, List.append_assoc, List.take_append, List.take_of_length_le (by omega), hr, Nat.add_sub_cancel_left]
  congr 1
  rw [List.take_append, List.take_append]
  congr 1
  by_cases hle : sig.length ≤ n
  · rw [List.drop_append_of_le_length (by simpa using hle), List.take_append_of_le_length (by simp), List.drop_replicate]
    simp [List.take_replicate]
  · rw [show n - sig.length = 0 by omega]; simp

/-- FINISH as built, with mutual authentication. -/
theorem encodeFinish_own {slot : UInt8} {b : Bytes} {c c' : Ctx} {s : Session} (hs : c.session? sid = some s) (hm : s.mutAuth ≠ 0) (hp : s.usePsk = false) (hf : s.fInit = false)
    (h : encodeFinish e sid slot c = .ok b c') :
    ∃ x i own pre n d sig certs th mac, let req := [c.neg.version.get, 0xE5, 1, slot]
      s.th = some x ∧ Ctx.slot? c.rt.localSlot = some i ∧ c.prov.chain i = some own ∧ e.crypto.hash c.neg.baseHash own = some pre ∧
      ReqAsym.size? c.neg.reqAsym = some n ∧ BaseAsym.size? c.neg.baseAsym = some n ∧ c.cc.ge12 = true ∧
      e.crypto.hash x.algo (x.data ++ pre ++ req) = some d ∧ e.sign c.neg.baseHash c.neg.baseAsym (Spec.signedData .finish d) = some sig ∧
      ownCerts c = .ok certs ∧ e.verify c.neg.baseHash c.neg.baseAsym certs (Spec.signedData .finish d) sig = true ∧
      e.crypto.hash x.algo (x.data ++ pre ++ req ++ sig) = some th ∧ e.crypto.hmac s.hash s.hs.reqFinished th = some mac ∧ BaseHash.size? c.neg.baseHash = some mac.length ∧
      b = req ++ (sig ++ List.replicate n 0).take n ++ mac ∧
      c'.session? sid = some { s with fInit := true, th := some ⟨x.algo, x.data ++ pre ++ req ++ sig ++ mac⟩ } ∧ Tables c c' := by
  unfold encodeFinish at h
  obtain ⟨c0, c2, h2, z2⟩ := M.bind_ok.1 h
  cases h2
  obtain ⟨s', c3, h3, z3⟩ := M.bind_ok.1 z2
  obtain ⟨hs', rfl⟩ := ofOption_ok.1 h3
  rw [hs] at hs'; cases hs'
  obtain ⟨ph, c4, h4, z4⟩ := M.bind_ok.1 z3
  obtain ⟨hph, rfl⟩ := liftOk.1 h4
  unfold finishPlaceholder at hph
  rw [if_pos hm] at hph
  obtain ⟨n, hn0, hph⟩ := Res.bind_ok.1 hph
  cases hph
  have hn0 : ReqAsym.size? c4.neg.reqAsym = some n := by
    cases hz : ReqAsym.size? c4.neg.reqAsym with
    | none => rw [hz] at hn0; cases hn0
    | some k => rw [hz] at hn0; cases hn0; rfl
  obtain ⟨k, c5, h5, z5⟩ := M.bind_ok.1 z4
  obtain ⟨hn, rfl⟩ := unwrap_ok.1 h5
  obtain ⟨b0, c6, h6, z6⟩ := M.bind_ok.1 z5
  rw [if_pos hm] at h6
  obtain rfl := encodeReq_ctx h6
  have hsz := encodeFinish_size h6
  have hw : Finish.WF c6.cc ⟨1, slot, List.replicate n 0, List.replicate k 0xcc⟩ := ⟨by show (1 : UInt8) ≤ 1; decide, by unfold OptOk; rw [if_pos (show sigIncluded 1 = true by decide)]; exact hsz, by unfold Cc.DigestOk; rw [hn]; simp⟩
  obtain ⟨-, rfl⟩ := encodeReq_ok (p := .finish _) (Finish.encode_writes hw) h6
  have hb0 : c6.neg.version.get :: ReqRespCode.reqFinish.get :: Finish.wire ⟨1, slot, List.replicate n 0, List.replicate k 0xcc⟩ =
      [c6.neg.version.get, 0xE5, 1, slot] ++ List.replicate n 0 ++ List.replicate k 0xcc := by
    simp [Finish.wire, optWire, sigIncluded]; rfl
  rw [hb0] at z6
  obtain ⟨_, c7, h7, z7⟩ := M.bind_ok.1 z6
  have ht4 : ([c6.neg.version.get, 0xE5, 1, slot] ++ List.replicate n 0 ++ List.replicate k 0xcc : Bytes).take 4 = [c6.neg.version.get, 0xE5, 1, slot] := rfl
  rw [ht4] at h7
  obtain ⟨x, hx⟩ := appendF_th hs h7
  obtain ⟨i, own, pre, o1, o2, o3, k1, k2⟩ := appendF_own hs hx hm hp hf h7
  obtain ⟨b1, c8, h8, z8⟩ := M.bind_ok.1 z7
  obtain ⟨d, sig, certs, d1, d2, d3, d4, d5, d6, d7, d8⟩ := finishSignature_ok k1 rfl rfl (by simpa [fed] using hm) h8
  obtain ⟨th, mac, n', hn', hth, hmac, hl, hle, rfl, q1, q2⟩ := requestHmac_ok d7 rfl rfl z8
  rw [d8.cc, k2.cc, hn] at hn'; cases hn'
  obtain ⟨l, rfl⟩ := k2
  have hlen : b1.length = 4 + n + k := by
    rw [d6]
    simp
    omega
  refine ⟨x, i, own, pre, n, d, sig, certs, th, mac, hx, o1, o2, o3, hn0, ?_, d1, by simpa using d2, d3, d4, d5, by simpa using hth, hmac, ?_, ?_, ?_, ?_⟩
  · have : c6.cc.asymSize? = some n := by simpa [Cc.SigOk] using hsz
    exact this
  · rw [hl]; exact hn
  · congr 1
    rw [hlen, Nat.add_sub_cancel, d6]
    exact patched _ _ _ _ rfl
  · rw [q1]; simp [fed]
  · exact (Tables.trans ⟨l, rfl⟩ d8).trans q2

theorem resetBuffers_prov (k : ReqRespCode) (sid : Option UInt32) (c : Ctx) : (Ctx.resetBuffers k sid c).prov = c.prov := by
  unfold Ctx.resetBuffers Ctx.resetM Ctx.resetM1M2
  cases sid <;> dsimp only <;> split <;> split <;> try split
  all_goals rfl

theorem resetBuffers_localSlot (k : ReqRespCode) (sid : Option UInt32) (c : Ctx) : (Ctx.resetBuffers k sid c).rt.localSlot = c.rt.localSlot := by
  unfold Ctx.resetBuffers Ctx.resetM Ctx.resetM1M2
  cases sid <;> dsimp only <;> split <;> split <;> try split
  all_goals rfl

/-- FINISH with mutual authentication: what success means. -/
theorem finish_own {slot : Option UInt8} {c c' : Ctx} {u : Unit} {s : Session} (hs : c.session? sid = some s) (hm : s.mutAuth ≠ 0) (hp : s.usePsk = false) (hf : s.fInit = false)
    (h : finish e slot sid c = .ok u c') :
    ∃ sl x i own pre n d sig certs th mac bytes v p q rmac t th2 s1 s' c0 c1,
      let req := [c.neg.version.get, 0xE5, 1, sl]
      let rsp := [v, 0x65, p, q]
      finishSlot c slot = some sl ∧ s.th = some x ∧ Ctx.slot? c.rt.localSlot = some i ∧ c.prov.chain i = some own ∧ e.crypto.hash c.neg.baseHash own = some pre ∧
      ReqAsym.size? c.neg.reqAsym = some n ∧ BaseAsym.size? c.neg.baseAsym = some n ∧ c.cc.ge12 = true ∧
      e.crypto.hash x.algo (x.data ++ pre ++ req) = some d ∧ e.sign c.neg.baseHash c.neg.baseAsym (Spec.signedData .finish d) = some sig ∧
      ownCerts c = .ok certs ∧ e.verify c.neg.baseHash c.neg.baseAsym certs (Spec.signedData .finish d) sig = true ∧
      e.crypto.hash x.algo (x.data ++ pre ++ req ++ sig) = some th ∧ e.crypto.hmac s.hash s.hs.reqFinished th = some mac ∧
      c0.session? sid = some { s with l1l2 := none, fInit := true, th := some ⟨x.algo, x.data ++ pre ++ req ++ sig ++ mac⟩ } ∧ c0.sent = c.sent ∧
      Said e (if c.cc.inClear then none else some sid) c0 (req ++ (sig ++ List.replicate n 0).take n ++ mac) bytes c1 ∧ bytes = rsp ++ rmac ++ t ∧
      OptOk c.cc.inClear c.cc.DigestOk rmac ∧
      (c.cc.inClear = true → ∃ th', e.crypto.hash x.algo (x.data ++ pre ++ req ++ sig ++ mac ++ rsp) = some th' ∧ e.crypto.hmacVerify s.hash s.hs.rspFinished th' rmac = true) ∧
      e.crypto.hash x.algo (x.data ++ pre ++ req ++ sig ++ mac ++ rsp ++ rmac) = some th2 ∧
      Counted { s with l1l2 := none, fInit := true, th := some ⟨x.algo, x.data ++ pre ++ req ++ sig ++ mac ++ rsp ++ rmac⟩ } s1 ∧
      Session.genData e.crypto c.neg.version th2 s1 = .ok () s' ∧ c'.session? sid = some { s' with state := .established } := by
  unfold finish at h
  obtain ⟨c00, c01, h00, z0⟩ := M.bind_ok.1 h
  cases h00
  obtain ⟨sl, c2, h1, z1⟩ := M.bind_ok.1 z0
  obtain ⟨hsl, rfl⟩ := ofOption_ok.1 h1
  obtain ⟨_, c3, h2, z2⟩ := M.bind_ok.1 z1
  obtain ⟨-, rfl⟩ := ofOption_ok.1 h2
  obtain ⟨_, c4, h3, z3⟩ := M.bind_ok.1 z2
  rw [M.modify_apply] at h3
  injection h3 with _ h3
  have hneg4 : c4.neg = c3.neg := by rw [← h3]; exact cc_neg (resetBuffers_cc _ _ _)
  have hsent4 : c4.sent = c3.sent := by rw [← h3]; exact resetBuffers_sent _ _ _
  have hprov4 : c4.prov = c3.prov := by rw [← h3]; exact resetBuffers_prov _ _ _
  have hslot4 : c4.rt.localSlot = c3.rt.localSlot := by rw [← h3]; exact resetBuffers_localSlot _ _ _
  have hpeer4 : c4.peer = c3.peer := by rw [← h3]; exact resetBuffers_peer _ _ _
  have hs4 : c4.session? sid = some { s with l1l2 := none } := by
    rw [← h3, resetBuffers_session _ _ _ (by decide), hs]; rfl
  obtain ⟨b, c5, h5, z5⟩ := M.bind_ok.1 z3
  obtain ⟨x, i, own, pre, n, d, sig, certs, th, mac, hx, o1, o2, o3, o4, o5, o6, o7, o8, o9, o10, hth, hmac, hsz, rfl, hs5, ht5⟩ := encodeFinish_own hs4 hm hp hf (orClose_ok h5)
  obtain ⟨_, c6, h6, z6⟩ := M.bind_ok.1 z5
  obtain ⟨rsp, c7, h7, z7⟩ := M.bind_ok.1 z6
  have hneg5 : c5.neg = c3.neg := ht5.neg.trans hneg4
  have hsaid : Said e (if c3.cc.inClear then none else some sid) c5 ([c4.neg.version.get, 0xE5, 1, sl] ++ (sig ++ List.replicate n 0).take n ++ mac) rsp c7 := by
    have h6 := orClose_ok h6
    have h7 := orClose_ok h7
    unfold finishSend at h6
    unfold finishReceive at h7
    by_cases hc : c3.cc.inClear = true
    · rw [if_pos hc] at h6 h7 ⊢
      exact transact_ok (M.bind_ok.2 ⟨_, c6, h6, h7⟩)
    · rw [if_neg hc] at h6 h7 ⊢
      exact transact_ok (M.bind_ok.2 ⟨_, c6, h6, h7⟩)
  obtain ⟨s1, hs7, hcnt⟩ := hsaid.session (by split; exact .inl rfl; exact .inr rfl) hs5
  have hneg7 : c7.neg = c3.neg := hsaid.fields.1.trans hneg5
  have hx1 : s1.th = some ⟨x.algo, x.data ++ pre ++ [c4.neg.version.get, 0xE5, 1, sl] ++ sig ++ mac⟩ := by rw [hcnt.same]
  have hf1 : s1.fInit = true := by rw [hcnt.same]
  obtain ⟨v, p, q, rmac, t, th2, s', g1, g2, g3, g4, g5, g6, -⟩ := handleFinish_ok hs7 hx1 hf1 (orCloseIf_ok z7)
  have hcc : c7.cc.inClear = c3.cc.inClear := Counted.inClear hneg7
  have hdg : c7.cc.DigestOk = c3.cc.DigestOk := by unfold Ctx.cc Cc.DigestOk Cc.hashSize?; rw [hneg7]
  have hge : c4.cc.ge12 = c3.cc.ge12 := by
    show Cc.ge12 ⟨_, _, _⟩ = Cc.ge12 ⟨_, _, _⟩
    unfold Cc.ge12
    rw [hneg4]
    rfl
  have hoc : ownCerts c4 = ownCerts c3 := by
    have hz : c4.cc.hashSize? = c3.cc.hashSize? := by unfold Ctx.cc Cc.hashSize?; rw [hneg4]
    simp only [ownCerts, hz, hprov4, hslot4, hpeer4]
  rw [hcc, hdg] at g2
  rw [hcc] at g3
  rw [hge] at o6
  rw [hoc] at o9
  rw [hneg4] at *
  rw [hneg7] at g5
  rw [hslot4] at o1
  rw [hprov4] at o2
  have hh1 : s1.hash = s.hash := by rw [hcnt.same]
  refine ⟨sl, x, i, own, pre, n, d, sig, certs, th, mac, rsp, v, p, q, rmac, t, th2, { s1 with fInit := true, th := some ⟨x.algo, x.data ++ pre ++ [c3.neg.version.get, 0xE5, 1, sl] ++ sig ++ mac ++ [v, 0x65, p, q] ++ rmac⟩ }, s', c5, c7,
    hsl, hx, o1, o2, o3, o4, o5, o6, o7, o8, o9, o10, hth, hmac, hs5, (Tables.sent ht5).trans hsent4, hsaid, g1, g2, ?_, g4, ?_, g5, g6⟩
  · intro hc
    obtain ⟨th', k1, k2⟩ := g3 hc
    refine ⟨th', k1, ?_⟩
    rw [hh1, hcnt.rspFinished] at k2
    exact k2
  · exact ⟨by rw [hcnt.same], hcnt.reqFinished, hcnt.rspFinished, hcnt.app⟩

end Req
end Verif
