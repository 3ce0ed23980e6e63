/-
What a successful FINISH or PSK_FINISH has checked, and what it leaves in the session.
-/
import Verif.Responder.Exact
import Verif.Session.KeyLemmas
import Verif.Msg.Bounds
import Verif.Spec.Finish
import Verif.Props.Signing

namespace Verif
namespace Rsp

variable {e : Env}

theorem session?_upd {c : Ctx} {sid : UInt32} {s : Session} {f : Session → Session} (hs : c.session? sid = some s) (hf : (f s).id = sid) :
    (c.updSession sid f).session? sid = some (f s) := by
  unfold Ctx.session? at *
  unfold Ctx.updSession
  generalize c.sessions = l at *
  induction l with
  | nil => simp at hs
  | cons a l ih =>
    unfold Ctx.updFirst
    by_cases h : a.id = sid
    · have : a = s := by simpa [h] using hs
      subst this
      simp [h, hf]
    · simp only [h, decide_false]
      have := ih (by simpa [h] using hs)
      rw [if_neg (by decide)]
      simpa [h] using this

theorem readMsg_ok {α : Type} {x : Cc → Rd α} {bytes req : Bytes} {r : Reader} {a : α} {c c' : Ctx} (h : readMsg x bytes r c = .ok (a, req) c') :
    c' = c ∧ ∃ r', x c.cc r = .ok a r' ∧ req = bytes.take r'.used := by
  simp only [readMsg, M.bind_apply, M.get_apply, Res.read] at h
  cases hx : x c.cc r with
  | panic => simp [hx, Res.lift] at h
  | err u s => simp [hx, Res.lift] at h
  | ok b r' =>
    simp only [hx, Res.lift, M.pure_apply] at h
    cases h
    exact ⟨rfl, r', rfl, rfl⟩

theorem finishStart_ok {bytes : Bytes} {c c' : Ctx} {r : Reader} (h : finishStart bytes c = .ok r c') :
    c' = c ∧ ∃ v k t, bytes = v :: k :: t ∧ SpdmVersion.ofCode v = c.neg.version ∧ r = ⟨t, 2⟩ := by
  unfold finishStart at h
  match bytes with
  | [] =>
    obtain ⟨r, h1⟩ := header_read_short (b := []) (by simp)
    simp [Res.read, h1, Res.lift] at h
  | [a] =>
    obtain ⟨r, h1⟩ := header_read_short (b := [a]) (by simp)
    simp [Res.read, h1, Res.lift] at h
  | v :: k :: t =>
    simp only [Res.read, header_read, Res.lift, M.bind_apply, M.get_apply] at h
    split at h
    · simp at h
    · rename_i hv
      cases h
      exact ⟨rfl, v, k, t, rfl, Decidable.not_not.1 hv, rfl⟩

/-- the transcript of the session after `d` and `msg` were added to what follows the exchange. -/
def fed (x : HashCtx) (d msg : Bytes) (s : Session) : Session := { s with fInit := true, th := some ⟨x.algo, x.data ++ d ++ msg⟩ }

theorem addF_full {sid : UInt32} {msg : Bytes} {c c' : Ctx} {u : Unit} (h : addF e sid msg c = .ok u c') :
    ∃ s x d, c.session? sid = some s ∧ s.th = some x ∧ (s.mutAuth = 0 ∨ s.usePsk = true ∨ s.fInit = true → d = []) ∧
      c'.session? sid = some (fed x d msg s) ∧ c'.cc = c.cc ∧ (s.fInit = false → Ctx.mutDigest e false c s = .ok d) ∧ c'.peer = c.peer ∧ c'.rt = c.rt := by
  unfold addF at h
  rw [mapErr_ok] at h
  unfold Ctx.appendF at h
  simp only [M.bind_apply, M.get_apply] at h
  cases hs : c.session? sid with
  | none => simp [hs] at h
  | some s =>
    have hid := session?_id hs
    simp only [hs] at h
    cases hx : s.th with
    | none => simp [hx] at h
    | some x =>
      simp only [hx] at h
      refine ⟨s, x, ?_⟩
      split at h
      · rename_i hf
        cases h
        refine ⟨[], rfl, hx, fun _ => rfl, ?_, rfl, fun h => (by rw [hf] at h; cases h), rfl, rfl⟩
        rw [session?_upd (f := fun s => { s with th := some (Ctx.hashUpdate msg x) }) hs hid]
        simp [fed, Ctx.hashUpdate, ← hf]
      · rename_i hf
        simp only [M.bind_apply] at h
        cases hd : Ctx.mutDigest e false c s with
        | err st => simp [hd, Res.lift] at h
        | panic => simp [hd, Res.lift] at h
        | ok d =>
          simp only [hd, Res.lift, M.set_apply] at h
          cases h
          refine ⟨d, rfl, hx, ?_, ?_, rfl, fun _ => rfl, rfl, rfl⟩
          · intro hh
            unfold Ctx.mutDigest at hd
            rw [if_neg (by
              rintro ⟨h1, h2⟩
              rcases hh with hh | hh | hh
              · exact h2 hh
              · rw [h1] at hh; cases hh
              · exact hf hh)] at hd
            cases hd; rfl
          · rw [session?_upd (f := fun s => { s with fInit := true, th := some (Ctx.hashUpdate msg (Ctx.hashUpdate d x)) }) hs hid]
            rfl

theorem addF_ok {sid : UInt32} {msg : Bytes} {c c' : Ctx} {u : Unit} (h : addF e sid msg c = .ok u c') :
    ∃ s x d, c.session? sid = some s ∧ s.th = some x ∧ (s.mutAuth = 0 ∨ s.usePsk = true ∨ s.fInit = true → d = []) ∧
      c'.session? sid = some (fed x d msg s) ∧ c'.cc = c.cc := by
  obtain ⟨s, x, d, h1, h2, h3, h4, h5, -⟩ := addF_full h
  exact ⟨s, x, d, h1, h2, h3, h4, h5⟩

theorem thOf_ok {sid : UInt32} {c c' : Ctx} {h : Bytes} (hh : thOf e sid c = .ok h c') :
    c' = c ∧ ∃ s x, c.session? sid = some s ∧ s.th = some x ∧ e.crypto.hash x.algo x.data = some h := by
  unfold thOf at hh
  simp only [M.bind_apply, M.get_apply] at hh
  cases hs : c.session? sid with
  | none => simp [hs] at hh
  | some s =>
    simp only [hs, M.unwrap_some] at hh
    rw [lift_ok] at hh
    obtain ⟨h1, rfl⟩ := hh
    refine ⟨rfl, s, ?_⟩
    unfold Ctx.transcriptHash at h1
    cases hx : s.th with
    | none => rw [hx] at h1; cases h1
    | some x =>
      rw [hx] at h1
      refine ⟨x, rfl, rfl, ?_⟩
      cases hy : e.crypto.hash x.algo x.data with
      | none =>
        have : Ctx.hashFinal e x = none := hy
        simp [Res.ofOption, this] at h1
      | some d =>
        have : Ctx.hashFinal e x = some d := hy
        simp [Res.ofOption, this] at h1
        rw [h1]

theorem checkHmac_ok {sid : UInt32} {mac : Bytes} {c c' : Ctx} {u : Unit} (h : checkHmac e sid mac c = .ok u c') :
    ∃ s x th d, c.session? sid = some s ∧ s.th = some x ∧ e.crypto.hash x.algo x.data = some th ∧
      e.crypto.hmacVerify s.hash s.hs.reqFinished th mac = true ∧ (s.mutAuth = 0 ∨ s.usePsk = true ∨ s.fInit = true → d = []) ∧
      c'.session? sid = some (fed x d mac s) ∧ c'.cc = c.cc := by
  unfold checkHmac at h
  obtain ⟨th, c1, h1, h2⟩ := M.bind_ok.1 h
  obtain ⟨rfl, s, x, hs, hx, hh⟩ := thOf_ok h1
  simp only [M.bind_apply, M.get_apply, hs, M.unwrap_some] at h2
  split at h2
  · rename_i hv
    obtain ⟨s', x', d, hs', hx', hd, hc, hcc⟩ := addF_ok h2
    rw [hs] at hs'; cases hs'
    rw [hx] at hx'; cases hx'
    exact ⟨s, x, th, d, hs, hx, hh, hv, hd, hc, hcc⟩
  · simp at h2

theorem resetBuffers_session (k : ReqRespCode) (c : Ctx) (sid : UInt32) (hk : k ≠ .reqGetMeasurements) :
    (Ctx.resetBuffers k (some sid) c).session? sid = (c.session? sid).map fun s => { s with l1l2 := none } := by
  have h1 : (Ctx.resetBuffers k (some sid) c).sessions = (Ctx.resetM (some sid) c).sessions := by
    unfold Ctx.resetBuffers
    rw [if_pos hk]
    dsimp only
    split <;> first | rfl | (split <;> rfl)
  unfold Ctx.session?
  rw [h1]
  unfold Ctx.resetM Ctx.updSession
  dsimp only
  generalize c.sessions = l
  induction l with
  | nil => rfl
  | cons a l ih =>
    unfold Ctx.updFirst
    by_cases h : a.id = sid
    · simp [h]
    · simp [h, ih]

theorem resetBuffers_cc (k : ReqRespCode) (c : Ctx) (sid : Option UInt32) : (Ctx.resetBuffers k sid c).cc = c.cc := by
  unfold Ctx.resetBuffers Ctx.cc
  dsimp only
  have h1 : ∀ c : Ctx, (Ctx.resetM sid c).neg = c.neg ∧ (Ctx.resetM sid c).rt.needSummary = c.rt.needSummary ∧ (Ctx.resetM sid c).rt.needSig = c.rt.needSig := by
    intro c; unfold Ctx.resetM; cases sid <;> exact ⟨rfl, rfl, rfl⟩
  have h2 : ∀ (p : Prop) [Decidable p], (if p then Ctx.resetM sid c else c).neg = c.neg ∧ (if p then Ctx.resetM sid c else c).rt.needSummary = c.rt.needSummary ∧
      (if p then Ctx.resetM sid c else c).rt.needSig = c.rt.needSig := by
    intro p _; split
    · exact h1 c
    · exact ⟨rfl, rfl, rfl⟩
  generalize hd : (if k ≠ .reqGetMeasurements then Ctx.resetM sid c else c) = d
  have h3 : d.neg = c.neg ∧ d.rt.needSummary = c.rt.needSummary ∧ d.rt.needSig = c.rt.needSig := by rw [← hd]; exact h2 _
  obtain ⟨g1, g2, g3⟩ := h3
  rw [← g1, ← g2, ← g3]
  split <;> first | rfl | (split <;> rfl)

/-- FINISH on the wire. -/
theorem finish_read {c : Cc} {t : Bytes} {m : Finish} {r' : Reader} (h : Finish.read c ⟨t, 2⟩ = .ok m r') :
    t = [m.attr, m.reqSlot] ++ m.signature ++ m.verify ++ r'.rest ∧ r'.used = 4 + m.signature.length + m.verify.length ∧
      m.attr ≤ 1 ∧ (sigIncluded m.attr = false → m.signature = []) ∧
      (sigIncluded m.attr = true → c.SigOk m.signature) ∧ c.DigestOk m.verify := by
  unfold Finish.read at h
  obtain ⟨attr, r1, h1, h2⟩ := M.bind_ok.1 h
  obtain ⟨ha, h2⟩ := M.guard_ok.1 h2
  obtain ⟨slot, r2, h3, h4⟩ := M.bind_ok.1 h2
  obtain ⟨sig, r3, h5, h6⟩ := M.bind_ok.1 h4
  obtain ⟨ver, r4, h7, h8⟩ := M.bind_ok.1 h6
  cases h8
  rw [rdU8_ok] at h1 h3
  rw [rdDigest_ok] at h7
  obtain ⟨hd, h7⟩ := h7
  have hsig : (sigIncluded attr = false → sig = []) ∧ (sigIncluded attr = true → c.SigOk sig) ∧ r2.After sig r3 := by
    cases hb : sigIncluded attr with
    | false =>
      rw [hb] at h5
      simp [rdOpt] at h5
      obtain ⟨rfl, rfl⟩ := h5
      exact ⟨fun _ => rfl, fun h => by simp at h, Reader.After.refl _⟩
    | true =>
      rw [hb] at h5
      simp only [rdOpt, if_true] at h5
      rw [rdSignature_ok] at h5
      exact ⟨fun h => by simp at h, fun _ => h5.1, h5.2⟩
  obtain ⟨g1, g2, g3⟩ := hsig
  have := ((h1.trans h3).trans g3).trans h7
  obtain ⟨k1, k2⟩ := this
  simp only at k1 k2
  refine ⟨by simpa using k1, ?_, ?_, g1, g2, hd⟩
  · dsimp only; simp at k2; omega
  · simp only [UInt8.le_iff_toNat_le, gt_iff_lt, UInt8.lt_iff_toNat_lt] at *; omega

theorem finishMutAuth_ok {sid : UInt32} {m : Finish} {c c' : Ctx} {u : Unit} (h : finishMutAuth e sid m c = .ok u c') :
    ∃ s, c.session? sid = some s ∧ (s.mutAuth = 0 → sigIncluded m.attr = false ∧ c' = c) ∧
      (s.mutAuth ≠ 0 → sigIncluded m.attr = true ∧ finishSigOk e c s m.signature = .ok () ∧ ∃ x d, s.th = some x ∧ (s.usePsk = true ∨ s.fInit = true → d = []) ∧
        c'.session? sid = some (fed x d m.signature s) ∧ c'.cc = c.cc) := by
  unfold finishMutAuth at h
  simp only [M.bind_apply, M.get_apply] at h
  cases hs : c.session? sid with
  | none => simp [hs] at h
  | some s =>
    simp only [hs, M.unwrap_some] at h
    refine ⟨s, rfl, ?_⟩
    split at h
    · simp at h
    · rename_i hn
      have hn : (s.mutAuth ≠ 0) = (sigIncluded m.attr = true) := Decidable.not_not.1 hn
      split at h
      · rename_i hm
        obtain ⟨_, c1, h1, h2⟩ := M.bind_ok.1 h
        rw [lift_ok] at h1
        obtain ⟨hsg, rfl⟩ := h1
        obtain ⟨s', x, d, hs', hx, hd, hc, hcc⟩ := addF_ok h2
        rw [hs] at hs'; cases hs'
        exact ⟨fun h0 => absurd h0 hm, fun _ => ⟨by rw [← hn]; exact hm, hsg, x, d, hx, fun hh => hd (.inr hh), hc, hcc⟩⟩
      · rename_i hm
        cases h
        refine ⟨fun _ => ⟨?_, rfl⟩, fun h0 => absurd h0 hm⟩
        cases hb : sigIncluded m.attr with
        | false => rfl
        | true => exact absurd (by rw [hn]; exact hb) hm

/-- FINISH_RSP as sent: the fixed part, and the HMAC if the handshake is in the clear. -/
def finishRspBytes (c : Ctx) (rmac : Bytes) : Bytes := [c.neg.version.get, 0x65, 0, 0] ++ (if c.cc.inClear then rmac else [])

theorem cc_neg {c c' : Ctx} (h : c'.cc = c.cc) : c'.neg = c.neg := congrArg Cc.neg h

theorem take_front (n : Nat) (p l : Bytes) (h : l.length = n) : (p ++ l).take ((p ++ l).length - n) = p := by
  subst h; simp

theorem finishAnswer_ok {sid : UInt32} {b : Bytes} {c c' : Ctx} {s : Session} {x : HashCtx} (hs : c.session? sid = some s) (hx : s.th = some x)
    (hf : s.fInit = true) (h : finishAnswer e sid c = .ok b c') :
    ∃ rmac, b = finishRspBytes c rmac ∧
      (c.cc.inClear = true → ∃ th, e.crypto.hash x.algo (x.data ++ [c.neg.version.get, 0x65, 0, 0]) = some th ∧ e.crypto.hmac s.hash s.hs.rspFinished th = some rmac) ∧
      c'.session? sid = some { s with th := some ⟨x.algo, x.data ++ b⟩ } ∧ c'.cc = c.cc := by
  unfold finishAnswer at h
  simp only [M.bind_apply, M.get_apply] at h
  cases hz : c.cc.hashSize? with
  | none => simp [hz] at h
  | some n =>
    simp only [hz, M.unwrap_some] at h
    obtain ⟨rsp, c1, h1, h2⟩ := M.bind_ok.1 h
    unfold encodeMsgRsp at h1
    rw [mapErr_ok] at h1
    obtain ⟨rfl, rfl⟩ := encodeRsp_ok (p := .finishRsp (List.replicate n 0xcc)) (w := fun cc => [0] ++ [0] ++ optWire cc.inClear (List.replicate n 0xcc)) (fun cc => Emits.finishRsp cc _) h1
    have h65 : ReqRespCode.rspFinishRsp.get = 0x65 := rfl
    rw [h65] at h2
    have hself : ∀ d msg, fed x d msg s = { s with th := some ⟨x.algo, x.data ++ d ++ msg⟩ } := by
      intro d msg; unfold fed; rw [← hf]
    cases hc : c1.cc.inClear with
    | false =>
      simp only [hc, Bool.false_eq_true, if_false, optWire, List.append_nil] at h2
      obtain ⟨_, c2, h3, h4⟩ := M.bind_ok.1 h2
      cases h4
      obtain ⟨s', x', d, hs', hx', hd, g1, g2⟩ := addF_ok h3
      rw [hs] at hs'; cases hs'
      rw [hx] at hx'; cases hx'
      obtain rfl := hd (.inr (.inr hf))
      refine ⟨[], by simp [finishRspBytes, hc], fun h => by simp at h, ?_, g2⟩
      rw [g1, hself]
      simp
    | true =>
      simp only [hc, if_true, optWire] at h2
      obtain ⟨body, c2, h3, h4⟩ := M.bind_ok.1 h2
      have h3' : c2 = c1 ∧ dropTail n (c1.neg.version.get :: 0x65 :: ([0] ++ [0] ++ List.replicate n 0xcc)) = .ok body := by
        cases hd : dropTail n (c1.neg.version.get :: 0x65 :: ([0] ++ [0] ++ List.replicate n 0xcc)) with
        | ok r => rw [hd] at h3; cases h3; exact ⟨rfl, rfl⟩
        | err st => rw [hd] at h3; cases h3
        | panic => rw [hd] at h3; cases h3
      obtain ⟨rfl, hb⟩ := h3'
      have hbody : body = [c2.neg.version.get, 0x65, 0, 0] := by
        have := (dropTail_ok hb).2
        rw [this]
        exact take_front n [c2.neg.version.get, 0x65, 0, 0] _ (by simp)
      subst hbody
      obtain ⟨_, c3, h5, h6⟩ := M.bind_ok.1 h4
      obtain ⟨s', x', d, hs', hx', hd, g1, g2⟩ := addF_ok h5
      rw [hs] at hs'; cases hs'
      rw [hx] at hx'; cases hx'
      obtain rfl := hd (.inr (.inr hf))
      obtain ⟨th, c4, h7, h8⟩ := M.bind_ok.1 h6
      obtain ⟨rfl, s3, x3, hs3, hx3, hth⟩ := thOf_ok h7
      rw [g1] at hs3; cases hs3
      cases hx3
      simp only [M.bind_apply, M.get_apply, g1, M.unwrap_some] at h8
      obtain ⟨mac, c5, h9, h10⟩ := M.bind_ok.1 h8
      rw [lift_ok] at h9
      obtain ⟨h9, rfl⟩ := h9
      obtain ⟨_, c6, h11, h12⟩ := M.bind_ok.1 h10
      obtain ⟨s4, x4, d4, hs4, hx4, hd4, k1, k2⟩ := addF_ok h11
      rw [g1] at hs4; cases hs4
      cases hx4
      obtain rfl := hd4 (.inr (.inr rfl))
      have h12' : c' = c6 ∧ patchTail n mac (c2.neg.version.get :: 0x65 :: ([0] ++ [0] ++ List.replicate n 0xcc)) = .ok b := by
        cases hd : patchTail n mac (c2.neg.version.get :: 0x65 :: ([0] ++ [0] ++ List.replicate n 0xcc)) with
        | ok r => rw [hd] at h12; cases h12; exact ⟨rfl, rfl⟩
        | err st => rw [hd] at h12; cases h12
        | panic => rw [hd] at h12; cases h12
      obtain ⟨rfl, hp⟩ := h12'
      have hbb : b = [c2.neg.version.get, 0x65, 0, 0] ++ mac := by
        have := (patchTail_ok hp).2.2
        rw [this]
        congr 1
        exact take_front n [c2.neg.version.get, 0x65, 0, 0] _ (by simp)
      subst hbb
      refine ⟨mac, by simp [finishRspBytes, hc], fun _ => ⟨th, ?_, ?_⟩, ?_, k2.trans g2⟩
      · simpa using hth
      · unfold Session.hmacRsp at h9
        cases hm : e.crypto.hmac s.hash s.hs.rspFinished th with
        | none => simp [fed, hm, Res.ofOption] at h9
        | some m => simp [fed, hm, Res.ofOption] at h9; rw [h9]
      · rw [k1]
        simp only [fed, ← hf]
        simp

theorem deriveData_ok {sid : UInt32} {c c' : Ctx} {u : Unit} (h : deriveData e sid c = .ok u c') :
    ∃ s x th s', c.session? sid = some s ∧ s.th = some x ∧ e.crypto.hash x.algo x.data = some th ∧
      Session.genData e.crypto c.neg.version th s = .ok () s' ∧ c'.session? sid = some s' ∧ c'.cc = c.cc := by
  unfold deriveData at h
  obtain ⟨th, c1, h1, h2⟩ := M.bind_ok.1 h
  obtain ⟨rfl, s, x, hs, hx, hth⟩ := thOf_ok h1
  simp only [M.bind_apply, M.get_apply, Ctx.onSession, hs] at h2
  refine ⟨s, x, th, ?_⟩
  cases hg : Session.genData e.crypto c1.neg.version th s with
  | panic => simp [hg] at h2
  | err st s' => simp [hg] at h2
  | ok v s' =>
    simp only [hg, M.set_apply, M.bind_apply, M.pure_apply] at h2
    cases h2
    have hk := ((Session.keep_genData _ _ _).ok hg).1
    exact ⟨s', hs, hx, hth, by rfl, session?_upd (f := fun _ => s') hs (hk.trans (session?_id hs)), rfl⟩

theorem resetBuffers_peer (k : ReqRespCode) (sid : Option UInt32) (c : Ctx) : (Ctx.resetBuffers k sid c).peer = c.peer := by
  unfold Ctx.resetBuffers Ctx.resetM Ctx.resetM1M2
  cases sid <;> dsimp only <;> split <;> split <;> try split
  all_goals rfl

theorem resetBuffers_peerSlot (k : ReqRespCode) (sid : Option UInt32) (c : Ctx) : (Ctx.resetBuffers k sid c).rt.peerSlot = c.rt.peerSlot := by
  unfold Ctx.resetBuffers Ctx.resetM Ctx.resetM1M2
  cases sid <;> dsimp only <;> split <;> split <;> try split
  all_goals rfl

/-- what the signature check of FINISH has checked. -/
theorem finishSigOk_ok {c : Ctx} {s : Session} {sig : Bytes} {x : HashCtx} (hx : s.th = some x) (h : finishSigOk e c s sig = .ok ()) :
    ∃ chain h, e.crypto.hash x.algo x.data = some h ∧ Spec.PeerSigned e c chain h sig := by
  unfold finishSigOk at h
  obtain ⟨th, h1, h2⟩ := Res.bind_ok.1 h
  unfold Ctx.transcriptHash at h1
  rw [hx] at h1
  obtain ⟨y, h1, h1'⟩ := Res.bind_ok.1 h1
  cases h1
  have hth := Res.ofOption_ok.1 h1'
  obtain ⟨i, h3, h4⟩ := Res.bind_ok.1 h2
  have hi := Res.unwrap_ok.1 h3
  obtain ⟨chain, h5, h6⟩ := Res.bind_ok.1 h4
  have hch := Res.ofOption_ok.1 h5
  obtain ⟨hs, h7, h8⟩ := Res.bind_ok.1 h6
  have hhs := Res.unwrap_ok.1 h7
  split at h8
  · cases h8
  · rename_i hlen
    obtain ⟨m, h9, h10⟩ := Res.bind_ok.1 h8
    have := Props.C40_only_signed_data c.cc .finish th m h9
    split at h10
    · rename_i hver
      rw [this.2.2] at hver
      refine ⟨chain, th, hth, i, hs, ?_, hch, hhs, by omega, hver⟩
      unfold Ctx.slot? at hi
      split at hi
      · cases hi; rfl
      · cases hi
    · cases h10

/-- A FINISH that is answered: the transcript so far, the first four bytes and the signature (if any) of the message hash to a
value whose HMAC under the session's request finished key is the one received; the data secrets come from the transcript
with that HMAC and the response. -/
theorem finishRsp_ok {sid : UInt32} {bytes b : Bytes} {c c' : Ctx} (h : finishRsp e sid bytes c = .ok b c') :
    ∃ v k attr slot sig mac rest s x d th rmac th2 s',
      bytes = [v, k, attr, slot] ++ sig ++ mac ++ rest ∧ SpdmVersion.ofCode v = c.neg.version ∧ c.cc.DigestOk mac ∧
      c.session? sid = some s ∧ s.th = some x ∧ s.usePsk = false ∧ ((s.mutAuth = 0 → attr = 0 ∧ sig = [] ∧ d = []) ∧
        (s.mutAuth ≠ 0 → attr = 1 ∧ c.cc.SigOk sig ∧ ∃ chain h, (s.fInit = true → d = []) ∧ (s.fInit = false → e.crypto.hash c.neg.baseHash chain = some d) ∧
          e.crypto.hash x.algo (x.data ++ d ++ [v, k, attr, slot]) = some h ∧ Spec.PeerSigned e c chain h sig)) ∧
      e.crypto.hash x.algo (x.data ++ d ++ [v, k, attr, slot] ++ sig) = some th ∧
      e.crypto.hmacVerify s.hash s.hs.reqFinished th mac = true ∧ b = finishRspBytes c rmac ∧
      (c.cc.inClear = true → ∃ th, e.crypto.hash x.algo (x.data ++ d ++ [v, k, attr, slot] ++ sig ++ mac ++ [c.neg.version.get, 0x65, 0, 0]) = some th ∧
        e.crypto.hmac s.hash s.hs.rspFinished th = some rmac) ∧
      e.crypto.hash x.algo (x.data ++ d ++ [v, k, attr, slot] ++ sig ++ mac ++ b) = some th2 ∧
      Session.genData e.crypto c.neg.version th2
        { s with l1l2 := none, fInit := true, th := some ⟨x.algo, x.data ++ d ++ [v, k, attr, slot] ++ sig ++ mac ++ b⟩ } = .ok () s' ∧
      c'.session? sid = some s' ∧ c'.cc = c.cc := by
  unfold finishRsp at h
  obtain ⟨r, c1, h1, h2⟩ := M.bind_ok.1 h
  obtain ⟨rfl, v, k, t, rfl, hv, rfl⟩ := finishStart_ok h1
  obtain ⟨_, c2, h3, h4⟩ := M.bind_ok.1 h2
  simp only [M.modify_apply] at h3
  cases h3
  obtain ⟨⟨m, req⟩, c3, h5, h6⟩ := M.bind_ok.1 h4
  obtain ⟨rfl, r', hr, _⟩ := readMsg_ok h5
  have hcc0 := resetBuffers_cc .reqFinish c1 (some sid)
  rw [hcc0] at hr
  obtain ⟨ht, _, hattr, hn1, hn2, hdig⟩ := finish_read hr
  dsimp only at h6
  have h4b : (v :: k :: t).take 4 = [v, k, m.attr, m.reqSlot] := by rw [ht]; rfl
  rw [h4b] at h6
  obtain ⟨_, c4, h7, h8⟩ := M.bind_ok.1 h6
  obtain ⟨s0, x, d, hs0, hx0, hd, g1, g2, g3, g4, g5⟩ := addF_full h7
  rw [resetBuffers_session .reqFinish c1 sid (by decide)] at hs0
  cases hs : c1.session? sid with
  | none => rw [hs] at hs0; simp at hs0
  | some s =>
    rw [hs] at hs0
    simp only [Option.map_some, Option.some.injEq] at hs0
    subst hs0
    obtain ⟨_, c5, h9, h10⟩ := M.bind_ok.1 h8
    obtain ⟨s1, hs1, hm0, hm1⟩ := finishMutAuth_ok h9
    rw [g1] at hs1; cases hs1
    -- transcript after the mutual authentication part
    have hmid : c5.session? sid = some (fed x d ([v, k, m.attr, m.reqSlot] ++ m.signature) { s with l1l2 := none }) ∧ c5.cc = c4.cc ∧
        (s.mutAuth = 0 → m.attr = 0 ∧ m.signature = []) ∧
        (s.mutAuth ≠ 0 → m.attr = 1 ∧ c1.cc.SigOk m.signature ∧ finishSigOk e c4 (fed x d [v, k, m.attr, m.reqSlot] { s with l1l2 := none }) m.signature = .ok ()) := by
      have : m.attr.toNat ≤ 1 := by simpa [UInt8.le_iff_toNat_le] using hattr
      have h01 : m.attr = 0 ∨ m.attr = 1 := by
        rcases Nat.le_one_iff_eq_zero_or_eq_one.1 this with h | h
        · left; exact UInt8.toNat_inj.1 h
        · right; exact UInt8.toNat_inj.1 h
      by_cases hma : s.mutAuth = 0
      · obtain ⟨q1, rfl⟩ := hm0 hma
        have hsig := hn1 q1
        refine ⟨by rw [g1, hsig]; simp, rfl, fun _ => ⟨?_, hsig⟩, fun h => absurd hma h⟩
        rcases h01 with h | h
        · exact h
        · rw [h] at q1; exact absurd q1 (by decide)
      · obtain ⟨q1, q0, x1, d1, hx1, hd1, q2, q3⟩ := hm1 hma
        cases hx1
        obtain rfl := hd1 (.inr rfl)
        refine ⟨?_, q3, fun h => absurd h hma, fun _ => ⟨?_, hn2 q1, q0⟩⟩
        · rw [q2]
          simp [fed]
        · rcases h01 with h | h
          · rw [h] at q1; exact absurd q1 (by decide)
          · exact h
    obtain ⟨hmid, hcc5, hma, hma'⟩ := hmid
    simp only [M.bind_apply, M.get_apply] at h10
    cases hz : c5.cc.hashSize? with
    | none => simp [hz] at h10
    | some n =>
      simp only [hz, M.unwrap_some, hmid] at h10
      split at h10
      · simp at h10
      · rename_i hpsk
        have hpsk : s.usePsk = false := by simpa [fed] using hpsk
        obtain ⟨_, c6, h11, h12⟩ := M.bind_ok.1 h10
        obtain ⟨s2, x2, th, d2, hs2, hx2, hth, hver, hd2, k1, k2⟩ := checkHmac_ok h11
        rw [hmid] at hs2; cases hs2
        cases hx2
        obtain rfl := hd2 (.inr (.inr rfl))
        obtain ⟨rsp, c7, h13, h14⟩ := M.bind_ok.1 h12
        obtain ⟨rmac, hb, hrm, k3, k4⟩ := finishAnswer_ok k1 rfl rfl h13
        obtain ⟨_, c8, h15, h16⟩ := M.bind_ok.1 h14
        cases h16
        obtain ⟨s3, x3, th2, s', hs3, hx3, hth2, hgen, k5, k6⟩ := deriveData_ok h15
        rw [k3] at hs3; cases hs3
        cases hx3
        have hcc6 : c6.cc = c1.cc := k2.trans (hcc5.trans (g2.trans hcc0))
        have hn6 : c6.neg = c1.neg := cc_neg hcc6
        have hn7 : c7.neg = c1.neg := (cc_neg k4).trans hn6
        have hb1 : b = finishRspBytes c1 rmac := by rw [hb]; unfold finishRspBytes; rw [hn6, hcc6]
        refine ⟨v, k, m.attr, m.reqSlot, m.signature, m.verify, r'.rest, s, x, d, th, rmac, th2, s', ?_, hv, hdig, rfl, hx0, hpsk, ?_, ?_, hver, hb1, ?_, ?_, ?_, k5, k6.trans (k4.trans hcc6)⟩
        · rw [ht]; simp
        · refine ⟨fun h0 => ⟨(hma h0).1, (hma h0).2, hd (.inl h0)⟩, fun h0 => ?_⟩
          obtain ⟨w1, w2, w3⟩ := hma' h0
          obtain ⟨chain, h, w4, i, hsz, w5, w6, w7, w8, w9⟩ := finishSigOk_ok rfl w3
          have hp4 : c4.peer = c1.peer := by
            rw [g4]
            exact resetBuffers_peer _ _ _
          have hr4 : c4.rt.peerSlot = c1.rt.peerSlot := by
            rw [g5]
            exact resetBuffers_peerSlot _ _ _
          have hn4 : c4.neg = c1.neg := (cc_neg g2).trans (cc_neg hcc0)
          rw [hr4] at w5
          rw [hp4] at w6
          rw [hn4] at w7 w9
          refine ⟨w1, w2, chain, h, fun hf => hd (.inr (.inr hf)), fun hf => ?_, w4, i, hsz, w5, w6, w7, w8, w9⟩
          have hdg := g3 hf
          unfold Ctx.mutDigest at hdg
          rw [if_pos ⟨hpsk, h0⟩] at hdg
          obtain ⟨i', u1, u2⟩ := Res.bind_ok.1 hdg
          have u1 := Res.unwrap_ok.1 u1
          obtain ⟨ch', u3, u4⟩ := Res.bind_ok.1 u2
          have u3 := Res.ofOption_ok.1 u3
          have u4 := Res.ofOption_ok.1 u4
          simp only [Bool.false_eq_true, if_false, resetBuffers_peerSlot, resetBuffers_peer] at u1 u3
          have hii : i' = i := by
            unfold Ctx.slot? at u1
            split at u1
            · cases u1; exact Fin.ext w5.symm
            · cases u1
          rw [hii, w6] at u3
          cases u3
          rw [cc_neg hcc0] at u4
          exact u4
        · simpa using hth
        · intro hc
          obtain ⟨th', q1, q2⟩ := hrm (by rw [hcc6]; exact hc)
          refine ⟨th', ?_, q2⟩
          rw [hn6] at q1
          simpa using q1
        · simpa using hth2
        · rw [hn7] at hgen
          simpa [fed] using hgen

theorem rdPskFinish_wire {c : Cc} {t mac : Bytes} {r' : Reader} (h : rdPskFinish c ⟨t, 2⟩ = .ok mac r') :
    ∃ a b, t = [a, b] ++ mac ++ r'.rest ∧ r'.used = 4 + mac.length ∧ c.DigestOk mac := by
  unfold rdPskFinish at h
  obtain ⟨a, r1, h1, h2⟩ := M.bind_ok.1 h
  obtain ⟨b, r2, h3, h4⟩ := M.bind_ok.1 h2
  rw [rdU8_ok] at h1 h3
  have h5 := rdDigest_ok.1 h4
  obtain ⟨hd, h5⟩ := h5
  obtain ⟨k1, k2⟩ := (h1.trans h3).trans h5
  exact ⟨a, b, by simpa using k1, by simp at k2; omega, hd⟩

/-- The same for PSK_FINISH. -/
theorem pskFinishRsp_ok {sid : UInt32} {bytes b : Bytes} {c c' : Ctx} (h : pskFinishRsp e sid bytes c = .ok b c') :
    ∃ v k p q mac rest s x th th2 s',
      bytes = [v, k, p, q] ++ mac ++ rest ∧ SpdmVersion.ofCode v = c.neg.version ∧ c.cc.DigestOk mac ∧
      c.session? sid = some s ∧ s.th = some x ∧ s.usePsk = true ∧
      e.crypto.hash x.algo (x.data ++ [v, k, p, q]) = some th ∧ e.crypto.hmacVerify s.hash s.hs.reqFinished th mac = true ∧
      b = [c.neg.version.get, 0x67, 0, 0] ∧
      e.crypto.hash x.algo (x.data ++ [v, k, p, q] ++ mac ++ b) = some th2 ∧
      Session.genData e.crypto c.neg.version th2
        { s with l1l2 := none, fInit := true, th := some ⟨x.algo, x.data ++ [v, k, p, q] ++ mac ++ b⟩ } = .ok () s' ∧
      c'.session? sid = some s' ∧ c'.cc = c.cc := by
  unfold pskFinishRsp at h
  obtain ⟨r, c1, h1, h2⟩ := M.bind_ok.1 h
  obtain ⟨rfl, v, k, t, rfl, hv, rfl⟩ := finishStart_ok h1
  obtain ⟨_, c2, h3, h4⟩ := M.bind_ok.1 h2
  simp only [M.modify_apply] at h3
  cases h3
  obtain ⟨⟨mac, req⟩, c3, h5, h6⟩ := M.bind_ok.1 h4
  obtain ⟨rfl, r', hr, hreq⟩ := readMsg_ok h5
  have hcc0 := resetBuffers_cc .reqPskFinish c1 (some sid)
  rw [hcc0] at hr
  obtain ⟨p, q, ht, hused, hdig⟩ := rdPskFinish_wire hr
  simp only [M.bind_apply, M.get_apply] at h6
  have hz : (Ctx.resetBuffers .reqPskFinish (some sid) c1).cc.hashSize? = some mac.length := by rw [hcc0]; exact hdig
  simp only [hz, M.unwrap_some] at h6
  obtain ⟨body, c4, h7, h8⟩ := M.bind_ok.1 h6
  have h7' : c4 = Ctx.resetBuffers .reqPskFinish (some sid) c1 ∧ dropTail mac.length req = .ok body := by
    cases hd : dropTail mac.length req with
    | ok r => rw [hd] at h7; cases h7; exact ⟨rfl, rfl⟩
    | err st => rw [hd] at h7; cases h7
    | panic => rw [hd] at h7; cases h7
  obtain ⟨rfl, hb⟩ := h7'
  have hbody : body = [v, k, p, q] := by
    have hreq' : req = [v, k, p, q] ++ mac := by
      rw [hreq, ht, hused]
      have : v :: k :: ([p, q] ++ mac ++ r'.rest) = ([v, k, p, q] ++ mac) ++ r'.rest := by simp
      rw [this, List.take_append_of_le_length (by simp; omega), List.take_of_length_le (by simp; omega)]
    have := (dropTail_ok hb).2
    rw [this, hreq']
    exact take_front mac.length [v, k, p, q] mac rfl
  subst hbody
  simp only [resetBuffers_session .reqPskFinish c1 sid (by decide)] at h8
  cases hs : c1.session? sid with
  | none => simp [hs] at h8
  | some s =>
    simp only [hs, Option.map_some, M.unwrap_some] at h8
    split at h8
    · simp at h8
    · rename_i hpsk
      have hpsk : s.usePsk = true := by simpa using hpsk
      obtain ⟨_, c5, h9, h10⟩ := M.bind_ok.1 h8
      obtain ⟨s0, x, d, hs0, hx0, hd, g1, g2⟩ := addF_ok h9
      rw [resetBuffers_session .reqPskFinish c1 sid (by decide), hs] at hs0
      simp only [Option.map_some, Option.some.injEq] at hs0
      subst hs0
      obtain rfl := hd (.inr (.inl hpsk))
      obtain ⟨_, c6, h11, h12⟩ := M.bind_ok.1 h10
      obtain ⟨s2, x2, th, d2, hs2, hx2, hth, hver, hd2, k1, k2⟩ := checkHmac_ok h11
      rw [g1] at hs2; cases hs2
      cases hx2
      obtain rfl := hd2 (.inr (.inr rfl))
      obtain ⟨rsp, c7, h13, h14⟩ := M.bind_ok.1 h12
      unfold encodeMsgRsp at h13
      rw [mapErr_ok] at h13
      obtain ⟨rfl, hrsp⟩ := encodeRsp_ok (p := .pskFinishRsp) (w := fun _ => [0, 0]) (fun cc => by
        intro w n w' h; exact Emits.noParams w n w' h) h13
      obtain ⟨_, c8, h15, h16⟩ := M.bind_ok.1 h14
      obtain ⟨s3, x3, d3, hs3, hx3, hd3, k3, k4⟩ := addF_ok h15
      rw [k1] at hs3; cases hs3
      cases hx3
      obtain rfl := hd3 (.inr (.inr rfl))
      obtain ⟨_, c9, h17, h18⟩ := M.bind_ok.1 h16
      cases h18
      obtain ⟨s4, x4, th2, s', hs4, hx4, hth2, hgen, k5, k6⟩ := deriveData_ok h17
      rw [k3] at hs4; cases hs4
      cases hx4
      have hcc7 : c7.cc = c1.cc := k2.trans (g2.trans hcc0)
      have hn7 : c7.neg = c1.neg := cc_neg hcc7
      have hn8 : c8.neg = c1.neg := (cc_neg k4).trans hn7
      have hb1 : b = [c1.neg.version.get, 0x67, 0, 0] := by rw [hrsp, hn7]; rfl
      refine ⟨v, k, p, q, mac, r'.rest, s, x, th, th2, s', by rw [ht]; simp, hv, hdig, rfl, hx0, hpsk, ?_, hver, hb1, ?_, ?_, k5, k6.trans (k4.trans hcc7)⟩
      · simpa using hth
      · simpa using hth2
      · rw [hn8] at hgen
        simpa [fed] using hgen

end Rsp
end Verif
