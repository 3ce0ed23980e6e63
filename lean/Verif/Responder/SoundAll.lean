/-
No packet makes the responder panic: the dispatcher, the record layer and histories of packets.
-/
import Verif.Responder.SoundSess
import Verif.Responder.Ties
import Verif.Props.Conn

namespace Verif
open M Res
namespace Rsp
open Session
variable {e : Env} {lim : Nat}

/-- a session in use has the negotiated algorithms. -/
structure Fit (n : Neg) (s : Session) : Prop where
  alone : s.mutAuth = 0
  hash : s.hash = n.baseHash
  aead : s.aead = n.aead
  hint : s.usePsk = true → s.pskHint.isSome = true

theorem Fit.good {n : Neg} {s : Session} (h : Fit n s) (hz : Sized n) : Good n s :=
  ⟨h.alone, h.hash, by rw [h.hash, h.aead]; exact hz.aead, h.hint⟩

/-- what the integrator provides: callbacks that behave, buffers the transport keeps within, no mutual authentication. -/
structure Platform (e : Env) (lim : Nat) : Prop where
  honest : Honest e
  keys : KeyLaws e.crypto
  room : Roomy e.tr lim
  aead : AeadFits e.crypto
  alone : e.asksMutual = false
  apps : ∀ sid b, ∃ r k, e.app sid b = some r ∧ r[1]? = some k ∧ r.length ≤ 4096

/-- the state between two packets. -/
structure Poised (c : Ctx) : Prop where
  dts : DtsOk c.neg
  sized : Spec.ready c.rt.state = true → Sized c.neg
  table : TableOk 0 c.sessions
  len : c.sessions.length < 0xFFFD
  fits : ∀ s ∈ c.sessions, s.id ≠ 0 → Spec.ready c.rt.state = true ∧ Fit c.neg s

theorem Poised.early {c : Ctx} (h : Poised c) : c.rt.state.code < ConnState.negotiated.code ∨ Sized c.neg := by
  by_cases hc : c.rt.state.code < ConnState.negotiated.code
  · exact .inl hc
  · exact .inr (h.sized ((ready_code _).2 hc))

theorem found_mem {c : Ctx} {sid : UInt32} {s : Session} (h : c.session? sid = some s) : s ∈ c.sessions := List.mem_of_find?_eq_some h

/-- a session whose phase has begun. -/
theorem Poised.session {c : Ctx} (h : Poised c) {sid : UInt32} {s : Session} (hs : c.session? sid = some s) (hst : s.state ≠ .notStarted) : Sized c.neg ∧ Good c.neg s := by
  have hid : s.id ≠ 0 := fun h0 => by
    obtain ⟨slot, rfl⟩ := ((h.table.find (by have := h.len; omega) hs).2).1 h0
    exact hst rfl
  obtain ⟨h1, h2⟩ := h.fits s (found_mem hs) hid
  exact ⟨h.sized h1, h2.good (h.sized h1)⟩

/-! ### the handlers of the session handshakes -/

theorem calm_handleKeyExchange (hp : Platform e lim) {c : Ctx} (hc : Poised c) (bytes : Bytes) : handleKeyExchange e bytes c ≠ .panic := by
  refine Tot.ne (Q := fun _ _ => True) (E := fun _ _ => True) ?_
  unfold handleKeyExchange
  refine Tot.bind (((tot_keyExchangeRsp hp.honest hp.alone hc.table hc.len hc.early bytes).and ((post_keyExchangeRsp (e := e) bytes c).and (fits_keyExchangeRsp (e := e) bytes c))).mono (fun _ _ h => h) fun _ _ _ => trivial) ?_
  rintro b c1 ⟨⟨p, hn⟩, h1, h2⟩
  exact tot_true (sendMessage_calm hp.room h1 (by unfold msgSize at h2; omega) (by unfold DtsOk; rw [hn]; exact hc.dts) fun h => absurd h (by decide))

theorem calm_handlePskExchange (hp : Platform e lim) {c : Ctx} (hc : Poised c) (bytes : Bytes) : handlePskExchange e bytes c ≠ .panic := by
  refine Tot.ne (Q := fun _ _ => True) (E := fun _ _ => True) ?_
  unfold handlePskExchange
  refine Tot.bind (((tot_pskExchangeRsp hp.honest hp.keys hc.table hc.len hc.early bytes).and ((post_pskExchangeRsp (e := e) bytes c).and (fits_pskExchangeRsp (e := e) bytes c))).mono (fun _ _ h => h) fun _ _ _ => trivial) ?_
  rintro b c1 ⟨⟨p, hn⟩, h1, h2⟩
  exact tot_true (sendMessage_calm hp.room h1 (by unfold msgSize at h2; omega) (by unfold DtsOk; rw [hn]; exact hc.dts) fun h => absurd h (by decide))

section
variable (hp : Platform e lim) {c : Ctx} (hd : DtsOk c.neg) (hz : Sized c.neg) {sid : UInt32} {s : Session} (hs : c.session? sid = some s) (hg : Good c.neg s)
include hp hd hz hs hg

theorem calm_handleFinish (hl : c.cc.inClear = true → c.rt.lastSession = some sid) (bytes : Bytes) : handleFinish e sid bytes c ≠ .panic := by
  refine Tot.ne (Q := fun _ _ => True) (E := fun _ _ => True) ?_
  unfold handleFinish
  refine tot_get_bind ?_
  refine Tot.bind (((snd_finishRsp hs hp.honest hz hg bytes c (Same.refl c)).and ((rel_finishRsp (e := e) (sid := sid) bytes c).and ((post_finishRsp (e := e) sid bytes c).and
    (fits_finishRsp (e := e) sid bytes c)))).mono (fun _ _ h => h) fun _ _ _ => trivial) ?_
  rintro b c1 ⟨⟨h1, _⟩, h2, h3, h4⟩
  have h4 : b.length ≤ 4096 := h4
  refine tot_ite (fun hcl => tot_true (sendMessage_calm hp.room h3 (by omega) (h1.toLoose.dtsOk hd) fun _ => ?_)) fun _ =>
    tot_true (sendSecured_calm hp.room hp.aead ((show Ready c sid from ⟨s, hs, hg.armed⟩).loose h1.toLoose) h3.get h4 (h1.toLoose.dtsOk hd) false)
  obtain ⟨t, ht, _⟩ := h1.session hs
  exact ⟨sid, t, by rw [h2.last, hl hcl], ht⟩

theorem calm_handlePskFinish (bytes : Bytes) : handlePskFinish e sid bytes c ≠ .panic := by
  refine Tot.ne (Q := fun _ _ => True) (E := fun _ _ => True) ?_
  unfold handlePskFinish
  refine Tot.bind (((snd_pskFinishRsp hs hp.honest hz hg bytes c (Same.refl c)).and ((post_pskFinishRsp (e := e) sid bytes c).and
    (fits_pskFinishRsp (e := e) sid bytes c))).mono (fun _ _ h => h) fun _ _ _ => trivial) ?_
  rintro b c1 ⟨⟨h1, _⟩, h3, h4⟩
  have h4 : b.length ≤ 4096 := h4
  exact tot_true (sendSecured_calm hp.room hp.aead ((show Ready c sid from ⟨s, hs, hg.armed⟩).loose h1.toLoose) h3.get h4 (h1.toLoose.dtsOk hd) false)

/-! ### inside a session -/

theorem dispatchHandshake_calm (bytes : Bytes) : dispatchHandshake e sid bytes c ≠ .panic := by
  have hr : ∀ i, some sid = some i → Ready c i := fun i hi => by cases hi; exact ⟨s, hs, hg.armed⟩
  refine Tot.ne (Q := fun _ _ => True) (E := fun _ _ => True) ?_
  unfold dispatchHandshake
  refine tot_get_bind (tot_ite (fun _ => tot_fail trivial) fun hcl => tot_lift_bind (safe_read Header.read_good _) (fun p _ => ?_) fun _ => trivial)
  obtain ⟨h, r⟩ := p
  dsimp only
  split
  · exact tot_true (calm_handleFinish hp hd hz hs hg (fun h => absurd h hcl) bytes)
  · exact tot_true (calm_handlePskFinish hp hd hz hs hg bytes)
  · exact tot_true (calm_handleVendor hp.room hp.aead hd hr bytes)
  all_goals first
    | exact tot_true (calm_handleError hp.room hp.aead hd hr _ bytes)
    | exact tot_fail trivial

theorem dispatchApplication_calm (bytes : Bytes) : dispatchApplication e sid bytes c ≠ .panic := by
  have hr : ∀ i, some sid = some i → Ready c i := fun i hi => by cases hi; exact ⟨s, hs, hg.armed⟩
  refine Tot.ne (Q := fun _ _ => True) (E := fun _ _ => True) ?_
  unfold dispatchApplication
  refine tot_lift_bind (safe_read Header.read_good _) (fun p _ => ?_) fun _ => trivial
  obtain ⟨h, r⟩ := p
  dsimp only
  split
  · exact tot_true (calm_handleDigest hp.honest hp.room hp.aead hd hr (.inr hz) bytes)
  · exact tot_true (calm_handleCertificate hp.room hp.aead hd hr bytes)
  · exact tot_true (calm_handleMeasurement hp.honest hp.room hp.aead hd hr (.inr hz) bytes)
  · exact tot_true (calm_handleHeartbeat hp.room hp.aead hd (hr sid rfl) bytes)
  · exact tot_true (calm_handleKeyUpdate hp.room hp.aead hd (hr sid rfl) bytes)
  · exact tot_true (calm_handleEndSession hp.room hp.aead hd (hr sid rfl) bytes)
  · exact tot_true (calm_handleVendor hp.room hp.aead hd hr bytes)
  all_goals first
    | exact tot_true (calm_handleError hp.room hp.aead hd hr _ bytes)
    | exact tot_fail trivial

theorem dispatchSecured_calm (bytes : Bytes) : dispatchSecured e sid bytes c ≠ .panic := by
  refine Tot.ne (Q := fun _ _ => True) (E := fun _ _ => True) ?_
  unfold dispatchSecured
  refine tot_get_bind ?_
  rw [hs]
  dsimp only
  split
  · exact tot_true (dispatchHandshake_calm hp hd hz hs hg bytes)
  · exact tot_true (dispatchApplication_calm hp hd hz hs hg bytes)
  · exact tot_fail trivial

omit hz in
theorem dispatchApp_calm (bytes : Bytes) : dispatchApp e sid bytes c ≠ .panic := by
  refine Tot.ne (Q := fun _ _ => True) (E := fun _ _ => True) ?_
  unfold dispatchApp
  obtain ⟨r, k, h1, h2, h3⟩ := hp.apps sid bytes
  exact tot_unwrap_bind h1 (tot_true (sendSecured_calm hp.room hp.aead ⟨s, hs, hg.armed⟩ h2 h3 hd true))
end

/-! ### outside a session -/

theorem plainFinish_calm (hp : Platform e lim) {c : Ctx} (hc : Poised c) (bytes : Bytes) : plainFinish e bytes c ≠ .panic := by
  have he : ∀ code, handleError e code none bytes c ≠ .panic := fun code => calm_handleError hp.room hp.aead hc.dts (fun _ h => by cases h) code bytes
  refine Tot.ne (Q := fun _ _ => True) (E := fun _ _ => True) ?_
  unfold plainFinish
  refine tot_get_bind ?_
  by_cases hcl : c.cc.inClear = true
  · rw [if_pos hcl]
    cases hl : c.rt.lastSession with
    | none => exact tot_true (he _)
    | some sid =>
      dsimp only
      cases hs : c.session? sid with
      | none => exact tot_true (he _)
      | some s =>
        dsimp only
        refine tot_ite (fun hst => ?_) fun _ => tot_true (he _)
        obtain ⟨hz, hg⟩ := hc.session hs (by rw [hst]; decide)
        exact tot_true (calm_handleFinish hp hc.dts hz hs hg (fun _ => hl) bytes)
  · rw [if_neg hcl]
    exact tot_true (he _)

theorem dispatch_calm (hp : Platform e lim) {c : Ctx} (hc : Poised c) (hch : Chained e c) (bytes : Bytes) : dispatch e bytes c ≠ .panic := by
  match bytes with
  | [] => rw [dispatch_short (by decide)]; exact fun h => by cases h
  | [a] => rw [dispatch_short (by simp)]; exact fun h => by cases h
  | v :: k :: t =>
    rw [dispatch_cons]
    have hn : ∀ i, (none : Option UInt32) = some i → Ready c i := fun _ h => by cases h
    have he : ∀ code, handleError e code none (v :: k :: t) c ≠ .panic := fun code => calm_handleError hp.room hp.aead hc.dts hn code _
    refine Tot.ne (Q := fun _ _ => True) (E := fun _ _ => True) ?_
    unfold dispatchCode
    split
    · rename_i hk
      obtain rfl := code_of hk
      exact tot_true (calm_handleVersion hp.room hc.dts v t)
    · exact tot_true (calm_handleCapability hp.room hc.dts _)
    · exact tot_true (calm_handleAlgorithm hp.room hch hc.dts _)
    · exact tot_true (calm_handleDigest hp.honest hp.room hp.aead hc.dts hn hc.early _)
    · exact tot_true (calm_handleCertificate hp.room hp.aead hc.dts hn _)
    · exact tot_true (calm_handleChallenge hp.honest hp.room hp.aead hc.dts hc.early _)
    · exact tot_true (calm_handleMeasurement hp.honest hp.room hp.aead hc.dts hn hc.early _)
    · exact tot_true (calm_handleKeyExchange hp hc _)
    · exact tot_true (calm_handlePskExchange hp hc _)
    · exact tot_true (calm_handleVendor hp.room hp.aead hc.dts hn _)
    · exact tot_true (plainFinish_calm hp hc _)
    all_goals first
      | exact tot_true (he _)
      | exact tot_fail trivial

/-! ### a packet -/

theorem openSecured_tot (hp : Platform e lim) {c : Ctx} (hc : Poised c) {pkt : Bytes} (hl : pkt.length ≤ 4160) (hq : pkt.length ≤ lim + 24) :
    (openSecured e pkt).Tot c (fun r c' => Same c c' ∧ ∃ s, c'.session? r.1 = some s ∧ Sized c'.neg ∧ Good c'.neg s) (fun _ _ => True) := by
  unfold openSecured
  refine Tot.bind (P := fun _ t => t = c) (Tot.mapErr ((safe_read' rdU32_ne_panic _).lift (fun _ _ => rfl) fun _ => trivial)) ?_
  rintro ⟨sid, _⟩ c' hc'
  rw [hc']
  dsimp only
  cases hs : c.session? sid with
  | none =>
    refine Tot.bind (P := fun _ _ => False) ?_ fun _ _ h => h.elim
    refine Tot.mapErr ?_
    unfold Ctx.onSession
    refine tot_get_bind ?_
    rw [hs]
    exact tot_fail trivial
  | some s =>
    by_cases hst : s.state = .notStarted
    · refine Tot.bind (P := fun _ _ => False) ?_ fun _ _ h => h.elim
      refine Tot.mapErr ?_
      unfold Ctx.onSession
      refine tot_get_bind ?_
      rw [hs]
      dsimp only
      have : decodeSecured e.crypto pkt 4160 true s = .err .invalidStateLocal s := by
        unfold decodeSecured dispatchDir
        rw [M.bind_apply, M.get_apply]
        dsimp only
        rw [hst]
        rfl
      rw [this]
      exact trivial
    · obtain ⟨hz, hg⟩ := hc.session hs hst
      refine Tot.bind (Tot.mapErr ((onSession_tot (x := decodeSecured e.crypto pkt 4160 true) (P := fun (b : Bytes) => b.length + 24 ≤ pkt.length ∧ b.length ≤ 4160) hs
        (keeps_dir (x := fun s p => decodeMsg e.crypto s pkt 4160 p) (s0 := s) (fun s' p hcore _ => safe_decodeMsg hp.aead (tag_some (hg.armed.core hcore)) hl) true s (Core.refl s))).mono
          (fun _ _ h => h) fun _ _ _ => trivial)) ?_
      rintro app c1 ⟨h1, h2, h3⟩
      refine Tot.bind (P := fun _ t => t = c1) (Tot.mapErr ((hp.room.decapApp app (by omega) h3).lift (fun _ _ => rfl) fun _ => trivial)) ?_
      rintro ⟨msg, isApp⟩ c' hc'
      rw [hc']
      obtain ⟨t, ht, hcore⟩ := h1.session hs
      refine tot_pure ⟨h1, t, ht, h1.toLoose.sized hz, ?_⟩
      have := hg.core hcore
      exact ⟨this.alone, by rw [this.hash, h1.hash], this.armed⟩

theorem isOk_calm {x : M Status Ctx Unit} {c : Ctx} (h : x c ≠ .panic) : (isOk x : M Unit Ctx Bool) c ≠ .panic := by
  unfold isOk
  cases hx : x c with
  | panic => exact absurd hx h
  | ok a t => exact fun h => by cases h
  | err a t => exact fun h => by cases h

theorem intoBuf2_le {x : M Status Bytes (Nat × Bool)} {cap : Nat} {r : Bytes × Bool} (h : Ctx.intoBuf2 x cap = .ok r) : r.1.length ≤ cap := by
  unfold Ctx.intoBuf2 at h
  cases hx : x (List.replicate cap 0) with
  | panic => rw [hx] at h; cases h
  | err a t => rw [hx] at h; cases h
  | ok p buf =>
    obtain ⟨n, b⟩ := p
    rw [hx] at h
    dsimp only at h
    split at h
    · cases h
      simp only [List.length_take]
      omega
    · cases h

/-- a packet in a state between packets does not make the responder panic. -/
theorem processMessage_calm (hp : Platform e lim) {c : Ctx} (hc : Poised c) (hch : Chained e c) {rx : Bytes} (hl : rx.length ≤ 4160)
    (hq : ∀ p, received e rx = some (p, true) → p.length ≤ lim + 24) : processMessage e rx c ≠ .panic := by
  refine Tot.ne (Q := fun _ _ => True) (E := fun _ _ => True) ?_
  unfold processMessage
  refine Tot.bind (P := fun r t => t = c ∧ r.1.length ≤ 4160 ∧ received e rx = some r) (Tot.mapErr ((hp.room.decap rx hl).lift (fun r hr => ⟨rfl, intoBuf2_le hr, by unfold received; rw [hr]⟩) fun _ => trivial)) ?_
  rintro ⟨pkt, sec⟩ c' ⟨hc', hpl, hrec⟩
  rw [hc']
  dsimp only at hpl ⊢
  refine tot_ite (fun hsec => ?_) fun _ => tot_true (isOk_calm (dispatch_calm hp hc hch pkt))
  refine Tot.bind (openSecured_tot hp hc hpl (hq pkt (by rw [hrec, hsec]))) ?_
  rintro ⟨sid, msg, isApp⟩ c1 ⟨h1, s, hs, hz, hg⟩
  have hd := h1.toLoose.dtsOk hc.dts
  exact tot_ite (fun _ => tot_true (isOk_calm (dispatchApp_calm hp hd hs hg msg))) fun _ => tot_true (isOk_calm (dispatchSecured_calm hp hd hz hs hg msg))

end Rsp
end Verif
