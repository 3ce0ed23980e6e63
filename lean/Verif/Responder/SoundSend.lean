/-
Sending, in the clear and in a session, does not panic.
-/
import Verif.Responder.Sound
import Verif.Responder.Fits

namespace Verif
open M Res

namespace Session

/-- what the AEAD provider guarantees: sealing keeps sizes, opening does not lengthen, and no record carries more than `lim` bytes. -/
structure AeadFits (c : Crypto) : Prop where
  sealed : ∀ a k n aad pt ct tag, c.seal a k n aad pt = some (ct, tag) → ct.length = pt.length ∧ (∀ t, Aead.tagSize? a = some t → tag.length = t)
  opened : ∀ a k n aad ct tag pt, c.open a k n aad ct tag = some pt → pt.length ≤ ct.length

theorem tag_le {a : Aead} {t : Nat} (h : Aead.tagSize? a = some t) : t = 16 := by
  unfold Aead.tagSize? at h
  by_cases h1 : a = Aead.aes128
  · rw [if_pos h1] at h; exact (Option.some.inj h).symm
  · rw [if_neg h1] at h
    by_cases h2 : a = Aead.aes256
    · rw [if_pos h2] at h; exact (Option.some.inj h).symm
    · rw [if_neg h2] at h
      by_cases h3 : a = Aead.chacha
      · rw [if_pos h3] at h; exact (Option.some.inj h).symm
      · rw [if_neg h3] at h; cases h

theorem safe_read' {α : Type} {r : Status} {x : Rd α} (h : ∀ rd, x rd ≠ .panic) (rd : Reader) : Safe (Res.read r x rd) := by
  unfold Res.read
  cases hx : x rd with
  | ok a t => exact safe_ok _
  | err a t => exact safe_err _
  | panic => exact absurd hx (h rd)

theorem safe_encodeMsg {c : Crypto} (hc : AeadFits c) {s : Session} {app : Bytes} {p : SecretParam} (ha : (Aead.tagSize? s.aead).isSome = true) (hl : app.length ≤ 4097) :
    Safe (encodeMsg c s app 4160 p) ∧ ∀ b, encodeMsg c s app 4160 p = .ok b → b.length ≤ 4160 := by
  unfold encodeMsg
  obtain ⟨t, ht⟩ := Option.isSome_iff_exists.1 ha
  have ht16 := tag_le ht
  rw [ht]
  simp only [Res.unwrap, Res.ok_bind]
  split
  · exact ⟨safe_err _, fun b h => by cases h⟩
  have happ : Appends (Enc.seq [encU32 s.id, encBytes (seqBytes p.seq s.seqCount.toNat), encU16 (UInt16.ofNat (app.length + 2) + UInt16.ofNat t)]) :=
    Appends.seq_cons (Appends.u32 _) (Appends.seq_cons (Appends.bytes _) (Appends.seq_cons (Appends.u16 _) Appends.seq_nil))
  cases hw : Enc.seq [encU32 s.id, encBytes (seqBytes p.seq s.seqCount.toNat), encU16 (UInt16.ofNat (app.length + 2) + UInt16.ofNat t)] (Writer.init 14) with
  | panic =>
    exfalso
    obtain ⟨bs, hwr⟩ : ∃ bs, Writes (Enc.seq [encU32 s.id, encBytes (seqBytes p.seq s.seqCount.toNat), encU16 (UInt16.ofNat (app.length + 2) + UInt16.ofNat t)]) bs :=
      ⟨_, Writes.seq_cons (Writes.u32 _) (Writes.seq_cons (Writes.bytes _) (Writes.seq_cons (Writes.u16 _) Writes.seq_nil))⟩
    have := hwr (Writer.init 14) (by simp [Writer.WF, Writer.init])
    rw [hw] at this
    by_cases hf : (Writer.init 14).out.length + bs.length ≤ (Writer.init 14).cap
    · cases (this.1 hf)
    · obtain ⟨p, _, _, h⟩ := this.2 (Nat.lt_of_not_le hf); cases h
  | err r w => exact ⟨safe_err _, fun b h => by cases h⟩
  | ok n w =>
    have hlen : w.out.length ≤ 14 := by
      have := (happ (Writer.init 14)).ok hw
      have h1 := this.1.2 (by simp [Writer.init])
      rw [this.1.1] at h1
      exact h1
    dsimp only
    have hb : ¬ app.length + 2 > bufSize := by unfold bufSize; omega
    have hp : (putU16 (UInt16.ofNat app.length) ++ app).length = app.length + 2 := by simp; omega
    have h2 : ¬ w.out.length + (putU16 (UInt16.ofNat app.length) ++ app).length > 4160 := by rw [hp]; omega
    rw [if_neg hb, if_neg h2]
    cases hs : c.seal s.aead p.key (nonce p.salt p.seq) w.out (putU16 (UInt16.ofNat app.length) ++ app) with
    | none => exact ⟨safe_err _, fun b h => by cases h⟩
    | some q =>
      obtain ⟨ct, tag⟩ := q
      obtain ⟨g1, g2⟩ := hc.sealed _ _ _ _ _ _ _ hs
      have g2 := g2 t ht
      simp only [Res.ofOption, Res.ok_bind]
      have h3 : ¬ (ct.length ≠ (putU16 (UInt16.ofNat app.length) ++ app).length ∨ tag.length ≠ t) := fun h => by
        rcases h with h | h
        · exact h g1
        · exact h g2
      have h4 : ¬ w.out.length + (putU16 (UInt16.ofNat app.length) ++ app).length + t > 4160 := by rw [hp]; omega
      rw [if_neg h3, if_neg h4]
      refine ⟨safe_ok _, fun b h => ?_⟩
      cases h
      simp only [List.length_append] at *
      omega

theorem safe_decodeMsg {c : Crypto} (hc : AeadFits c) {s : Session} {sec : Bytes} {p : SecretParam} (ha : (Aead.tagSize? s.aead).isSome = true) (hl : sec.length ≤ 4160) :
    Safe (decodeMsg c s sec 4160 p) ∧ ∀ b, decodeMsg c s sec 4160 p = .ok b → b.length + 24 ≤ sec.length ∧ b.length ≤ 4160 := by
  obtain ⟨t, ht⟩ := Option.isSome_iff_exists.1 ha
  constructor
  · unfold decodeMsg
    rw [ht]
    refine (safe_ok _).bind fun t' _ => safe_ite (fun _ => safe_err _) fun _ => (safe_read' rdU32_ne_panic _).bind fun q _ => safe_ite (fun _ => safe_err _) fun _ =>
      (safe_read' checkSeq_ne_panic _).bind fun q2 _ => safe_ite (fun _ => safe_err _) fun _ => (safe_read' rdU16_ne_panic _).bind fun q3 _ => ?_
    refine safe_ite (fun _ => safe_err _) fun h1 => safe_ite (fun _ => safe_err _) fun h2 => safe_ite (fun h3 => ?_) fun h3 => (safe_ofOption _ _).bind fun pt hpt => ?_
    · unfold bufSize at h3; omega
    · refine (safe_read' rdU16_ne_panic _).bind fun q4 _ => safe_ite (fun _ => safe_err _) fun h4 => safe_ite (fun h5 => ?_) fun _ => safe_ok _
      have := hc.opened _ _ _ _ _ _ _ (Res.ofOption_ok.1 hpt)
      have h6 : (List.take (q3.1.toNat - t') (List.drop q3.2.used sec)).length ≤ 4160 := by simp; omega
      omega
  · intro b h
    obtain ⟨_, _, ct, tag, rest, pt, len, rfl, ht, _, _, ho, al, pad, rfl, _, hcap⟩ := decodeMsg_ok.1 h
    have := hc.opened _ _ _ _ _ _ _ ho
    simp only [List.length_append, header, show ∀ x, (putU32 x).length = 4 from fun _ => rfl, show ∀ x, (putU16 x).length = 2 from fun _ => rfl, List.length_map, List.length_range] at *
    omega

/-- both directions of the record layer. -/
theorem keeps_dir {x : Session → SecretParam → Res Bytes} {P : Bytes → Prop} {s0 : Session} (hx : ∀ s p, Core s0 s → s.state ≠ .notStarted → Safe (x s p) ∧ ∀ b, x s p = .ok b → P b) (b : Bool) :
    ∀ s, Core s0 s → (dispatchDir x b).Tot s (fun a s' => Core s0 s' ∧ P a) (fun _ s' => Core s0 s') := by
  intro s hs
  unfold dispatchDir
  refine tot_get_bind ?_
  have key : ∀ (get : Session → SecretParam) (upd : (SecretParam → SecretParam) → Session → Session), (∀ f s, Core s (upd f s)) → s.state ≠ .notStarted →
      (withDir x get upd).Tot s (fun a s' => Core s0 s' ∧ P a) (fun _ s' => Core s0 s') := fun get upd hu hst => by
    obtain ⟨h1, h2⟩ := hx s (get s) hs hst
    cases hr : x s (get s) with
    | ok a => exact Tot.ok (by unfold withDir; simp only [hr]; rfl) ⟨hs.trans (hu _ _), h2 a hr⟩
    | err r => exact Tot.err (by unfold withDir; simp only [hr]; rfl) (hs.trans (hu _ _))
    | panic => exact absurd hr h1
  cases hst : s.state with
  | notStarted => exact tot_fail hs
  | handshaking => exact tot_ite (fun _ => key _ _ (fun _ _ => ⟨rfl, rfl, rfl, rfl, rfl, rfl⟩) (by rw [hst]; decide)) fun _ => key _ _ (fun _ _ => ⟨rfl, rfl, rfl, rfl, rfl, rfl⟩) (by rw [hst]; decide)
  | established => exact tot_ite (fun _ => key _ _ (fun _ _ => ⟨rfl, rfl, rfl, rfl, rfl, rfl⟩) (by rw [hst]; decide)) fun _ => key _ _ (fun _ _ => ⟨rfl, rfl, rfl, rfl, rfl, rfl⟩) (by rw [hst]; decide)

end Session

namespace Rsp
open Session
variable {e : Env} {lim : Nat}

/-! ### an operation on a session -/

theorem onSession_tot {α : Type} {c : Ctx} {sid : UInt32} {s0 : Session} (h0 : c.session? sid = some s0) {missing : M Status Ctx α} {x : M Status Session α} {P : α → Prop}
    (hx : x.Tot s0 (fun a s => Core s0 s ∧ P a) (fun _ s => Core s0 s)) : (Ctx.onSession sid missing x).Tot c (fun a c' => Same c c' ∧ P a) (fun _ c' => Same c c') := by
  unfold Ctx.onSession
  refine tot_get_bind ?_
  rw [h0]
  dsimp only
  have hu : ∀ t, Core s0 t → Same c (c.updSession sid fun _ => t) := fun t ht => (Same.refl c).upd sid fun s' hs' => by
    rw [h0] at hs'; cases hs'; exact ht
  cases hr : x s0 with
  | ok a t => exact ⟨hu t (hx.of_ok hr).1, (hx.of_ok hr).2⟩
  | err r t => exact hu t (hx.of_err hr)
  | panic => exact absurd hr hx.ne

/-- a session that is there, armed. -/
def Ready (c : Ctx) (sid : UInt32) : Prop := ∃ s, c.session? sid = some s ∧ Armed s

theorem Ready.loose {c c' : Ctx} {sid : UInt32} (h : Ready c sid) (hl : Loose c c') : Ready c' sid := by
  obtain ⟨s, hs, ha⟩ := h
  obtain ⟨t, ht, hc⟩ := hl.session hs
  exact ⟨t, ht, ha.core hc⟩

theorem tag_some {s : Session} (h : Armed s) : (Aead.tagSize? s.aead).isSome = true := by
  have := h.algs.key
  unfold Aead.keySize? at this
  unfold Aead.tagSize?
  split at this
  · rw [if_pos (by assumption)]; rfl
  · rw [if_neg (by assumption)]
    split at this
    · rw [if_pos (by assumption)]; rfl
    · rw [if_neg (by assumption)]
      split at this
      · rw [if_pos (by assumption)]; rfl
      · cases this

theorem encodeSecured_tot (hr : Roomy e.tr lim) (hc : AeadFits e.crypto) {c : Ctx} {sid : UInt32} (hs : Ready c sid) {msg : Bytes} (hl : msg.length ≤ 4096) (isApp : Bool) :
    (Ctx.encodeSecured e sid msg false isApp).Tot c (fun _ c' => Same c c') (fun _ c' => Same c c') := by
  unfold Ctx.encodeSecured
  obtain ⟨h1, h2⟩ := hr.encapApp msg isApp hl
  obtain ⟨s, hs, ha⟩ := hs
  refine Tot.bind (P := fun a c' => c' = c ∧ a.length ≤ 4097) (h1.lift (fun a h => ⟨rfl, h2 a h⟩) fun _ => Same.refl c) ?_
  rintro a _ ⟨rfl, hal⟩
  refine Tot.bind (onSession_tot (x := Session.encodeSecured e.crypto a 4160 false) (P := fun (b : Bytes) => b.length ≤ 4160) hs (keeps_dir (x := fun s p => encodeMsg e.crypto s a 4160 p) (s0 := s) (fun s' p hcore _ => safe_encodeMsg hc (tag_some (ha.core hcore)) hal) false s (Core.refl s))) ?_
  rintro b c1 ⟨hc1, hb⟩
  exact (hr.encap b true hb).lift (fun _ _ => hc1) fun _ => hc1

theorem found_id {c : Ctx} {sid : UInt32} {s : Session} (h : c.session? sid = some s) : s.id = sid := by simpa using List.find?_some h

theorem afterSecured_tot {c : Ctx} {sid : UInt32} (hs : Ready c sid) (op : UInt8) : afterSecured sid op c ≠ .panic := by
  obtain ⟨s, hs, ha⟩ := hs
  have hid := found_id hs
  have key : ∀ (x : M Status Session Unit), x s ≠ .panic → Ctx.onSession sid M.panic x c ≠ .panic := fun x hx => by
    unfold Ctx.onSession
    rw [M.bind_apply, M.get_apply]
    dsimp only
    rw [hs]
    dsimp only
    cases h : x s with
    | ok a t => exact fun h => by cases h
    | err a t => exact fun h => by cases h
    | panic => exact absurd h hx
  unfold afterSecured
  split
  · refine key _ ?_
    unfold Session.teardown
    rw [M.bind_apply, M.get_apply]
    dsimp only
    rw [if_pos hid]
    exact fun h => by cases h
  · split
    · exact key _ fun h => by cases h
    · exact fun h => by cases h

theorem sendSecuredPlain_calm (hr : Roomy e.tr lim) (hc : AeadFits e.crypto) {c : Ctx} {sid : UInt32} (hs : Ready c sid) {b : Bytes} {k : UInt8} (hk : b[1]? = some k) (hl : b.length ≤ 4096) (isApp : Bool) :
    sendSecuredPlain e sid b isApp c ≠ .panic := by
  refine Tot.ne (Q := fun _ _ => True) (E := fun _ _ => True) ?_
  unfold sendSecuredPlain
  refine Tot.bind ((encodeSecured_tot hr hc hs hl isApp).mono (fun _ _ h => h) fun _ _ _ => trivial) fun pkt c1 h1 => ?_
  refine Tot.bind ((tot_devSend pkt c1).mono (fun _ _ h => h) fun _ _ _ => trivial) fun _ c2 h2 => ?_
  refine tot_unwrap_bind hk (tot_true (afterSecured_tot (hs.loose ?_) k))
  subst h2
  exact h1.toLoose.of rfl rfl

theorem sendSecured_calm (hr : Roomy e.tr lim) (hc : AeadFits e.crypto) {c : Ctx} {sid : UInt32} (hs : Ready c sid) {b : Bytes} {k : UInt8} (hk : b[1]? = some k) (hl : b.length ≤ 4096) (hd : DtsOk c.neg) (isApp : Bool) :
    sendSecured e sid b isApp c ≠ .panic := by
  refine Tot.ne (Q := fun _ _ => True) (E := fun _ _ => True) ?_
  unfold sendSecured
  refine tot_get_bind ?_
  refine tot_ite (fun _ => ?_) fun _ => tot_true (sendSecuredPlain_calm hr hc hs hk hl _)
  refine tot_unwrap_bind (writeError_nil _ _ rfl) ?_
  rw [error_fits hd]
  exact tot_ite (fun h => by cases h) fun _ => tot_true (sendSecuredPlain_calm hr hc hs (b := errorBytes c.neg.version .responseTooLarge 0) (k := 0x7F) rfl (by simp [errorBytes]) _)

/-! ### replying -/

theorem reply_tot {k : UInt8} {x : H Bytes} {c : Ctx} {P : Ctx → Prop} (hx : x.Tot c (fun _ c' => P c') (fun r c' => P c' ∧ Short r)) (hf : Fits x) (hk : Codes k (Starts k) x) :
    (reply x).Tot c (fun b c' => P c' ∧ b.length ≤ 4096 ∧ (Starts k b ∨ Starts 0x7F b)) (fun _ _ => False) := by
  have hc := reply_wp hk c
  have hfit := hf c
  unfold Tot
  unfold M.wp at hc
  unfold reply at *
  cases h : x c with
  | panic => exact absurd h hx.ne
  | ok b c' =>
    simp only [h] at hc ⊢
    refine ⟨hx.of_ok h, hfit.ok h, ?_⟩
    rcases hc with h | ⟨_, _, rfl⟩
    · exact .inl h
    · exact .inr ⟨_, _, rfl⟩
  | err r c' =>
    simp only [h] at hc ⊢
    obtain ⟨h1, h2⟩ := hx.of_err h
    cases hw : writeError c' r with
    | none =>
      exfalso
      have := error_writes c' r.code r.data ⟨msgSize, r.pre⟩ h2
      unfold writeError at hw
      by_cases hfit : r.pre.length + (errorBytes c'.neg.version r.code r.data).length ≤ msgSize
      · rw [this.1 hfit] at hw; cases hw
      · obtain ⟨p, _, _, hp⟩ := this.2 (Nat.lt_of_not_le hfit)
        rw [hp] at hw; cases hw
    | some b =>
      simp only [hw] at hc ⊢
      refine ⟨h1, writeError_within h2 hw, ?_⟩
      rcases hc with h | ⟨_, _, rfl⟩
      · exact .inl h
      · exact .inr ⟨_, _, rfl⟩

/-- the answer to a request in the clear. -/
theorem plain_calm (hr : Roomy e.tr lim) {k : UInt8} (hk : k ≠ 0x65) {x : H Bytes} {c : Ctx} (hx : x.Tot c (fun _ c' => DtsOk c'.neg) (fun r c' => DtsOk c'.neg ∧ Short r)) (hf : Fits x)
    (hc : Codes k (Starts k) x) : (do let b ← reply x; sendMessage e b : M Status Ctx Unit) c ≠ .panic := by
  refine Tot.ne (Q := fun _ _ => True) (E := fun _ _ => True) ?_
  refine Tot.bind ((reply_tot hx hf hc).mono (fun _ _ h => h) fun _ _ _ => trivial) ?_
  rintro b c1 ⟨hd, hl, hs | hs⟩
  · exact tot_true (sendMessage_calm hr hs (by omega) hd fun h => absurd h hk)
  · exact tot_true (sendMessage_calm hr hs (by omega) hd fun h => absurd h (by decide))

/-- the answer to a request, in the clear or in a session. -/
theorem answer_calm (hr : Roomy e.tr lim) (ha : AeadFits e.crypto) {k : UInt8} (hk : k ≠ 0x65) {x : H Bytes} {c : Ctx} (hx : TotH c x) (hf : Fits x) (hc : Codes k (Starts k) x) (hd : DtsOk c.neg)
    {sid : Option UInt32} (hs : ∀ i, sid = some i → Ready c i) : (do let b ← reply x; send e sid b : M Status Ctx Unit) c ≠ .panic := by
  cases sid with
  | none => exact plain_calm hr hk (hx.mono (fun _ _ h => h.dtsOk hd) fun _ _ h => ⟨h.1.dtsOk hd, h.2⟩) hf hc
  | some i =>
    refine Tot.ne (Q := fun _ _ => True) (E := fun _ _ => True) ?_
    refine Tot.bind ((reply_tot hx hf hc).mono (fun _ _ h => h) fun _ _ _ => trivial) ?_
    rintro b c1 ⟨hd1, hl, hst⟩
    have : ∃ k, b[1]? = some k := by
      rcases hst with h | h
      · exact ⟨_, h.get⟩
      · exact ⟨_, h.get⟩
    obtain ⟨k', hk'⟩ := this
    exact tot_true (sendSecured_calm hr ha ((hs i rfl).loose hd1) hk' hl (hd1.dtsOk hd) false)

end Rsp
end Verif
