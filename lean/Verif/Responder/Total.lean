/-
Total correctness of responder code: a run that does not panic, with what holds afterwards.
-/
import Verif.Responder.Transcript
import Verif.Responder.SizesInv

namespace Verif

namespace M
variable {ε ε' σ α β : Type}

/-- `x` started in `s` does not panic; `Q` holds after success, `E` after failure. -/
def Tot (x : M ε σ α) (s : σ) (Q : α → σ → Prop) (E : ε → σ → Prop) : Prop :=
  match x s with
  | .ok a s' => Q a s'
  | .err r s' => E r s'
  | .panic => False

theorem Tot.ne {x : M ε σ α} {s : σ} {Q : α → σ → Prop} {E : ε → σ → Prop} (h : x.Tot s Q E) : x s ≠ .panic := by
  unfold Tot at h
  intro hp
  rw [hp] at h
  exact h

theorem Tot.ok {x : M ε σ α} {s s' : σ} {a : α} {Q : α → σ → Prop} {E : ε → σ → Prop} (hx : x s = .ok a s') (h : Q a s') : x.Tot s Q E := by
  unfold Tot; rw [hx]; exact h
theorem Tot.err {x : M ε σ α} {s s' : σ} {r : ε} {Q : α → σ → Prop} {E : ε → σ → Prop} (hx : x s = .err r s') (h : E r s') : x.Tot s Q E := by
  unfold Tot; rw [hx]; exact h

theorem Tot.of_ok {x : M ε σ α} {s s' : σ} {a : α} {Q : α → σ → Prop} {E : ε → σ → Prop} (h : x.Tot s Q E) (hx : x s = .ok a s') : Q a s' := by
  unfold Tot at h; rw [hx] at h; exact h
theorem Tot.of_err {x : M ε σ α} {s s' : σ} {r : ε} {Q : α → σ → Prop} {E : ε → σ → Prop} (h : x.Tot s Q E) (hx : x s = .err r s') : E r s' := by
  unfold Tot at h; rw [hx] at h; exact h

theorem Tot.mono {x : M ε σ α} {s : σ} {Q Q' : α → σ → Prop} {E E' : ε → σ → Prop} (h : x.Tot s Q E) (hQ : ∀ a t, Q a t → Q' a t)
    (hE : ∀ r t, E r t → E' r t) : x.Tot s Q' E' := by
  unfold Tot at *
  cases hx : x s with
  | ok a t => rw [hx] at h; exact hQ _ _ h
  | err r t => rw [hx] at h; exact hE _ _ h
  | panic => rw [hx] at h; exact h

theorem Tot.bind {x : M ε σ α} {f : α → M ε σ β} {s : σ} {P : α → σ → Prop} {Q : β → σ → Prop} {E : ε → σ → Prop} (hx : x.Tot s P E)
    (hf : ∀ a t, P a t → (f a).Tot t Q E) : (x >>= f).Tot s Q E := by
  unfold Tot at *
  simp only [bind_apply]
  cases h : x s with
  | ok a t => rw [h] at hx; exact hf a t hx
  | err r t => rw [h] at hx; exact hx
  | panic => rw [h] at hx; exact hx

/-- combine with what is known about the outcomes. -/
theorem Tot.and {x : M ε σ α} {s : σ} {Q Q' : α → σ → Prop} {E E' : ε → σ → Prop} (h : x.Tot s Q E) (h' : x.wp s Q' E') :
    x.Tot s (fun a t => Q a t ∧ Q' a t) (fun r t => E r t ∧ E' r t) := by
  unfold Tot at *
  cases hx : x s with
  | ok a t => rw [hx] at h; exact ⟨h, h'.ok hx⟩
  | err r t => rw [hx] at h; exact ⟨h, h'.err hx⟩
  | panic => rw [hx] at h; exact h

theorem Tot.of_wp {x : M ε σ α} {s : σ} {Q : α → σ → Prop} {E : ε → σ → Prop} (h : x s ≠ .panic) (h' : x.wp s Q E) : x.Tot s Q E := by
  unfold Tot
  cases hx : x s with
  | ok a t => exact h'.ok hx
  | err r t => exact h'.err hx
  | panic => exact h hx

theorem Tot.mapErr {x : M ε σ α} {s : σ} {r' : ε'} {Q : α → σ → Prop} {E : ε' → σ → Prop} (h : x.Tot s Q (fun _ => E r')) : (x.mapErr r').Tot s Q E := by
  unfold Tot at *
  simp only [mapErr_apply]
  cases hx : x s with
  | ok a t => rw [hx] at h; exact h
  | err r t => rw [hx] at h; exact h
  | panic => rw [hx] at h; exact h

theorem Tot.try' {x : M ε σ α} {s : σ} {Q : Except ε α → σ → Prop} {E : ε → σ → Prop} (h : x.Tot s (fun a => Q (.ok a)) (fun r => Q (.error r))) :
    (M.try' x).Tot s Q E := by
  unfold Tot at *
  simp only [try_apply]
  cases hx : x s with
  | ok a t => rw [hx] at h; exact h
  | err r t => rw [hx] at h; exact h
  | panic => rw [hx] at h; exact h

theorem tot_pure {a : α} {s : σ} {Q : α → σ → Prop} {E : ε → σ → Prop} (h : Q a s) : (pure a : M ε σ α).Tot s Q E := h
theorem tot_fail {r : ε} {s : σ} {Q : α → σ → Prop} {E : ε → σ → Prop} (h : E r s) : (fail r : M ε σ α).Tot s Q E := h
theorem tot_get {s : σ} {Q : σ → σ → Prop} {E : ε → σ → Prop} (h : Q s s) : (get : M ε σ σ).Tot s Q E := h
theorem tot_set {s t : σ} {Q : Unit → σ → Prop} {E : ε → σ → Prop} (h : Q () t) : (set t : M ε σ Unit).Tot s Q E := h
theorem tot_modify {f : σ → σ} {s : σ} {Q : Unit → σ → Prop} {E : ε → σ → Prop} (h : Q () (f s)) : (modify f : M ε σ Unit).Tot s Q E := h
theorem tot_ofOption {r : ε} {o : Option α} {s : σ} {Q : α → σ → Prop} {E : ε → σ → Prop} (h : ∀ a, o = some a → Q a s) (hn : o = none → E r s) :
    (ofOption r o).Tot s Q E := by
  cases o with
  | none => exact hn rfl
  | some a => exact h a rfl
theorem tot_unwrap {o : Option α} {s : σ} {Q : α → σ → Prop} {E : ε → σ → Prop} (ho : o.isSome = true) (h : ∀ a, o = some a → Q a s) :
    (unwrap o : M ε σ α).Tot s Q E := by
  cases o with
  | none => cases ho
  | some a => exact h a rfl
theorem tot_ite {c : Prop} [Decidable c] {x y : M ε σ α} {s : σ} {Q : α → σ → Prop} {E : ε → σ → Prop} (hx : c → x.Tot s Q E) (hy : ¬ c → y.Tot s Q E) :
    (if c then x else y).Tot s Q E := by
  by_cases h : c
  · rw [if_pos h]; exact hx h
  · rw [if_neg h]; exact hy h
theorem tot_get_bind {f : σ → M ε σ β} {s : σ} {Q : β → σ → Prop} {E : ε → σ → Prop} (h : (f s).Tot s Q E) : (get >>= f : M ε σ β).Tot s Q E := h
theorem tot_unwrap_bind {o : Option α} {a : α} {f : α → M ε σ β} {s : σ} {Q : β → σ → Prop} {E : ε → σ → Prop} (ho : o = some a) (h : (f a).Tot s Q E) :
    (unwrap o >>= f : M ε σ β).Tot s Q E := by subst ho; exact h
theorem tot_set_bind {t : σ} {f : Unit → M ε σ β} {s : σ} {Q : β → σ → Prop} {E : ε → σ → Prop} (h : (f ()).Tot t Q E) : (set t >>= f : M ε σ β).Tot s Q E := h
theorem tot_modify_bind {g : σ → σ} {f : Unit → M ε σ β} {s : σ} {Q : β → σ → Prop} {E : ε → σ → Prop} (h : (f ()).Tot (g s) Q E) :
    (modify g >>= f : M ε σ β).Tot s Q E := h
theorem tot_true {x : M ε σ α} {s : σ} (h : x s ≠ .panic) : x.Tot s (fun _ _ => True) (fun _ _ => True) := by
  unfold Tot
  cases hx : x s with
  | ok a t => trivial
  | err r t => trivial
  | panic => exact h hx
end M

namespace Res
variable {α β : Type}

/-- a state-free function that does not panic. -/
def Safe (x : Res α) : Prop := x ≠ .panic

theorem Safe.bind {x : Res α} {f : α → Res β} (hx : Safe x) (hf : ∀ a, x = .ok a → Safe (f a)) : Safe (x >>= f) := by
  cases x with
  | ok a => exact hf a rfl
  | err r => intro h; cases h
  | panic => exact absurd rfl hx
theorem safe_ok (a : α) : Safe (.ok a : Res α) := fun h => by cases h
theorem safe_err (r : Status) : Safe (.err r : Res α) := fun h => by cases h
theorem safe_ofOption (r : Status) (o : Option α) : Safe (ofOption r o) := by
  cases o <;> intro h <;> cases h
theorem safe_unwrap {o : Option α} (h : o.isSome = true) : Safe (unwrap o) := by
  cases o with
  | none => cases h
  | some a => intro h; cases h
theorem safe_ite {c : Prop} [Decidable c] {x y : Res α} (hx : c → Safe x) (hy : ¬ c → Safe y) : Safe (if c then x else y) := by
  by_cases h : c
  · rw [if_pos h]; exact hx h
  · rw [if_neg h]; exact hy h
theorem safe_read {r : Status} {x : Rd α} (h : x.Good) (rd : Reader) : Safe (Res.read r x rd) := by
  unfold Res.read
  have := h.ne_panic rd
  cases hx : x rd with
  | ok a r' => intro h; cases h
  | err a r' => intro h; cases h
  | panic => exact absurd hx this

theorem Safe.lift {σ : Type} {x : Res α} {s : σ} {Q : α → σ → Prop} {E : Status → σ → Prop} (hx : Safe x) (h : ∀ a, x = .ok a → Q a s)
    (he : ∀ r, E r s) : (x.lift : M Status σ α).Tot s Q E := by
  unfold M.Tot Res.lift
  cases x with
  | ok a => exact h a rfl
  | err r => exact he r
  | panic => exact hx rfl
end Res

/-! ### key schedule -/
namespace KeySched
open Res

/-- single, supported algorithms. -/
structure Single (h : BaseHash) (a : Aead) : Prop where
  hash : (BaseHash.size? h).isSome = true
  key : (Aead.keySize? a).isSome = true
  iv : (Aead.ivSize? a).isSome = true
  tag : (Aead.tagSize? a).isSome = true

theorem safe_binconcat (n : UInt16) (v : SpdmVersion) (l : Bytes) (o : Option Bytes) : Safe (binconcat n v l o) := by
  unfold binconcat
  have hp := Writes.ne_panic (Writes.u16 n) (Writer.init maxBuf) (by simp [Writer.WF, Writer.init])
  dsimp only
  refine safe_ite (fun _ => safe_err _) fun _ => ?_
  cases h : encU16 n (Writer.init maxBuf) with
  | ok a w => exact safe_ok _
  | err a w => exact safe_err _
  | panic => exact absurd h hp

theorem safe_sized (n : Nat) (b : Bytes) : Safe (sized n b) := by
  unfold sized
  exact safe_ite (fun _ => safe_err _) fun _ => safe_ok _

theorem safe_expand (c : Crypto) (h : BaseHash) (key info : Bytes) (out max : Nat) : Safe (expandSecret c h key info out max) := by
  unfold expandSecret
  exact (safe_sized _ _).bind fun _ _ => (safe_ofOption _ _).bind fun _ _ => safe_sized _ _

theorem safe_handshakeSecret (c : Crypto) {h : BaseHash} (hh : (BaseHash.size? h).isSome = true) (d : Bytes) : Safe (handshakeSecret c h d) := by
  unfold handshakeSecret hashLen
  exact (safe_unwrap hh).bind fun _ _ => (safe_ofOption _ _).bind fun _ _ => safe_sized _ _

theorem safe_masterSecret (c : Crypto) (v : SpdmVersion) {h : BaseHash} (hh : (BaseHash.size? h).isSome = true) (d : Bytes) : Safe (masterSecret c v h d) := by
  unfold masterSecret hashLen
  exact (safe_unwrap hh).bind fun _ _ => (safe_binconcat _ _ _ _).bind fun _ _ => (safe_sized _ _).bind fun _ _ => (safe_ofOption _ _).bind fun _ _ =>
    (safe_ofOption _ _).bind fun _ _ => safe_sized _ _

theorem safe_direction (c : Crypto) (v : SpdmVersion) {h : BaseHash} (hh : (BaseHash.size? h).isSome = true) {psk : Bool} (key : Bytes)
    {hint : Option Bytes} (hp : psk = true → hint.isSome = true) (f : SpdmVersion → BaseHash → Bytes → Bytes → Option Bytes) (l : Bytes) (th : Option Bytes) :
    Safe (directionSecret c v h psk key hint f l th) := by
  unfold directionSecret hashLen
  refine (safe_unwrap hh).bind fun _ _ => (safe_binconcat _ _ _ _).bind fun _ _ => safe_ite (fun h => ?_) fun _ => safe_expand _ _ _ _ _ _
  exact (safe_unwrap (hp h)).bind fun _ _ => (safe_ofOption _ _).bind fun _ _ => safe_sized _ _

theorem safe_finished (c : Crypto) (v : SpdmVersion) {h : BaseHash} (hh : (BaseHash.size? h).isSome = true) (d : Bytes) : Safe (finishedKey c v h d) := by
  unfold finishedKey hashLen
  exact (safe_unwrap hh).bind fun _ _ => (safe_binconcat _ _ _ _).bind fun _ _ => safe_expand _ _ _ _ _ _

theorem safe_update (c : Crypto) (v : SpdmVersion) {h : BaseHash} (hh : (BaseHash.size? h).isSome = true) (d : Bytes) : Safe (updateSecret c v h d) := by
  unfold updateSecret hashLen
  exact (safe_unwrap hh).bind fun _ _ => (safe_binconcat _ _ _ _).bind fun _ _ => safe_expand _ _ _ _ _ _

theorem safe_keyIv (c : Crypto) (v : SpdmVersion) {h : BaseHash} {a : Aead} (hs : Single h a) (d : Bytes) : Safe (aeadKeyIv c v h a d) := by
  unfold aeadKeyIv
  exact (safe_unwrap hs.key).bind fun _ _ => (safe_binconcat _ _ _ _).bind fun _ _ => (safe_expand _ _ _ _ _ _).bind fun _ _ =>
    (safe_unwrap hs.iv).bind fun _ _ => (safe_binconcat _ _ _ _).bind fun _ _ => (safe_expand _ _ _ _ _ _).bind fun _ _ => safe_ok _
end KeySched

/-! ### session operations -/
namespace Session
open KeySched Res

/-- the fields a session keeps until it is torn down. -/
def Core (s s' : Session) : Prop :=
  s'.id = s.id ∧ s'.hash = s.hash ∧ s'.aead = s.aead ∧ s'.usePsk = s.usePsk ∧ s'.pskHint = s.pskHint ∧ s'.mutAuth = s.mutAuth

theorem Core.refl (s : Session) : Core s s := ⟨rfl, rfl, rfl, rfl, rfl, rfl⟩
theorem Core.trans {a b c : Session} (h : Core a b) (h' : Core b c) : Core a c := by
  obtain ⟨a1, a2, a3, a4, a5, a6⟩ := h
  obtain ⟨b1, b2, b3, b4, b5, b6⟩ := h'
  exact ⟨b1.trans a1, b2.trans a2, b3.trans a3, b4.trans a4, b5.trans a5, b6.trans a6⟩

/-- what a session in use needs: single algorithms, and the hint when it uses a PSK. -/
structure Armed (s : Session) : Prop where
  algs : Single s.hash s.aead
  hint : s.usePsk = true → s.pskHint.isSome = true

theorem Armed.core {s s' : Session} (h : Armed s) (hc : Core s s') : Armed s' := by
  obtain ⟨b1, b2, b3, b4, b5, b6⟩ := hc
  exact ⟨by rw [b2, b3]; exact h.algs, by rw [b4, b5]; exact h.hint⟩

/-- `x` does not panic on a session with core `s0` and keeps the core. -/
abbrev Keeps {α : Type} (s0 : Session) (x : M Status Session α) : Prop :=
  ∀ s, Core s0 s → x.Tot s (fun _ t => Core s0 t) (fun _ t => Core s0 t)

theorem keeps_bind {α β : Type} {s0 : Session} {x : M Status Session α} {f : α → M Status Session β} (hx : Keeps s0 x) (hf : ∀ a, Keeps s0 (f a)) :
    Keeps s0 (x >>= f) := fun s h => (hx s h).bind fun a t ht => hf a t ht
theorem keeps_modify {s0 : Session} {f : Session → Session} (h : ∀ s, Core s (f s)) : Keeps s0 (M.modify f) := fun s hs => M.tot_modify (hs.trans (h s))
theorem keeps_pure {α : Type} {s0 : Session} (a : α) : Keeps s0 (pure a) := fun _ hs => M.tot_pure hs
theorem keeps_lift {α : Type} {s0 : Session} {x : Res α} (h : Safe x) : Keeps s0 (x.lift) := fun _ hs => h.lift (fun _ _ => hs) fun _ => hs
theorem keeps_try {α : Type} {s0 : Session} {x : M Status Session α} (h : Keeps s0 x) : Keeps s0 (M.try' x) := fun s hs =>
  M.Tot.try' ((h s hs).mono (fun _ _ h => h) fun _ _ h => h)
theorem keeps_get {α : Type} {s0 : Session} {f : Session → M Status Session α} (h : ∀ s, Core s0 s → Keeps s0 (f s)) : Keeps s0 (M.get >>= f) :=
  fun s hs => (M.tot_get (Q := fun a t => a = s ∧ t = s) ⟨rfl, rfl⟩ : M.Tot M.get s _ _).bind (by rintro _ _ ⟨rfl, rfl⟩; exact h _ hs _ hs)

theorem core_same {f : Session → Session} (h : ∀ s, (f s).id = s.id ∧ (f s).hash = s.hash ∧ (f s).aead = s.aead ∧ (f s).usePsk = s.usePsk ∧ (f s).pskHint = s.pskHint ∧ (f s).mutAuth = s.mutAuth) (s : Session) : Core s (f s) := h s

theorem keeps_setDhe (c : Crypto) (v : SpdmVersion) {s0 : Session} (h : (BaseHash.size? s0.hash).isSome = true) (d : Bytes) : Keeps s0 (setDheSecret c v d) := by
  unfold setDheSecret
  refine keeps_bind (keeps_modify (fun s => ⟨rfl, rfl, rfl, rfl, rfl, rfl⟩)) fun _ => keeps_get fun s hs => ?_
  have hh : (BaseHash.size? s.hash).isSome = true := by rw [hs.2.1]; exact h
  exact keeps_bind (keeps_lift (safe_handshakeSecret c hh _)) fun _ => keeps_bind (keeps_lift (safe_masterSecret c v hh _)) fun _ =>
    keeps_modify (fun s => ⟨rfl, rfl, rfl, rfl, rfl, rfl⟩)

theorem keeps_genHandshake (c : Crypto) (v : SpdmVersion) {s0 : Session} (h : Armed s0) (th : Bytes) : Keeps s0 (genHandshake c v th) := by
  unfold genHandshake
  refine keeps_get fun s hs => ?_
  have ha := h.core hs
  exact keeps_bind (keeps_lift (safe_direction c v ha.algs.hash _ ha.hint _ _ _)) fun _ => keeps_bind (keeps_modify (fun s => ⟨rfl, rfl, rfl, rfl, rfl, rfl⟩)) fun _ =>
    keeps_bind (keeps_lift (safe_direction c v ha.algs.hash _ ha.hint _ _ _)) fun _ => keeps_bind (keeps_modify (fun s => ⟨rfl, rfl, rfl, rfl, rfl, rfl⟩)) fun _ =>
    keeps_bind (keeps_lift (safe_finished c v ha.algs.hash _)) fun _ => keeps_bind (keeps_modify (fun s => ⟨rfl, rfl, rfl, rfl, rfl, rfl⟩)) fun _ =>
    keeps_bind (keeps_lift (safe_finished c v ha.algs.hash _)) fun _ => keeps_bind (keeps_modify (fun s => ⟨rfl, rfl, rfl, rfl, rfl, rfl⟩)) fun _ =>
    keeps_bind (keeps_lift (safe_keyIv c v ha.algs _)) fun _ => keeps_bind (keeps_modify (fun s => ⟨rfl, rfl, rfl, rfl, rfl, rfl⟩)) fun _ =>
    keeps_bind (keeps_lift (safe_keyIv c v ha.algs _)) fun _ => keeps_modify (fun s => ⟨rfl, rfl, rfl, rfl, rfl, rfl⟩)

theorem keeps_genData (c : Crypto) (v : SpdmVersion) {s0 : Session} (h : Armed s0) (th : Bytes) : Keeps s0 (genData c v th) := by
  unfold genData
  refine keeps_get fun s hs => ?_
  have ha := h.core hs
  exact keeps_bind (keeps_lift (safe_direction c v ha.algs.hash _ ha.hint _ _ _)) fun _ => keeps_bind (keeps_modify (fun s => ⟨rfl, rfl, rfl, rfl, rfl, rfl⟩)) fun _ =>
    keeps_bind (keeps_lift (safe_direction c v ha.algs.hash _ ha.hint _ _ _)) fun _ => keeps_bind (keeps_modify (fun s => ⟨rfl, rfl, rfl, rfl, rfl, rfl⟩)) fun _ =>
    keeps_bind (keeps_lift (safe_keyIv c v ha.algs _)) fun _ => keeps_bind (keeps_modify (fun s => ⟨rfl, rfl, rfl, rfl, rfl, rfl⟩)) fun _ =>
    keeps_bind (keeps_lift (safe_keyIv c v ha.algs _)) fun _ => keeps_bind (keeps_modify (fun s => ⟨rfl, rfl, rfl, rfl, rfl, rfl⟩)) fun _ =>
    keeps_bind (keeps_lift (safe_direction c v ha.algs.hash _ ha.hint _ _ _)) fun _ => keeps_modify (fun s => ⟨rfl, rfl, rfl, rfl, rfl, rfl⟩)

theorem keeps_createReq (c : Crypto) (v : SpdmVersion) {s0 : Session} (h : Armed s0) : Keeps s0 (createReq c v) := by
  unfold createReq
  refine keeps_bind (keeps_modify (fun s => ⟨rfl, rfl, rfl, rfl, rfl, rfl⟩)) fun _ => keeps_get fun s hs => ?_
  have ha := h.core hs
  exact keeps_bind (keeps_lift (safe_update c v ha.algs.hash _)) fun _ => keeps_bind (keeps_modify (fun s => ⟨rfl, rfl, rfl, rfl, rfl, rfl⟩)) fun _ =>
    keeps_bind (keeps_lift (safe_keyIv c v ha.algs _)) fun _ => keeps_modify (fun s => ⟨rfl, rfl, rfl, rfl, rfl, rfl⟩)

theorem keeps_createRsp (c : Crypto) (v : SpdmVersion) {s0 : Session} (h : Armed s0) : Keeps s0 (createRsp c v) := by
  unfold createRsp
  refine keeps_bind (keeps_modify (fun s => ⟨rfl, rfl, rfl, rfl, rfl, rfl⟩)) fun _ => keeps_get fun s hs => ?_
  have ha := h.core hs
  exact keeps_bind (keeps_lift (safe_update c v ha.algs.hash _)) fun _ => keeps_bind (keeps_modify (fun s => ⟨rfl, rfl, rfl, rfl, rfl, rfl⟩)) fun _ =>
    keeps_bind (keeps_lift (safe_keyIv c v ha.algs _)) fun _ => keeps_modify (fun s => ⟨rfl, rfl, rfl, rfl, rfl, rfl⟩)

theorem keeps_createUpdate (c : Crypto) (v : SpdmVersion) {s0 : Session} (h : Armed s0) (a b : Bool) : Keeps s0 (createUpdate c v a b) := by
  unfold createUpdate
  cases a <;> cases b
  · exact keeps_pure ()
  · exact keeps_createRsp c v h
  · exact keeps_bind (keeps_createReq c v h) fun _ => keeps_pure _
  · exact keeps_bind (keeps_createReq c v h) fun _ => keeps_createRsp c v h

theorem core_activate (a b n : Bool) (s : Session) : Core s (activateUpdate a b n s) := by
  cases a <;> cases b <;> cases n <;> exact ⟨rfl, rfl, rfl, rfl, rfl, rfl⟩

end Session

namespace Rsp
open Session KeySched Res

theorem keeps_keyUpdateOps (e : Env) (v : SpdmVersion) {s0 : Session} (h : Armed s0) (op : KeyUpdateOp) : Keeps s0 (keyUpdateOps e v op) := by
  unfold keyUpdateOps
  cases op with
  | updateSingleKey => exact keeps_bind (keeps_try (keeps_createUpdate _ _ h _ _)) fun _ => keeps_pure _
  | updateAllKeys => exact keeps_bind (keeps_try (keeps_createUpdate _ _ h _ _)) fun _ => keeps_bind (keeps_modify (core_activate _ _ _)) fun _ => keeps_pure _
  | verifyNewKey => exact keeps_bind (keeps_modify (core_activate _ _ _)) fun _ => keeps_pure _
  | unknown b => exact keeps_pure _

end Rsp
end Verif
