/-
Every response fits the send buffer of 4096 bytes.
-/
import Verif.Responder.Writers

namespace Verif
namespace Rsp
open M

variable {e : Env} {ε α : Type}

/-- the message produced fits the send buffer. -/
def Fits (x : M ε Ctx Bytes) : Prop := ∀ c, x.wp c (fun b _ => b.length ≤ msgSize) (fun _ _ => True)

theorem msg_within (cc : Cc) (m : Msg) {w w' : Writer} {n : Nat} (hw : w.out.length ≤ w.cap) (h : m.encode cc w = .ok n w') : w'.out.length ≤ w.cap := by
  have hh : Appends m.header.encode := by
    unfold Header.encode SpdmVersion.encode ReqRespCode.encode
    exact Appends.seq_cons (Appends.u8 _) (Appends.seq_cons (Appends.u8 _) Appends.seq_nil)
  have := ((Appends.seq_cons hh (Appends.seq_cons (Appends.payload cc m.payload) Appends.seq_nil)) w).ok h
  rw [← this.1.1]
  exact this.1.2 hw

theorem msg_within_err (cc : Cc) (m : Msg) {w w' : Writer} {r : EncErr} (hw : w.out.length ≤ w.cap) (h : m.encode cc w = .err r w') : w'.out.length ≤ w.cap := by
  have hh : Appends m.header.encode := by
    unfold Header.encode SpdmVersion.encode ReqRespCode.encode
    exact Appends.seq_cons (Appends.u8 _) (Appends.seq_cons (Appends.u8 _) Appends.seq_nil)
  have := ((Appends.seq_cons hh (Appends.seq_cons (Appends.payload cc m.payload) Appends.seq_nil)) w).err h
  rw [← this.1.1]
  exact this.1.2 hw

theorem Fits.bind {x : M ε Ctx α} {f : α → M ε Ctx Bytes} (hf : ∀ a, Fits (f a)) : Fits (x >>= f) := fun c => by
  rw [M.wp_bind]
  unfold M.wp
  cases x c with
  | ok a t => exact hf a t
  | err r t => trivial
  | panic => trivial

theorem Fits.bindQ {x : M ε Ctx α} {f : α → M ε Ctx Bytes} {Q : α → Prop} (hx : ∀ c, x.wp c (fun a _ => Q a) (fun _ _ => True)) (hf : ∀ a, Q a → Fits (f a)) : Fits (x >>= f) := fun c => by
  rw [M.wp_bind]
  exact (hx c).mono (fun a t h => hf a h t) fun _ _ h => h

theorem Fits.bindF {x : M ε Ctx Bytes} {f : Bytes → M ε Ctx Bytes} (hx : Fits x) (hf : ∀ b, b.length ≤ msgSize → Fits (f b)) : Fits (x >>= f) := Fits.bindQ hx hf

theorem Fits.pure {b : Bytes} (h : b.length ≤ msgSize) : Fits (Pure.pure b : M ε Ctx Bytes) := fun _ => h
theorem Fits.fail {r : ε} : Fits (M.fail r : M ε Ctx Bytes) := fun _ => trivial
theorem Fits.panic : Fits (M.panic : M ε Ctx Bytes) := fun _ => trivial
theorem Fits.ite {p : Prop} [Decidable p] {x y : M ε Ctx Bytes} (hx : Fits x) (hy : Fits y) : Fits (if p then x else y) := by
  split
  · exact hx
  · exact hy

theorem fits_encodeRsp (k : ReqRespCode) (p : Payload) : Fits (encodeRsp k p) := fun c => by
  unfold M.wp encodeRsp
  cases h : Msg.encode c.cc ⟨⟨c.neg.version, k⟩, p⟩ (Writer.init msgSize) with
  | ok a w => exact msg_within _ _ (by simp [Writer.init]) h
  | err a w => trivial
  | panic => trivial

theorem fits_encodeVersion : Fits encodeVersion := fun c => by
  unfold M.wp encodeVersion
  cases h : Msg.encode c.cc _ (Writer.init msgSize) with
  | ok a w => exact msg_within _ _ (by simp [Writer.init]) h
  | err a w => trivial
  | panic => trivial

theorem fits_mapErr {ε' : Type} {x : M ε Ctx Bytes} {r : ε'} (h : Fits x) : Fits (x.mapErr r) := fun c => by
  have := h c
  unfold M.wp M.mapErr at *
  cases hx : x c with
  | ok a t => rw [hx] at this; exact this
  | err a t => trivial
  | panic => trivial

theorem fits_encodeMsgRsp (k : ReqRespCode) (p : Payload) : Fits (encodeMsgRsp k p) := fits_mapErr (fits_encodeRsp k p)

theorem patchTail_within {n : Nat} {new b b' : Bytes} (h : patchTail n new b = .ok b') : b'.length = b.length := by
  unfold patchTail at h
  split at h
  · rename_i hc
    cases h
    simp
    omega
  · cases h

theorem fits_patchS {n : Nat} {new b : Bytes} (hb : b.length ≤ msgSize) : Fits ((patchTail n new b).lift : M Status Ctx Bytes) := fun c => by
  cases h : patchTail n new b with
  | ok b' =>
    show b'.length ≤ msgSize
    rw [patchTail_within h]; exact hb
  | err r => trivial
  | panic => trivial
theorem fits_patch {n : Nat} {new b : Bytes} {r : Reply} (hb : b.length ≤ msgSize) : Fits (liftH r (patchTail n new b)) := fits_mapErr (fits_patchS hb)

theorem patchDigests_within {c : Ctx} : ∀ {is : List (Fin 8)} {b b' : Bytes}, patchDigests e c is b = .ok b' → b'.length = b.length
  | [], b, b', h => by cases h; rfl
  | i :: is, b, b', h => by
    unfold patchDigests at h
    cases hc : c.prov.chain i with
    | none => rw [hc] at h; exact patchDigests_within h
    | some ch =>
      rw [hc] at h
      simp only [Res.bind_ok] at h
      obtain ⟨d, _, b1, h1, h2⟩ := h
      exact (patchDigests_within h2).trans (patchTail_within h1)
theorem fits_patchDigests {c : Ctx} {is : List (Fin 8)} {b : Bytes} {r : Reply} (hb : b.length ≤ msgSize) : Fits (liftH r (patchDigests e c is b)) := by
  refine fits_mapErr fun c1 => ?_
  cases h : patchDigests e c is b with
  | ok b' =>
    show b'.length ≤ msgSize
    rw [patchDigests_within h]; exact hb
  | err r => trivial
  | panic => trivial

/-- follow the writer to its last step. -/
macro "fits" : tactic => `(tactic|
  repeat' (first
    | with_reducible exact Fits.pure (by assumption)
    | with_reducible exact Fits.fail
    | with_reducible exact Fits.panic
    | with_reducible exact fits_encodeRsp _ _
    | with_reducible exact fits_encodeMsgRsp _ _
    | with_reducible exact fits_patchS (by assumption)
    | with_reducible refine Fits.bindF (fits_encodeRsp _ _) fun _ _ => ?_
    | with_reducible refine Fits.bindF (fits_encodeMsgRsp _ _) fun _ _ => ?_
    | with_reducible refine Fits.bindF fits_encodeVersion fun _ _ => ?_
    | with_reducible refine Fits.bindF (fits_patch (by assumption)) fun _ _ => ?_
    | with_reducible refine Fits.bindF (fits_patchS (by assumption)) fun _ _ => ?_
    | with_reducible refine Fits.bindF (fits_patchDigests (by assumption)) fun _ _ => ?_
    | with_reducible refine Fits.ite ?_ ?_
    | with_reducible refine Fits.bind fun _ => ?_))

theorem fits_versionRsp (bytes : Bytes) : Fits (versionRsp bytes) := by unfold versionRsp; fits
theorem fits_capabilityRsp (bytes : Bytes) : Fits (capabilityRsp bytes) := by unfold capabilityRsp; fits
theorem fits_algorithmRsp (bytes : Bytes) : Fits (algorithmRsp e bytes) := by unfold algorithmRsp; fits
theorem fits_digestRsp (sid : Option UInt32) (bytes : Bytes) : Fits (digestRsp e sid bytes) := by unfold digestRsp; fits
theorem fits_certificateRsp (sid : Option UInt32) (bytes : Bytes) : Fits (certificateRsp e sid bytes) := by unfold certificateRsp; fits
theorem fits_finishChallenge {asym : Nat} {rsp : Bytes} (h : rsp.length ≤ msgSize) : Fits (finishChallenge e asym rsp) := by
  unfold finishChallenge
  refine Fits.bind fun c => ?_
  cases challengeSig e c <;> dsimp only <;> fits
theorem fits_challengeRsp (bytes : Bytes) : Fits (challengeRsp e bytes) := by
  unfold challengeRsp; fits; exact fits_finishChallenge (by assumption)
theorem fits_finishMeasurement {sid : Option UInt32} {b : Bool} {asym : Nat} {rsp : Bytes} (h : rsp.length ≤ msgSize) : Fits (finishMeasurement e sid b asym rsp) := by
  unfold finishMeasurement
  refine Fits.ite (Fits.bind fun _ => Fits.bind fun _ => Fits.bind fun c => ?_) ?_
  · cases measurementSig e sid c <;> dsimp only <;> fits
  · fits
theorem fits_measurementRsp (sid : Option UInt32) (bytes : Bytes) : Fits (measurementRsp e sid bytes) := by
  unfold measurementRsp
  fits
  exact fits_finishMeasurement (by assumption)
theorem fits_heartbeatRsp (sid : UInt32) (bytes : Bytes) : Fits (heartbeatRsp sid bytes) := by unfold heartbeatRsp; fits
theorem fits_keyUpdateRsp (sid : UInt32) (bytes : Bytes) : Fits (keyUpdateRsp e sid bytes) := by unfold keyUpdateRsp; fits
theorem fits_endSessionRsp (sid : UInt32) (bytes : Bytes) : Fits (endSessionRsp sid bytes) := by unfold endSessionRsp; fits
theorem fits_vendorRsp (sid : Option UInt32) (bytes : Bytes) : Fits (vendorRsp e sid bytes) := by unfold vendorRsp; fits
theorem fits_errorResponse (code : ErrorCode) (bytes : Bytes) : Fits (errorResponse code bytes) := by
  unfold errorResponse
  refine Fits.bind fun c => ?_
  cases Header.read (Reader.init bytes) <;> dsimp only <;> fits
theorem fits_keyExchangePatch (sid : UInt32) (b : Bool) (asym hs : Nat) {sig rsp : Bytes} (h : rsp.length ≤ msgSize) : Fits (keyExchangePatch e sid b asym hs sig rsp) := by
  unfold keyExchangePatch; fits
theorem fits_keyExchangeRsp (bytes : Bytes) : Fits (keyExchangeRsp e bytes) := by
  unfold keyExchangeRsp
  fits
  unfold keyExchangeBody
  refine Fits.bind fun _ => Fits.bind fun _ => Fits.bind fun _ => Fits.bind fun _ => Fits.bindF (fits_encodeMsgRsp _ _) fun _ _ => ?_
  refine Fits.bind fun _ => Fits.bind fun _ => Fits.bind fun _ => Fits.bind fun _ => Fits.bind fun _ => Fits.bind fun _ => Fits.bind fun _ =>
    Fits.bindF (fits_keyExchangePatch _ _ _ _ (by assumption)) fun _ _ => ?_
  fits
theorem fits_pskExchangeRsp (bytes : Bytes) : Fits (pskExchangeRsp e bytes) := by
  unfold pskExchangeRsp
  fits
  unfold pskExchangeBody
  fits
theorem fits_finishRsp (sid : UInt32) (bytes : Bytes) : Fits (finishRsp e sid bytes) := by
  unfold finishRsp
  have : Fits (finishAnswer e sid) := by unfold finishAnswer; fits
  refine Fits.bind fun _ => Fits.bind fun _ => Fits.bind fun _ => Fits.bind fun _ => Fits.bind fun _ => Fits.bind fun _ => Fits.bind fun _ => Fits.bind fun _ => ?_
  refine Fits.ite Fits.fail (Fits.bind fun _ => Fits.bindF this fun _ _ => ?_)
  fits
theorem fits_pskFinishRsp (sid : UInt32) (bytes : Bytes) : Fits (pskFinishRsp e sid bytes) := by
  unfold pskFinishRsp; fits

/-- an error appended to a response that fits still fits. -/
theorem writeError_within {c : Ctx} {r : Reply} {b : Bytes} (hr : r.pre.length ≤ msgSize) (h : writeError c r = some b) : b.length ≤ msgSize := by
  unfold writeError at h
  split at h
  · rename_i hx; cases h; exact msg_within _ _ hr hx
  · rename_i hx; cases h; exact msg_within_err _ _ hr hx
  · cases h

end Rsp
end Verif
