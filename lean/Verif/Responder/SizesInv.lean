/-
The data transfer size on record is none or at least 42.
-/
import Verif.Responder.Sizes
import Verif.Responder.Answer

namespace Verif
namespace Rsp

variable {e : Env}

/-- the requester's data transfer size is not known, or no smaller than the smallest one the specification allows. -/
def DtsOk (n : Neg) : Prop := n.reqDts = 0 ∨ 42 ≤ n.reqDts.toNat

def KeepD (c c' : Ctx) : Prop := DtsOk c.neg → DtsOk c'.neg
instance : M.Pre KeepD where
  refl _ := id
  trans h h' := fun h0 => h' (h h0)

theorem keepD_frame {ε α : Type} {x : M ε Ctx α} (h : M.Rel (Frame true none) x) : M.Rel KeepD x :=
  h.mono fun _ _ h h0 => by rw [h.neg rfl]; exact h0

theorem keepD_eq {c c' : Ctx} (h : c'.neg.reqDts = c.neg.reqDts) : KeepD c c' := fun h0 => by unfold DtsOk; rw [h]; exact h0

theorem keepD_modify {ε : Type} {f : Ctx → Ctx} (h : ∀ c, (f c).neg.reqDts = c.neg.reqDts) : M.Rel KeepD (M.modify f : M ε Ctx Unit) :=
  M.Rel.modify fun c => keepD_eq (h c)

theorem keepD_appendA (msg : Bytes) : M.Rel KeepD (Ctx.appendA msg) := by
  intro c
  unfold M.wp
  rw [appendA_eq]
  by_cases h : c.rt.messageA.length + msg.length ≤ 156
  · rw [if_pos h]; exact keepD_eq rfl
  · rw [if_neg h]; exact M.Pre.refl (R := KeepD) c

theorem keepD_encodeVersion : M.Rel KeepD encodeVersion := fun c => by
  unfold encodeVersion M.wp
  dsimp only
  cases Msg.encode c.cc _ _ <;> first | trivial | exact M.Pre.refl (R := KeepD) c

theorem keepD_versionRsp (bytes : Bytes) : M.Rel KeepD (versionRsp bytes) := by
  unfold versionRsp
  refine M.Rel.bind (keepD_frame (rel_header _)) fun ⟨h, r⟩ => ?_
  dsimp only
  refine M.Rel.ite (fun _ => M.Rel.fail _) fun _ => ?_
  refine M.Rel.bind (keepD_frame (Ctx.rel_resetBuffers _)) fun _ => M.Rel.bind (keepD_frame (rel_readReq _ _ _)) fun ⟨_, req⟩ => ?_
  refine M.Rel.bind (M.Rel.modify fun _ _ => .inl rfl) fun _ => M.Rel.bind (M.Rel.mapErr _ (keepD_appendA _)) fun _ => ?_
  exact M.Rel.bind keepD_encodeVersion fun rsp => M.Rel.bind (M.Rel.mapErr _ (keepD_appendA _)) fun _ => M.Rel.pure _

theorem rdGetCaps_dts {cc : Cc} {r r' : Reader} {m : Caps} (h : rdGetCaps cc r = .ok m r') (h12 : cc.ge12 = true) : 42 ≤ m.dts.toNat := by
  unfold rdGetCaps at h
  obtain ⟨_, r1, _, h⟩ := M.bind_ok.1 h
  obtain ⟨_, r2, _, h⟩ := M.bind_ok.1 h
  obtain ⟨⟨ct, fl⟩, r3, _, h⟩ := M.bind_ok.1 h
  dsimp only at h
  rw [if_pos h12] at h
  obtain ⟨dts, r4, _, h⟩ := M.bind_ok.1 h
  obtain ⟨mms, r5, _, h⟩ := M.bind_ok.1 h
  by_cases hb : dts < 42 ∨ mms < dts
  · rw [if_pos hb] at h; cases h
  · rw [if_neg hb] at h
    cases h
    have : ¬ dts.toNat < 42 := fun hh => hb (.inl (UInt32.lt_iff_toNat_lt.2 hh))
    show 42 ≤ dts.toNat
    omega

theorem keepD_caps (bytes : Bytes) (r : Reader) (g : Caps × Bytes → H Bytes) (k : Bytes → H Bytes) (hg : ∀ m req, g (m, req) = (do M.modify (setCaps m); k req)) (hk : ∀ q, M.Rel KeepD (k q)) :
    M.Rel KeepD (readReq rdGetCaps bytes r >>= g) := by
  intro c
  rw [M.wp_bind]
  have hf := rel_readReq (k := true) (sid := none) rdGetCaps bytes r c
  have hn : ∀ {a : Caps × Bytes} {c'}, readReq rdGetCaps bytes r c = .ok a c' → c' = c ∧ (c.cc.ge12 = true → 42 ≤ a.1.dts.toNat) := by
    intro a c' h
    unfold readReq at h
    obtain ⟨c0, c1, h0, h⟩ := M.bind_ok.1 h
    cases h0
    cases hr : rdGetCaps c.cc r with
    | ok m r' =>
      rw [hr] at h
      cases h
      exact ⟨rfl, rdGetCaps_dts hr⟩
    | err x r' => rw [hr] at h; cases h
    | panic => rw [hr] at h; cases h
  unfold M.wp
  cases hx : readReq rdGetCaps bytes r c with
  | panic => trivial
  | err x c' => exact keepD_eq (congrArg Neg.reqDts ((hf.err hx).neg rfl))
  | ok a c' =>
    obtain ⟨rfl, h42⟩ := hn hx
    obtain ⟨m, req⟩ := a
    show M.wp (g (m, req)) c' _ _
    rw [hg]
    have hs : KeepD c' (setCaps m c') := by
      unfold setCaps
      dsimp only
      by_cases h12 : c'.cc.ge12 = true
      · rw [if_pos h12]; exact fun _ => .inr (h42 h12)
      · rw [if_neg h12]; exact keepD_eq rfl
    rw [M.wp_bind]
    exact (hk req (setCaps m c')).mono (fun _ _ h => M.Pre.trans (R := KeepD) hs h) (fun _ _ h => M.Pre.trans (R := KeepD) hs h)

theorem keepD_capabilityRsp (bytes : Bytes) : M.Rel KeepD (capabilityRsp bytes) := by
  unfold capabilityRsp
  refine M.Rel.bind M.Rel.get fun c => M.Rel.ite (fun _ => M.Rel.fail _) fun _ => ?_
  refine M.Rel.bind (keepD_frame (rel_header _)) fun ⟨h, r⟩ => M.Rel.ite (fun _ => M.Rel.fail _) fun _ => ?_
  refine M.Rel.bind (keepD_modify fun _ => rfl) fun _ => M.Rel.bind (keepD_frame (Ctx.rel_resetBuffers _)) fun _ => ?_
  refine keepD_caps bytes r _ _ (fun m req => rfl) fun req => ?_
  refine M.Rel.bind (M.Rel.mapErr _ (keepD_appendA _)) fun _ => M.Rel.bind (keepD_frame (rel_encodeRsp _ _)) fun rsp => ?_
  exact M.Rel.bind (M.Rel.mapErr _ (keepD_appendA _)) fun _ => M.Rel.pure _

theorem keepD_constructChains : M.Rel KeepD (Ctx.constructChains e) := fun c =>
  (constructChains_wp c).mono (fun _ _ h => keepD_eq (by rw [h.1.same])) (fun _ _ h => keepD_eq (by rw [h.same]))

theorem offer_dts (m : NegAlgs) (n : Neg) : (setOffer m n).reqDts = n.reqDts := by
  have hf : ∀ (l : List AlgStruct) (n : Neg), (l.foldl offerAlg n).reqDts = n.reqDts := by
    intro l
    induction l with
    | nil => exact fun _ => rfl
    | cons a l ih =>
      intro n
      rw [List.foldl_cons, ih]
      unfold offerAlg
      split <;> rfl
  exact hf _ _

theorem keepD_algorithmRsp (bytes : Bytes) : M.Rel KeepD (algorithmRsp e bytes) := by
  unfold algorithmRsp
  refine M.Rel.bind M.Rel.get fun c => M.Rel.ite (fun _ => M.Rel.fail _) fun _ => ?_
  refine M.Rel.bind (keepD_frame (rel_checkVersion _)) fun r => M.Rel.bind (keepD_frame (Ctx.rel_resetBuffers _)) fun _ => ?_
  refine M.Rel.bind (keepD_frame (rel_readReq _ _ _)) fun ⟨m, req⟩ => ?_
  dsimp only
  refine M.Rel.bind (keepD_modify fun c => offer_dts m c.neg) fun _ => M.Rel.bind (M.Rel.mapErr _ (keepD_appendA _)) fun _ => ?_
  refine M.Rel.bind (keepD_modify fun _ => rfl) fun _ => M.Rel.bind (M.Rel.mapErr _ keepD_constructChains) fun _ => ?_
  refine M.Rel.bind (keepD_modify fun _ => rfl) fun _ => M.Rel.bind M.Rel.get fun c => ?_
  exact M.Rel.bind (keepD_frame (rel_encodeRsp _ _)) fun rsp => M.Rel.bind (M.Rel.mapErr _ (keepD_appendA _)) fun _ => M.Rel.pure _

theorem keepD_sendMessage (b : Bytes) : M.Rel KeepD (sendMessage e b) := fun c =>
  (out_sendMessage b c).mono (fun _ _ h => keepD_eq (by rw [h.1])) (fun _ _ h => keepD_eq (by rw [h.1]))

theorem keepD_dispatch {v k : UInt8} {t : Bytes} (hk : k = 0x84 ∨ k = 0xE1 ∨ k = 0xE3) : M.Rel KeepD (dispatch e (v :: k :: t)) := by
  unfold dispatch
  intro c
  rw [M.wp_bind]
  have hh : Header.read (Reader.init (v :: k :: t)) = .ok ⟨SpdmVersion.ofCode v, ReqRespCode.ofCode k⟩ ⟨t, 2⟩ := by
    rcases hk with rfl | rfl | rfl <;> rfl
  simp only [Res.read, hh]
  show M.wp (dispatchCode e (ReqRespCode.ofCode k) (v :: k :: t)) c _ _
  rcases hk with rfl | rfl | rfl
  · exact M.Rel.bind (rel_reply (keepD_versionRsp _)) (fun b => keepD_sendMessage b) c
  · exact M.Rel.bind (rel_reply (keepD_capabilityRsp _)) (fun b => keepD_sendMessage b) c
  · exact M.Rel.bind (rel_reply (keepD_algorithmRsp _)) (fun b => keepD_sendMessage b) c

/-- one packet keeps the size on record legal. -/
theorem keepD_step (hl : HashLaw e) {rx : Bytes} {c : Ctx} : (processMessage e rx).wp c (fun _ => KeepD c) (fun _ => KeepD c) := by
  have key : ∀ c', Step e rx c c' → (∀ v k t, Plain e rx (v :: k :: t) → k = 0x84 ∨ k = 0xE1 ∨ k = 0xE3 → KeepD c c') → KeepD c c' := by
    intro c' hs hp
    cases hs with
    | ignored h => rw [h]; exact M.Pre.refl (R := KeepD) c
    | secured sid _ _ h => exact keepD_eq (by rw [h.neg])
    | plain v k t h1 h2 =>
      by_cases hk : k = 0x84 ∨ k = 0xE1 ∨ k = 0xE3
      · exact hp v k t h1 hk
      · obtain ⟨p, hneg⟩ := (h2.keep (fun h => hk (.inl h)) (fun h => hk (.inr (.inl h))) (fun h => hk (.inr (.inr h)))).neg
        exact keepD_eq (by rw [hneg])
  refine ((process_step hl rx c).and ?_).mono (fun _ c' h => key c' h.1 h.2) (fun _ c' h => key c' h.1 h.2)
  cases hx : processMessage e rx c with
  | panic => unfold M.wp; rw [hx]; trivial
  | ok a c' =>
    unfold M.wp; rw [hx]
    intro v k t h1 h2
    rw [process_plain rx h1 c] at hx
    exact (rel_isOk (keepD_dispatch h2) c).ok hx
  | err a c' =>
    unfold M.wp; rw [hx]
    intro v k t h1 h2
    rw [process_plain rx h1 c] at hx
    exact (rel_isOk (keepD_dispatch h2) c).err hx

theorem Run.dts {c0 c : Ctx} {h : List (Env × Bytes)} (h0 : DtsOk c0.neg) (hr : Run c0 h c) (hl : ∀ p ∈ h, HashLaw p.1) : DtsOk c.neg := by
  induction hr with
  | nil => exact h0
  | ok hr hp ih => exact (keepD_step (hl _ (List.mem_append_right _ (List.mem_singleton.2 rfl)))).ok hp (ih fun p hp => hl p (by simp [hp]))
  | err hr hp ih => exact (keepD_step (hl _ (List.mem_append_right _ (List.mem_singleton.2 rfl)))).err hp (ih fun p hp => hl p (by simp [hp]))

end Rsp
end Verif
