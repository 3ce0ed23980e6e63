/-
Negotiation messages as written and as read back: whatever a decoder accepts of a message written by the other side is what was written,
up to the bits and fields that are not transmitted.
-/
import Verif.Msg.Negotiate

namespace Verif

/-- reading `w` gives `a` if it gives anything. -/
def RTw {α : Type} (x : Rd α) (w : Bytes) (a : α) : Prop :=
  ∀ t u b r', x ⟨w ++ t, u⟩ = .ok b r' → b = a ∧ r' = ⟨t, u + w.length⟩

namespace RTw
variable {α β : Type}

theorem of {x : Rd α} {w : Bytes} {a : α} (h : RT x w a) : RTw x w a := by
  intro t u b r' hx
  rw [h t u] at hx
  cases hx
  exact ⟨rfl, rfl⟩

theorem bind {x : Rd α} {f : α → Rd β} {w w1 w2 : Bytes} {a : α} {b : β} (hw : w = w1 ++ w2) (h1 : RTw x w1 a) (h2 : RTw (f a) w2 b) :
    RTw (x >>= f) w b := by
  intro t u b' r' hx
  obtain ⟨a', r1, g1, g2⟩ := M.bind_ok.1 hx
  rw [hw, List.append_assoc] at g1
  obtain ⟨rfl, rfl⟩ := h1 _ _ _ _ g1
  obtain ⟨rfl, rfl⟩ := h2 _ _ _ _ g2
  exact ⟨rfl, by rw [hw, List.length_append, Nat.add_assoc]⟩

theorem guard {p : Prop} [Decidable p] {x : Rd α} {w : Bytes} {a : α} (h : RTw x w a) : RTw (if p then Rd.none else x) w a := by
  intro t u b r' hx
  by_cases hp : p
  · rw [if_pos hp] at hx; cases hx
  · rw [if_neg hp] at hx; exact h _ _ _ _ hx

theorem none {w : Bytes} {a : α} : RTw (Rd.none : Rd α) w a := by intro t u b r' hx; cases hx

end RTw

theorem rdAlgs_w {check : Alg → Bool} (as : List AlgStruct) (cur : UInt8) (hw : ∀ a ∈ as, a.WF) :
    RTw (rdAlgs check as.length cur) (as.flatMap AlgStruct.wire) as := by
  induction as generalizing cur with
  | nil => exact .of (RT.pure _)
  | cons a as ih =>
    rw [List.flatMap_cons]
    refine RTw.bind rfl (.of (AlgStruct.read_rt (hw a (by simp)))) (.guard (.guard ?_))
    exact RTw.bind (List.append_nil _).symm (ih _ fun x hx => hw x (by simp [hx])) (.of (RT.pure _))

/-- an algorithm message without the fields of later versions. -/
def algsSeen (c : Cc) (m : Algs) : Algs := { m with other := if c.ge12 = true then m.other else 0, algs := if c.ge11 = true then m.algs else [] }
def negAlgsSeen (c : Cc) (m : NegAlgs) : NegAlgs := { m with other := if c.ge12 = true then m.other else 0, algs := if c.ge11 = true then m.algs else [] }

theorem other_w {c : Cc} {x : UInt8} :
    RTw (if c.ge12 = true then rdOpaqueSupport else do let _ ← rdU8; pure 0) [if c.ge12 = true then x else 0] (if c.ge12 = true then x else 0) := by
  by_cases g : c.ge12 = true
  · simp only [g, if_true]
    intro t u b r' h
    simp only [rdOpaqueSupport, List.cons_append, List.nil_append, rdU8_cons, M.bind_apply] at h
    split at h
    · cases h; exact ⟨rfl, rfl⟩
    · cases h
  · simp only [g]
    exact RTw.bind (w1 := [0]) (w2 := []) rfl (.of (RT.u8 _)) (.of (RT.pure _))

theorem rdAlgsRsp_w {c : Cc} {m : Algs} (h1 : MeasSpec.WF m.measSpec) (h0 : MeasHash.WF m.measHash) (h2 : BaseAsym.WF m.asym) (h3 : BaseHash.WF m.hash)
    (h5 : m.algs.length ≤ 4) (h6 : ∀ a ∈ m.algs, a.WF) : RTw (rdAlgsRsp c) (algsWire c m) (algsSeen c m) := by
  obtain ⟨ms, ot, mh, asym, hash, algs⟩ := m
  dsimp only at *
  have hl : algs.length.toUInt8.toNat = algs.length := by simp; omega
  unfold rdAlgsRsp algsWire algsSeen
  simp only [List.append_assoc, List.cons_append, List.nil_append]
  refine RTw.bind (w1 := [if c.ge11 = true then algs.length.toUInt8 else 0]) rfl (.of (RT.u8 _)) (.guard ?_)
  refine RTw.bind (w1 := [0]) rfl (.of (RT.u8 _)) (RTw.bind rfl (.of (RT.u16 _)) ?_)
  refine RTw.bind (w1 := [ms]) rfl (.of (fun t u => MeasSpec.read_wf h1 t u)) (.guard ?_)
  refine RTw.bind (w1 := [if c.ge12 = true then ot else 0]) rfl other_w (.guard ?_)
  refine RTw.bind rfl (.of (fun t u => MeasHash.read_wf h0 t u)) (.guard ?_)
  refine RTw.bind rfl (.of (fun t u => BaseAsym.read_wf h2 t u)) (.guard ?_)
  refine RTw.bind rfl (.of (fun t u => BaseHash.read_wf h3 t u)) (.guard ?_)
  refine RTw.bind rfl (.of (RT.bytes _ (by simp))) ?_
  refine RTw.bind (w1 := [0]) rfl (.of (RT.u8 _)) (.guard ?_)
  refine RTw.bind (w1 := [0]) rfl (.of (RT.u8 _)) (.guard ?_)
  refine RTw.bind (w1 := putU16 0) (w2 := if c.ge11 = true then algs.flatMap AlgStruct.wire else []) rfl (.of (RT.u16 _)) ?_
  refine RTw.bind (a := if c.ge11 = true then algs else []) (List.append_nil _).symm ?_ (.guard (.of (RT.pure _)))
  by_cases g : c.ge11 = true
  · simp only [g, if_true, hl]
    exact rdAlgs_w algs 0 h6
  · simp only [g]
    exact .of (RT.pure _)

theorem rdNegAlgs_w {c : Cc} {m : NegAlgs} (h1 : MeasSpec.WF m.measSpec) (h2 : BaseAsym.WF m.asym) (h3 : BaseHash.WF m.hash)
    (h5 : m.algs.length ≤ 4) (h6 : ∀ a ∈ m.algs, a.WF) : RTw (rdNegAlgs c) (negAlgsWire c m) (negAlgsSeen c m) := by
  obtain ⟨ms, ot, asym, hash, algs⟩ := m
  dsimp only at *
  have hl : algs.length.toUInt8.toNat = algs.length := by simp; omega
  unfold rdNegAlgs negAlgsWire negAlgsSeen
  simp only [List.append_assoc, List.cons_append, List.nil_append]
  refine RTw.bind (w1 := [if c.ge11 = true then algs.length.toUInt8 else 0]) rfl (.of (RT.u8 _)) (.guard ?_)
  refine RTw.bind (w1 := [0]) rfl (.of (RT.u8 _)) (RTw.bind rfl (.of (RT.u16 _)) ?_)
  refine RTw.bind (w1 := [ms]) rfl (.of (fun t u => MeasSpec.read_wf h1 t u)) ?_
  refine RTw.bind (w1 := [if c.ge12 = true then ot else 0]) rfl other_w ?_
  refine RTw.bind rfl (.of (fun t u => BaseAsym.read_wf h2 t u)) ?_
  refine RTw.bind rfl (.of (fun t u => BaseHash.read_wf h3 t u)) ?_
  refine RTw.bind rfl (.of (RT.bytes _ (by simp))) ?_
  refine RTw.bind (w1 := [0]) rfl (.of (RT.u8 _)) (.guard ?_)
  refine RTw.bind (w1 := [0]) rfl (.of (RT.u8 _)) (.guard ?_)
  refine RTw.bind (w1 := putU16 0) (w2 := if c.ge11 = true then algs.flatMap AlgStruct.wire else []) rfl (.of (RT.u16 _)) ?_
  refine RTw.bind (a := if c.ge11 = true then algs else []) (List.append_nil _).symm ?_ (.guard (.of (RT.pure _)))
  by_cases g : c.ge11 = true
  · simp only [g, if_true, hl]
    exact rdAlgs_w algs 0 h6
  · simp only [g]
    exact .of (RT.pure _)

/-- the request as received: flags and CTExponent from 1.1, sizes from 1.2. -/
def capsAsked (c : Cc) (m : Caps) : Caps :=
  ⟨if c.ge11 = true then m.ct else 0, if c.ge11 = true then m.flags &&& Cap.reqMask else 0, if c.ge12 = true then m.dts else 0, if c.ge12 = true then m.mms else 0⟩
/-- the response as received: sizes from 1.2. -/
def capsSeen (c : Cc) (m : Caps) : Caps :=
  ⟨m.ct, m.flags &&& Cap.rspMask, if c.ge12 = true then m.dts else 0, if c.ge12 = true then m.mms else 0⟩

theorem sizes_w {c : Cc} {m : Caps} {ct : UInt8} {flags : UInt32} :
    RTw (if c.ge12 = true then do
        let dts ← rdU32
        let mms ← rdU32
        if dts < 42 ∨ mms < dts then Rd.none else pure ⟨ct, flags, dts, mms⟩
      else pure ⟨ct, flags, 0, 0⟩ : Rd Caps) (if c.ge12 = true then putU32 m.dts ++ putU32 m.mms else [])
      ⟨ct, flags, if c.ge12 = true then m.dts else 0, if c.ge12 = true then m.mms else 0⟩ := by
  by_cases g : c.ge12 = true
  · simp only [g, if_true]
    exact RTw.bind rfl (.of (RT.u32 _)) (RTw.bind (List.append_nil _).symm (.of (RT.u32 _)) (.guard (.of (RT.pure _))))
  · simp only [g]
    exact .of (RT.pure _)

theorem rdGetCaps_w (c : Cc) (m : Caps) : RTw (rdGetCaps c) (getCapsWire c m) (capsAsked c m) := by
  unfold rdGetCaps getCapsWire capsAsked
  simp only [List.cons_append, List.nil_append]
  refine RTw.bind (w1 := [0]) rfl (.of (RT.u8 _)) (RTw.bind (w1 := [0]) rfl (.of (RT.u8 _)) ?_)
  refine RTw.bind (a := (if c.ge11 = true then m.ct else 0, if c.ge11 = true then m.flags &&& Cap.reqMask else 0)) rfl ?_ sizes_w
  by_cases g : c.ge11 = true
  · simp only [g, if_true]
    refine RTw.bind (w1 := [0]) rfl (.of (RT.u8 _)) (RTw.bind (w1 := [m.ct]) rfl (.of (RT.u8 _)) (RTw.bind rfl (.of (RT.u16 _)) ?_))
    refine RTw.bind (a := m.flags &&& Cap.reqMask) (List.append_nil _).symm (.of ?_) (.guard (.of (RT.pure _)))
    intro t u
    simp [Cap.readReq]
  · simp only [g]
    exact .of (RT.pure _)

theorem rdCaps_w (c : Cc) (m : Caps) : RTw (rdCaps c) (capsWire c m) (capsSeen c m) := by
  unfold rdCaps capsWire capsSeen
  simp only [List.append_assoc, List.cons_append, List.nil_append]
  refine RTw.bind (w1 := [0]) rfl (.of (RT.u8 _)) (RTw.bind (w1 := [0]) rfl (.of (RT.u8 _)) (RTw.bind (w1 := [0]) rfl (.of (RT.u8 _)) ?_))
  refine RTw.bind (w1 := [m.ct]) rfl (.of (RT.u8 _)) (RTw.bind rfl (.of (RT.u16 _)) ?_)
  refine RTw.bind (a := m.flags &&& Cap.rspMask) rfl (.of ?_) (.guard sizes_w)
  intro t u
  simp [Cap.readRsp]

end Verif
