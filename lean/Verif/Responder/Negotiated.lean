/-
What exactly GET_CAPABILITIES and NEGOTIATE_ALGORITHMS leave behind, and how they fail.
-/
import Verif.Responder.Slots

namespace Verif

namespace Rsp
variable {e : Env}

theorem emits_caps (c : Cc) (m : Caps) : Emits (Payload.encode c (.caps m)) (capsWire c m) := by
  show Emits (encCaps c m) _
  unfold encCaps
  by_cases h : c.ge12 = true
  · simp only [h, if_true]
    exact (Emits.seq_cons (Emits.u8 _) (Emits.seq_cons (Emits.u8 _) (Emits.seq_cons (Emits.u8 _) (Emits.seq_cons (Emits.u8 _)
      (Emits.seq_cons (Emits.u16 _) (Emits.seq_cons (Emits.u32 _) (Emits.seq_cons (Emits.seq_cons (Emits.u32 _) (Emits.seq_cons (Emits.u32 _)
        Emits.seq_nil)) Emits.seq_nil))))))).cast (by simp [capsWire, h])
  · simp only [h]
    exact (Emits.seq_cons (Emits.u8 _) (Emits.seq_cons (Emits.u8 _) (Emits.seq_cons (Emits.u8 _) (Emits.seq_cons (Emits.u8 _)
      (Emits.seq_cons (Emits.u16 _) (Emits.seq_cons (Emits.u32 _) (Emits.seq_cons (Emits.pure _) Emits.seq_nil))))))).cast (by simp [capsWire, h])

theorem appendA_eq (msg : Bytes) (c : Ctx) : Ctx.appendA msg c =
    if c.rt.messageA.length + msg.length ≤ 156 then .ok () { c with rt := { c.rt with messageA := c.rt.messageA ++ msg } } else .err .bufferFull c := by
  unfold Ctx.appendA
  simp only [M.bind_apply, M.get_apply, Ctx.capA]
  by_cases h : c.rt.messageA.length + msg.length ≤ 156 <;> simp [h]

theorem appendA_ok {msg : Bytes} {c c' : Ctx} {u : Unit} (h : Ctx.appendA msg c = .ok u c') :
    c.rt.messageA.length + msg.length ≤ 156 ∧ c' = { c with rt := { c.rt with messageA := c.rt.messageA ++ msg } } := by
  rw [appendA_eq] at h
  split at h
  · rename_i hl; cases h; exact ⟨hl, rfl⟩
  · cases h

/-- the part of the context that transcripts of the connection live in, after a request outside a session that is neither GET_DIGESTS nor a
measurement request. -/
theorem resetBuffers_neg {k : ReqRespCode} (hk : k = .reqGetCapabilities ∨ k = .reqNegotiateAlgorithms ∨ k = .reqGetVersion ∨ k = .reqChallenge)
    (c : Ctx) : Ctx.resetBuffers k none c = { c with rt := { c.rt with l1l2 := none } } := by
  rcases hk with rfl | rfl | rfl | rfl <;> rfl

/-- GET_CAPABILITIES: the version of the request is taken, both sides' capabilities are recorded. -/
def capsCtx (v : UInt8) (m : Caps) (c : Ctx) : Ctx :=
  setCaps m { c with neg := { c.neg with version := SpdmVersion.ofCode v }, rt := { c.rt with l1l2 := none } }

/-- the CAPABILITIES message: parameters, reserved, CTExponent, reserved, flags; from 1.2 the data transfer and message sizes. -/
def capsBytes (v : UInt8) (cfg : Config) : Bytes :=
  [v, 0x61, 0, 0, 0, cfg.rspCt, 0, 0] ++ putU32 cfg.rspCaps ++ (if 0x12 ≤ v then putU32 cfg.dts ++ putU32 cfg.mms else [])

theorem encodeRsp_writes {k : ReqRespCode} {p : Payload} {c : Ctx} {w : Bytes} (hw : Writes (p.encode c.cc) w) (hl : w.length + 2 ≤ msgSize) :
    encodeRsp k p c = .ok (c.neg.version.get :: k.get :: w) c := by
  have hw : Writes (Msg.encode c.cc ⟨⟨c.neg.version, k⟩, p⟩) (c.neg.version.get :: k.get :: w) :=
    (Writes.seq_cons (Header.encode_writes _) (Writes.seq_cons hw Writes.seq_nil)).cast (by simp [Header.wire])
  have := (hw (Writer.init msgSize) (by simp [Writer.WF, Writer.init])).1 (by simp [Writer.init]; omega)
  unfold encodeRsp
  rw [this]
  simp [Writer.init]

theorem setCaps_fields (m : Caps) (c : Ctx) : (setCaps m c).neg.version = c.neg.version ∧ (setCaps m c).rt = c.rt ∧ (setCaps m c).config = c.config := by
  unfold setCaps; dsimp only; split <;> exact ⟨rfl, rfl, rfl⟩

theorem caps_written (v : UInt8) (cfg : Config) (c : Ctx) (hv : c.neg.version = SpdmVersion.ofCode v) :
    encodeRsp .rspCapabilities (.caps ⟨cfg.rspCt, cfg.rspCaps, cfg.dts, cfg.mms⟩) c = .ok (capsBytes v cfg) c := by
  have hg : (SpdmVersion.ofCode v).get = v := by simp
  have hz : putU16 0 = [0, 0] := by decide
  have h12 : c.cc.ge12 = true ↔ 0x12 ≤ v := by simp [Cc.ge12, Cc.ver, Ctx.cc, hv]
  have hlen : (capsWire c.cc ⟨cfg.rspCt, cfg.rspCaps, cfg.dts, cfg.mms⟩).length + 2 ≤ msgSize := by
    unfold capsWire msgSize; split <;> simp [putU16, putU32]
  rw [encodeRsp_writes (p := .caps _) (encCaps_writes _ _) hlen]
  congr 1
  unfold capsBytes capsWire
  simp only [h12, hv, hg, hz]
  rfl

/-- add to the negotiation transcript. -/
def addA (msg : Bytes) (c : Ctx) : Ctx := { c with rt := { c.rt with messageA := c.rt.messageA ++ msg } }

theorem readReq_of {α : Type} {x : Cc → Rd α} {bytes : Bytes} {r r' : Reader} {a : α} {c : Ctx} (h : x c.cc r = .ok a r') :
    readReq x bytes r c = .ok (a, bytes.take r'.used) c := by
  simp [readReq, h]

/-- A well-formed GET_CAPABILITIES in the right state. -/
theorem capabilityRsp_eq {v k : UInt8} {t : Bytes} {m : Caps} {r' : Reader} {c : Ctx} (hst : c.rt.state = .afterVersion) (hv : 0x10 ≤ v)
    (hr : rdGetCaps { c.cc with neg := { c.neg with version := SpdmVersion.ofCode v } } ⟨t, 2⟩ = .ok m r') :
    capabilityRsp (v :: k :: t) c =
      let req := (v :: k :: t).take r'.used
      let rsp := capsBytes v c.config
      if 156 < c.rt.messageA.length + req.length then .err { code := .unspecified } (capsCtx v m c)
      else if 156 < c.rt.messageA.length + req.length + rsp.length then .err { pre := rsp, code := .unspecified } (addA req (capsCtx v m c))
      else .ok rsp (addA (req ++ rsp) (capsCtx v m c)) := by
  have hge : ¬ (SpdmVersion.ofCode v).get < SpdmVersion.v10.get := by
    simp only [SpdmVersion.get_ofCode]
    exact UInt8.not_lt.2 hv
  have hst' : ¬ (c.rt.state ≠ .afterVersion) := fun h => h hst
  have hread : readReq rdGetCaps (v :: k :: t) ⟨t, 2⟩ { c with neg := { c.neg with version := SpdmVersion.ofCode v }, rt := { c.rt with l1l2 := none } } =
      .ok (m, (v :: k :: t).take r'.used) { c with neg := { c.neg with version := SpdmVersion.ofCode v }, rt := { c.rt with l1l2 := none } } := readReq_of hr
  unfold capabilityRsp
  simp only [M.bind_apply, M.get_apply, if_neg hst', header, header_read, M.pure_apply, hge, if_false, M.modify_apply,
    resetBuffers_neg (.inl rfl), hread, orUnspecified, M.mapErr_apply, appendA_eq]
  obtain ⟨g1, g2, g3⟩ := setCaps_fields m { c with neg := { c.neg with version := SpdmVersion.ofCode v }, rt := { c.rt with l1l2 := none } }
  unfold capsCtx
  generalize setCaps m { c with neg := { c.neg with version := SpdmVersion.ofCode v }, rt := { c.rt with l1l2 := none } } = c1 at *
  have hA : c1.rt.messageA = c.rt.messageA := by rw [g2]
  rw [hA]
  generalize List.take r'.used (v :: k :: t) = req
  by_cases h1 : 156 < c.rt.messageA.length + req.length
  · simp only [h1, if_true, if_neg (Nat.not_le.2 h1)]
  · simp only [h1, if_false, if_pos (Nat.not_lt.1 h1)]
    rw [caps_written v c.config { c1 with rt := { c1.rt with messageA := c.rt.messageA ++ req } } g1]
    dsimp only
    simp only [orAppended, M.mapErr_apply, appendA_eq, List.length_append]
    by_cases h2 : 156 < c.rt.messageA.length + req.length + (capsBytes v c.config).length
    · simp only [h2, if_true, if_neg (Nat.not_le.2 h2), addA, hA]
    · simp only [h2, if_false, if_pos (Nat.not_lt.1 h2), addA, hA, List.append_assoc]

/-- Every other GET_CAPABILITIES is refused; the answer is an ERROR alone. -/
theorem capabilityRsp_refused {v k : UInt8} {t : Bytes} {c : Ctx}
    (h : ¬ (c.rt.state = .afterVersion ∧ 0x10 ≤ v ∧ ∃ m r', rdGetCaps { c.cc with neg := { c.neg with version := SpdmVersion.ofCode v } } ⟨t, 2⟩ = .ok m r')) :
    capabilityRsp (v :: k :: t) c = .panic ∨ ∃ r c', capabilityRsp (v :: k :: t) c = .err r c' ∧ r.pre = [] ∧ c'.rt.messageA = c.rt.messageA ∧
      c'.rt.m1m2 = c.rt.m1m2 ∧ c'.rt.state = c.rt.state ∧ c'.sent = c.sent ∧ c'.prov = c.prov := by
  unfold capabilityRsp
  simp only [M.bind_apply, M.get_apply, header, header_read]
  by_cases hst : c.rt.state = .afterVersion
  · have hst' : ¬ (c.rt.state ≠ .afterVersion) := fun h => h hst
    simp only [if_neg hst', M.bind_apply, M.pure_apply]
    by_cases hge : (SpdmVersion.ofCode v).get < SpdmVersion.v10.get
    · simp only [hge, if_true]
      exact .inr ⟨_, _, rfl, rfl, rfl, rfl, rfl, rfl, rfl⟩
    · simp only [hge, if_false, M.bind_apply, M.modify_apply, resetBuffers_neg (.inl rfl), readReq, M.get_apply]
      cases hr : rdGetCaps { c.cc with neg := { c.neg with version := SpdmVersion.ofCode v } } ⟨t, 2⟩ with
      | panic => 
        have hr' : rdGetCaps (Ctx.cc { c with neg := { c.neg with version := SpdmVersion.ofCode v }, rt := { c.rt with l1l2 := none } }) ⟨t, 2⟩ = .panic := hr
        rw [hr']
        exact .inl rfl
      | err u s => 
        have hr' : rdGetCaps (Ctx.cc { c with neg := { c.neg with version := SpdmVersion.ofCode v }, rt := { c.rt with l1l2 := none } }) ⟨t, 2⟩ = .err u s := hr
        rw [hr']
        exact .inr ⟨_, _, rfl, rfl, rfl, rfl, rfl, rfl, rfl⟩
      | ok m r' =>
        refine absurd ⟨hst, ?_, m, r', hr⟩ h
        simp only [SpdmVersion.get_ofCode] at hge
        exact UInt8.not_lt.1 hge
  · simp only [ne_eq, hst, not_false_eq_true, if_true]
    exact .inr ⟨_, _, rfl, rfl, rfl, rfl, rfl, rfl, rfl⟩

/-! ### The provisioned certificate chains -/

/-- the form in which a provisioned chain is served: u16 total size, two zero bytes, hash of the root certificate (the first certificate
of the data), the data. -/
def ServedAs (e : Env) (h : BaseHash) (d ch : Bytes) : Prop :=
  ∃ b en root, e.certFromChain d 0 = some (b, en) ∧ b ≤ en ∧ en ≤ 4096 ∧
    e.crypto.hash h (((d ++ List.replicate (4096 - d.length) 0).drop b).take (en - b)) = some root ∧
    ch = putU16 (UInt16.ofNat (4 + root.length + d.length)) ++ [0, 0] ++ root ++ d

/-- only chains are built, from the provisioned data, where there was none. -/
structure Builds (e : Env) (c c' : Ctx) : Prop where
  same : c' = { c with prov := c'.prov }
  data : c'.prov.chainData = c.prov.chainData
  root : c'.prov.peerRoot = c.prov.peerRoot
  chain : ∀ i, c'.prov.chain i = c.prov.chain i ∨
    (c.prov.chain i = none ∧ ∃ d ch, c.prov.chainData i = some d ∧ ServedAs e c.neg.baseHash d ch ∧ c'.prov.chain i = some ch)

instance : M.Pre (Builds e) where
  refl c := ⟨rfl, rfl, rfl, fun _ => .inl rfl⟩
  trans {a b c} h h' := by
    refine ⟨?_, h'.data.trans h.data, h'.root.trans h.root, fun i => ?_⟩
    · rw [h'.same, h.same]
    · have hn : b.neg = a.neg := by rw [h.same]
      rcases h'.chain i with g | ⟨g1, d, ch, g2, g3, g4⟩
      · rcases h.chain i with k | ⟨k1, d, ch, k2, k3, k4⟩
        · exact .inl (g.trans k)
        · exact .inr ⟨k1, d, ch, k2, k3, g.trans k4⟩
      · rcases h.chain i with k | ⟨k1, d', ch', k2, k3, k4⟩
        · exact .inr ⟨k ▸ g1, d, ch, h.data ▸ g2, hn ▸ g3, g4⟩
        · rw [g1] at k4; cases k4

/-- slot `i` is served, or has nothing provisioned. -/
def Done (i : Fin 8) (c : Ctx) : Prop := (c.prov.chain i).isSome = true ∨ c.prov.chainData i = none

theorem Builds.done {i : Fin 8} {c c' : Ctx} (h : Builds e c c') (hd : Done i c) : Done i c' := by
  rcases hd with hd | hd
  · rcases h.chain i with g | ⟨g, _⟩
    · left; rw [g]; exact hd
    · rw [g] at hd; cases hd
  · right; rw [h.data]; exact hd

theorem constructSlot_wp (i : Fin 8) (c : Ctx) : (Ctx.constructSlot e i).wp c (fun _ c' => Builds e c c' ∧ Done i c') (fun _ => Builds e c) := by
  unfold Ctx.constructSlot
  rw [M.wp_bind, M.wp_get]
  cases hc : c.prov.chain i with
  | some ch => exact ⟨M.Pre.refl c, .inl (by rw [hc]; rfl)⟩
  | none =>
    cases hd : c.prov.chainData i with
    | none => exact ⟨M.Pre.refl c, .inr hd⟩
    | some d =>
      dsimp only
      cases hf : e.certFromChain d 0 with
      | none => trivial
      | some p =>
        obtain ⟨b, en⟩ := p
        dsimp only
        rw [M.wp_ite]
        refine ⟨fun hle => ?_, fun _ => trivial⟩
        cases hh : e.crypto.hash c.neg.baseHash (((d ++ List.replicate (4096 - d.length) 0).drop b).take (en - b)) with
        | none => exact M.Pre.refl c
        | some root =>
          refine ⟨⟨rfl, rfl, rfl, fun j => ?_⟩, .inl ?_⟩
          · dsimp only
            by_cases hj : j = i
            · subst hj
              refine .inr ⟨hc, d, _, hd, ⟨b, en, root, hf, hle.1, hle.2, hh, ?_⟩, if_pos rfl⟩
              rfl
            · exact .inl (if_neg hj)
          · simp

theorem constructChains_wp (c : Ctx) : (Ctx.constructChains e).wp c (fun _ c' => Builds e c c' ∧ ∀ i, Done i c') (fun _ => Builds e c) := by
  unfold Ctx.constructChains
  have step : ∀ (P : Ctx → Prop) (i : Fin 8) (c : Ctx) (rest : M Status Ctx Unit), (∀ c c', Builds e c c' → P c → P c') → P c →
      (∀ c', Builds e c c' → P c' → Done i c' → rest.wp c' (fun _ c'' => Builds e c' c'' ∧ ∀ i, Done i c'') (fun _ => Builds e c')) →
      (do Ctx.constructSlot e i; rest : M Status Ctx Unit).wp c (fun _ c'' => Builds e c c'' ∧ ∀ i, Done i c'') (fun _ => Builds e c) := by
    intro P i c rest hP hc hr
    rw [M.wp_bind]
    refine (constructSlot_wp i c).mono ?_ fun _ _ h => h
    rintro _ c1 ⟨h1, h2⟩
    refine (hr c1 h1 (hP _ _ h1 hc) h2).mono ?_ fun _ _ h => M.Pre.trans h1 h
    rintro _ c2 ⟨h3, h4⟩
    exact ⟨M.Pre.trans h1 h3, h4⟩
  refine step (fun _ => True) 0 c _ (fun _ _ _ h => h) trivial fun c0 _ _ d0 => ?_
  refine step (fun c => Done 0 c) 1 c0 _ (fun _ _ h g => h.done g) d0 fun c1 _ d0 d1 => ?_
  refine step (fun c => Done 0 c ∧ Done 1 c) 2 c1 _ (fun _ _ h g => ⟨h.done g.1, h.done g.2⟩) ⟨d0, d1⟩ fun c2 _ d1 d2 => ?_
  refine step (fun c => (Done 0 c ∧ Done 1 c) ∧ Done 2 c) 3 c2 _ (fun _ _ h g => ⟨⟨h.done g.1.1, h.done g.1.2⟩, h.done g.2⟩) ⟨d1, d2⟩ fun c3 _ d2 d3 => ?_
  refine step (fun c => ((Done 0 c ∧ Done 1 c) ∧ Done 2 c) ∧ Done 3 c) 4 c3 _
    (fun _ _ h g => ⟨⟨⟨h.done g.1.1.1, h.done g.1.1.2⟩, h.done g.1.2⟩, h.done g.2⟩) ⟨d2, d3⟩ fun c4 _ d3 d4 => ?_
  refine step (fun c => (((Done 0 c ∧ Done 1 c) ∧ Done 2 c) ∧ Done 3 c) ∧ Done 4 c) 5 c4 _
    (fun _ _ h g => ⟨⟨⟨⟨h.done g.1.1.1.1, h.done g.1.1.1.2⟩, h.done g.1.1.2⟩, h.done g.1.2⟩, h.done g.2⟩) ⟨d3, d4⟩ fun c5 _ d4 d5 => ?_
  refine step (fun c => ((((Done 0 c ∧ Done 1 c) ∧ Done 2 c) ∧ Done 3 c) ∧ Done 4 c) ∧ Done 5 c) 6 c5 _
    (fun _ _ h g => ⟨⟨⟨⟨⟨h.done g.1.1.1.1.1, h.done g.1.1.1.1.2⟩, h.done g.1.1.1.2⟩, h.done g.1.1.2⟩, h.done g.1.2⟩, h.done g.2⟩) ⟨d4, d5⟩
    fun c6 _ d5 d6 => ?_
  refine (constructSlot_wp 7 c6).mono ?_ fun _ _ h => h
  rintro _ c7 ⟨h, d7⟩
  refine ⟨h, fun i => ?_⟩
  obtain ⟨⟨⟨⟨⟨k0, k1⟩, k2⟩, k3⟩, k4⟩, k5⟩ := d5
  have : ∀ i : Fin 8, i = 0 ∨ i = 1 ∨ i = 2 ∨ i = 3 ∨ i = 4 ∨ i = 5 ∨ i = 6 ∨ i = 7 := by decide
  rcases this i with rfl | rfl | rfl | rfl | rfl | rfl | rfl | rfl
  · exact h.done k0
  · exact h.done k1
  · exact h.done k2
  · exact h.done k3
  · exact h.done k4
  · exact h.done k5
  · exact h.done d6
  · exact d7

/-! ### NEGOTIATE_ALGORITHMS -/

/-- the ALGORITHMS message carrying the selection in `n`: number of structures, reserved, length, measurement specification, opaque data
format, measurement hash, signature algorithm, hash algorithm, reserved, no external algorithms, the four structures. -/
def algsBytes (n : Neg) : Bytes :=
  let v := n.version.get
  [v, 0x63, if 0x11 ≤ v then 4 else 0, 0] ++ putU16 (if 0x11 ≤ v then 52 else 36) ++ [n.measSpec, if 0x12 ≤ v then n.opaqueSupport else 0] ++
    putU32 n.measHash ++ putU32 n.baseAsym ++ putU32 n.baseHash ++ List.replicate 16 0 ++
    (if 0x11 ≤ v then [2, 0x20] ++ putU16 n.dhe ++ [3, 0x20] ++ putU16 n.aead ++ [4, 0x20] ++ putU16 n.reqAsym ++ [5, 0x20] ++ putU16 n.keySchedule
     else [])

/-- the selection put into the response. -/
def algsOf (n : Neg) : Algs :=
  ⟨n.measSpec, n.opaqueSupport, n.measHash, n.baseAsym, n.baseHash,
    [⟨.dhe, .dhe n.dhe⟩, ⟨.aead, .aead n.aead⟩, ⟨.reqAsym, .reqAsym n.reqAsym⟩, ⟨.keySchedule, .keySchedule n.keySchedule⟩]⟩

theorem algs_writes (cc : Cc) (n : Neg) : Writes (encAlgs cc (algsOf n)) (algsWire cc (algsOf n)) := by
  have ha : Writes (encN AlgStruct.encode (algsOf n).algs) ((algsOf n).algs.flatMap AlgStruct.wire) :=
    Writes.repeat _ fun a ha => AlgStruct.encode_writes (by
      simp only [algsOf, List.mem_cons, List.not_mem_nil, or_false] at ha
      rcases ha with rfl | rfl | rfl | rfl <;> simp)
  have h1 := MeasSpec.writes (algsOf n).measSpec
  have h2 := MeasHash.writes (algsOf n).measHash
  have h3 := BaseAsym.writes (algsOf n).asym
  have h4 := BaseHash.writes (algsOf n).hash
  have hl : (4 * (algsOf n).algs.length.toUInt8).toUInt16 = 4 * (algsOf n).algs.length.toUInt16 := by
    show (4 * (4 : Nat).toUInt8).toUInt16 = 4 * (4 : Nat).toUInt16
    decide
  unfold encAlgs
  apply Writes.cast
  · wr
  rw [hl]
  simp [algsWire]
  by_cases g1 : cc.ge11 = true <;> by_cases g2 : cc.ge12 = true <;> simp [g1, g2, putU16]

theorem algs_written (c : Ctx) : encodeRsp .rspAlgorithms (.algs (algsOf c.neg)) c = .ok (algsBytes c.neg) c := by
  have hlen : (algsWire c.cc (algsOf c.neg)).length + 2 ≤ msgSize := by
    unfold algsWire msgSize; split <;> simp [putU16, putU32, algsOf, AlgStruct.wire]
  have h12 : c.cc.ge12 = true ↔ 0x12 ≤ c.neg.version.get := by simp [Cc.ge12, Cc.ver, Ctx.cc]
  have h11 : c.cc.ge11 = true ↔ 0x11 ≤ c.neg.version.get := by simp [Cc.ge11, Cc.ver, Ctx.cc]
  rw [encodeRsp_writes (p := .algs _) (algs_writes _ _) hlen]
  congr 1
  unfold algsBytes algsWire
  simp only [h11, h12]
  by_cases h : 0x11 ≤ c.neg.version.get
  · simp [h, algsOf, AlgStruct.wire, Alg.bits, AlgType.get]; rfl
  · simp [h, algsOf, AlgStruct.wire, Alg.bits, AlgType.get]; rfl

/-- the context when the chains are built. -/
def offerCtx (m : NegAlgs) (req : Bytes) (c : Ctx) : Ctx :=
  { c with neg := selectAlgs c.config (setOffer m c.neg), rt := { c.rt with l1l2 := none, messageA := c.rt.messageA ++ req } }

/-- the opaque data format both sides support. -/
def withOpaque (m : NegAlgs) (c : Ctx) : Ctx := { c with neg := { c.neg with opaqueSupport := c.config.opaqueSupport &&& m.other } }

/-- A well-formed NEGOTIATE_ALGORITHMS in the right state. -/
theorem algorithmRsp_eq {v k : UInt8} {t : Bytes} {m : NegAlgs} {r' : Reader} {c : Ctx} (hst : c.rt.state = .afterCapabilities)
    (hv : SpdmVersion.ofCode v = c.neg.version) (hr : rdNegAlgs c.cc ⟨t, 2⟩ = .ok m r') :
    algorithmRsp e (v :: k :: t) c =
      let req := (v :: k :: t).take r'.used
      if 156 < c.rt.messageA.length + req.length then
        .err { code := .unspecified } { c with neg := setOffer m c.neg, rt := { c.rt with l1l2 := none } }
      else match Ctx.constructChains e (offerCtx m req c) with
        | .panic => .panic
        | .err _ c2 => .err { code := .unspecified } c2
        | .ok _ c2 =>
          let rsp := algsBytes (withOpaque m c2).neg
          if 156 < c2.rt.messageA.length + rsp.length then .err { pre := rsp, code := .unspecified } (withOpaque m c2)
          else .ok rsp (addA rsp (withOpaque m c2)) := by
  have hst' : ¬ (c.rt.state ≠ .afterCapabilities) := fun h => h hst
  have hread : readReq rdNegAlgs (v :: k :: t) ⟨t, 2⟩ { c with rt := { c.rt with l1l2 := none } } =
      .ok (m, (v :: k :: t).take r'.used) { c with rt := { c.rt with l1l2 := none } } := readReq_of hr
  have hcv : checkVersion (v :: k :: t) c = .ok ⟨t, 2⟩ c := by simp [checkVersion, header, header_read, hv]
  unfold algorithmRsp
  simp only [M.bind_apply, M.get_apply, if_neg hst', hcv, M.modify_apply, resetBuffers_neg (.inr (.inl rfl)), hread, orUnspecified, M.mapErr_apply,
    appendA_eq]
  generalize List.take r'.used (v :: k :: t) = req
  by_cases h1 : 156 < c.rt.messageA.length + req.length
  · simp only [h1, if_true, if_neg (Nat.not_le.2 h1)]
  · simp only [h1, if_false, if_pos (Nat.not_lt.1 h1)]
    have heq : ({ c with neg := selectAlgs c.config (setOffer m c.neg), rt := { c.rt with messageA := c.rt.messageA ++ req, l1l2 := none } } : Ctx) = offerCtx m req c := rfl
    rw [heq]
    cases hcc : Ctx.constructChains e (offerCtx m req c) with
    | panic => rfl
    | err st c2 => rfl
    | ok u c2 =>
      dsimp only
      have heq2 : ({ c2 with neg := { c2.neg with opaqueSupport := c2.config.opaqueSupport &&& m.other } } : Ctx) = withOpaque m c2 := rfl
      rw [heq2]
      have hw := algs_written (withOpaque m c2)
      change encodeRsp .rspAlgorithms (.algs ⟨c2.neg.measSpec, c2.config.opaqueSupport &&& m.other, c2.neg.measHash, c2.neg.baseAsym, c2.neg.baseHash,
        [⟨.dhe, .dhe c2.neg.dhe⟩, ⟨.aead, .aead c2.neg.aead⟩, ⟨.reqAsym, .reqAsym c2.neg.reqAsym⟩, ⟨.keySchedule, .keySchedule c2.neg.keySchedule⟩]⟩)
        (withOpaque m c2) = _ at hw
      rw [hw]
      dsimp only
      simp only [orAppended, M.mapErr_apply, appendA_eq]
      have hA : (withOpaque m c2).rt = c2.rt := rfl
      rw [hA]
      by_cases h2 : 156 < c2.rt.messageA.length + (algsBytes (withOpaque m c2).neg).length
      · simp only [h2, if_true, if_neg (Nat.not_le.2 h2)]
      · simp only [h2, if_false, if_pos (Nat.not_lt.1 h2)]
        rfl

/-- Every other NEGOTIATE_ALGORITHMS is refused; the answer is an ERROR alone. -/
theorem algorithmRsp_refused {v k : UInt8} {t : Bytes} {c : Ctx}
    (h : ¬ (c.rt.state = .afterCapabilities ∧ SpdmVersion.ofCode v = c.neg.version ∧ ∃ m r', rdNegAlgs c.cc ⟨t, 2⟩ = .ok m r')) :
    algorithmRsp e (v :: k :: t) c = .panic ∨ ∃ r c', algorithmRsp e (v :: k :: t) c = .err r c' ∧ r.pre = [] ∧ c'.rt.messageA = c.rt.messageA ∧
      c'.rt.m1m2 = c.rt.m1m2 ∧ c'.neg = c.neg ∧ c'.rt.state = c.rt.state ∧ c'.sent = c.sent ∧ c'.prov = c.prov := by
  unfold algorithmRsp
  simp only [M.bind_apply, M.get_apply]
  by_cases hst : c.rt.state = .afterCapabilities
  · have hst' : ¬ (c.rt.state ≠ .afterCapabilities) := fun h => h hst
    simp only [if_neg hst', M.bind_apply, checkVersion, header, header_read, M.pure_apply, M.get_apply]
    by_cases hv : SpdmVersion.ofCode v = c.neg.version
    · simp only [hv, ne_eq, not_true_eq_false, if_false, M.pure_apply, M.modify_apply, resetBuffers_neg (.inr (.inl rfl)), readReq, M.bind_apply, M.get_apply]
      cases hr : rdNegAlgs c.cc ⟨t, 2⟩ with
      | panic =>
        have hr' : rdNegAlgs (Ctx.cc { c with rt := { c.rt with l1l2 := none } }) ⟨t, 2⟩ = .panic := hr
        rw [hr']
        exact .inl rfl
      | err u s =>
        have hr' : rdNegAlgs (Ctx.cc { c with rt := { c.rt with l1l2 := none } }) ⟨t, 2⟩ = .err u s := hr
        rw [hr']
        exact .inr ⟨_, _, rfl, rfl, rfl, rfl, rfl, rfl, rfl, rfl⟩
      | ok m r' => exact absurd ⟨hst, hv, m, r', hr⟩ h
    · simp only [ne_eq, hv, not_false_eq_true, if_true]
      exact .inr ⟨_, _, rfl, rfl, rfl, rfl, rfl, rfl, rfl, rfl⟩
  · simp only [ne_eq, hst, not_false_eq_true, if_true]
    exact .inr ⟨_, _, rfl, rfl, rfl, rfl, rfl, rfl, rfl, rfl⟩

end Rsp
end Verif
