/-
When KEY_EXCHANGE and PSK_EXCHANGE take a session slot.
-/
import Verif.Responder.Finish

namespace Verif
namespace Rsp
variable {e : Env}

theorem exchangeStart_ok {bytes : Bytes} {r : Reader} {c c' : Ctx} (h : exchangeStart bytes c = .ok r c') :
    c' = c ∧ ConnState.negotiated.code ≤ c.rt.state.code ∧ ∃ v k t, bytes = v :: k :: t ∧ SpdmVersion.ofCode v = c.neg.version ∧
      SpdmVersion.v11.get ≤ c.neg.version.get ∧ r = ⟨t, 2⟩ := by
  unfold exchangeStart at h
  simp only [M.bind_apply, M.get_apply] at h
  split at h
  · simp at h
  · rename_i hst
    match bytes with
    | [] =>
      obtain ⟨r, h1⟩ := header_read_short (b := []) (by simp)
      simp [Res.read, h1, Res.lift] at h
    | [a] =>
      obtain ⟨r, h1⟩ := header_read_short (b := [a]) (by simp)
      simp [Res.read, h1, Res.lift] at h
    | v :: k :: t =>
      simp only [Res.read, header_read, Res.lift, M.bind_apply] at h
      split at h
      · simp at h
      · rename_i hv
        have hv : SpdmVersion.ofCode v = c.neg.version := Decidable.not_not.1 hv
        split at h
        · simp at h
        · rename_i hge
          cases h
          refine ⟨rfl, by omega, v, k, t, rfl, hv, ?_, rfl⟩
          rw [← hv]
          simpa using hge

/-- the answer to opaque data depends on the version and the opaque data format only. -/
theorem respond_congr {c c' : Cc} (hv : c'.neg.version = c.neg.version) (ho : c'.neg.opaqueSupport = c.neg.opaqueSupport) (l : List UInt8) (o : Bytes) :
    Opaque.respond c' l o = Opaque.respond c l o := by
  have hg : c'.ge12 = c.ge12 := by unfold Cc.ge12 Cc.ver; rw [hv]
  have h0 : Opaque.answer c'.neg = Opaque.answer c.neg := by
    funext v
    unfold Opaque.answer Cc.ge12 Cc.ver
    simp only [hv, ho]
  have h1 : ∀ v l out, Opaque.pickLocal c'.neg v l out = Opaque.pickLocal c.neg v l out := by
    intro v l
    induction l with
    | nil => intro out; rfl
    | cons a l ih => intro out; unfold Opaque.pickLocal; simp only [h0, ih]
  have h2 : ∀ l ls out, Opaque.pick c'.neg l ls out = Opaque.pick c.neg l ls out := by
    intro l ls
    induction ls with
    | nil => intro out; rfl
    | cons a l ih => intro out; unfold Opaque.pick; simp only [h1, ih]
  have h3 : Opaque.rdSupportedList c' = Opaque.rdSupportedList c := by
    unfold Opaque.rdSupportedList Opaque.rdHeader
    rw [hg, ho]
  unfold Opaque.respond
  simp only [h2, h3]

/-- does the request ask for a measurement summary hash? -/
def wantsSummary (t : SummaryHashType) : Bool := decide (t = .tcb ∨ t = .all)

/-- the summary hash put into the answer. -/
def SummaryIs (e : Env) (c : Ctx) (t : SummaryHashType) (sum : Bytes) : Prop :=
  if wantsSummary t then e.summary c.neg.version c.neg.baseHash c.neg.measSpec c.neg.measHash t = some sum ∧ sum ≠ [] else sum = []

/-- everything a KEY_EXCHANGE needs before a session slot is taken. -/
structure KeyExchangeValid (e : Env) (c : Ctx) (bytes : Bytes) (m : KeyEx) (req sum opaq certHash exchange final : Bytes) (rspId : UInt16) : Prop where
  ready : ConnState.negotiated.code ≤ c.rt.state.code
  version : SpdmVersion.v11.get ≤ c.neg.version.get
  wire : ∃ v k t r', bytes = v :: k :: t ∧ SpdmVersion.ofCode v = c.neg.version ∧ KeyEx.read c.cc ⟨t, 2⟩ = .ok m r' ∧ req = bytes.take r'.used
  summary : SummaryIs e c m.summary sum
  opaq : Opaque.respond c.cc c.config.secureVersions m.opaq = .ok opaq
  chain : ∃ chain, localChain c m.slot = some chain ∧ e.crypto.hash c.neg.baseHash chain = some certHash
  dhe : ∃ f, e.dheGen c.neg.dhe = some (exchange, f) ∧ f m.exchange = some final
  id : Ctx.nextHalf false 0 c.sessions = some rspId

/-- the context when the slot is taken. -/
def exchangeCtx (c : Ctx) (m : KeyEx) : Ctx :=
  { Ctx.resetBuffers .reqKeyExchange none c with
    rt := { (Ctx.resetBuffers .reqKeyExchange none c).rt with needSummary := wantsSummary m.summary, localSlot := m.slot }
    neg := { c.neg with terminationPolicy := m.policy &&& 1 == 1 } }

theorem reset_fields (k : ReqRespCode) (c : Ctx) : (Ctx.resetBuffers k none c).cc = c.cc ∧ (Ctx.resetBuffers k none c).config = c.config ∧
    (Ctx.resetBuffers k none c).prov = c.prov ∧ (Ctx.resetBuffers k none c).sessions = c.sessions ∧ (Ctx.resetBuffers k none c).neg = c.neg := by
  unfold Ctx.resetBuffers Ctx.resetM Ctx.resetM1M2
  dsimp only
  split <;> split <;> (try split) <;> exact ⟨rfl, rfl, rfl, rfl, rfl⟩

theorem summaryHash_eq (t : SummaryHashType) (c : Ctx) : (summaryHash e t : M Status Ctx (Option Bytes)) c =
    .ok (if wantsSummary t then (match e.summary c.neg.version c.neg.baseHash c.neg.measSpec c.neg.measHash t with
      | none => none
      | some h => if h.length = 0 then none else some h) else some []) { c with rt := { c.rt with needSummary := wantsSummary t } } := by
  unfold summaryHash wantsSummary
  by_cases h : t = .tcb ∨ t = .all
  · simp only [h, if_true, M.bind_apply, M.modify_apply, M.get_apply, decide_true]
    cases e.summary c.neg.version c.neg.baseHash c.neg.measSpec c.neg.measHash t with
    | none => rfl
    | some h => dsimp only; split <;> rfl
  · simp [h]

theorem keyExchange_prefix (bytes : Bytes) (c : Ctx) :
    (∃ st c', keyExchangeRsp e bytes c = .err st c' ∧ c'.sessions = c.sessions) ∨ keyExchangeRsp e bytes c = .panic ∨
    ∃ m req sum opaq certHash exchange final rspId, KeyExchangeValid e c bytes m req sum opaq certHash exchange final rspId ∧
      keyExchangeRsp e bytes c = (do
        Ctx.onSession 0 (M.fail .invalidStateLocal) (openDhe e (exchangeCtx c m) (joinId rspId m.reqSession) m.slot certHash final)
        keyExchangeBody e m req (joinId rspId m.reqSession) rspId exchange sum opaq) (exchangeCtx c m) := by
  unfold keyExchangeRsp
  rw [M.bind_apply]
  cases h1 : exchangeStart bytes c with
  | panic => exact .inr (.inl rfl)
  | err st c' => exact .inl ⟨st, c', rfl, (((calm_frame (rel_exchangeStart _)) c).err h1).2⟩
  | ok r c1 =>
    obtain ⟨rfl, hready, v, k, t, rfl, hv, h11, rfl⟩ := exchangeStart_ok h1
    obtain ⟨q1, q2, q3, q4, q5⟩ := reset_fields .reqKeyExchange c1
    dsimp only
    rw [M.bind_apply, M.modify_apply]
    unfold exchangeCtx
    generalize Ctx.resetBuffers .reqKeyExchange none c1 = c2 at *
    dsimp only
    rw [M.bind_apply]
    simp only [readMsg, M.bind_apply, M.get_apply, q1]
    cases h2 : KeyEx.read c1.cc ⟨t, 2⟩ with
    | panic => exact .inr (.inl (by simp [Res.read, h2, Res.lift]))
    | err u r => simp only [Res.read, h2, Res.lift]; exact .inl ⟨_, _, rfl, q4⟩
    | ok m r' =>
      simp only [Res.read, h2, Res.lift, M.pure_apply, M.bind_apply, summaryHash_eq, q5]
      generalize hsum : (if wantsSummary m.summary then (match e.summary c1.neg.version c1.neg.baseHash c1.neg.measSpec c1.neg.measHash m.summary with
        | none => none
        | some h => if h.length = 0 then none else some h) else some ([] : Bytes)) = o
      cases o with
      | none => exact .inl ⟨_, _, rfl, q4⟩
      | some sum =>
        have hs : SummaryIs e c1 m.summary sum := by
          unfold SummaryIs
          split at hsum
          · rename_i hw
            rw [if_pos hw]
            split at hsum
            · cases hsum
            · rename_i hh heq
              split at hsum
              · cases hsum
              · rename_i hl
                cases hsum
                exact ⟨heq, fun h => hl (by rw [h]; rfl)⟩
          · rename_i hw
            rw [if_neg hw]
            cases hsum; rfl
        simp only [M.ofOption_some, M.modify_apply, M.get_apply]
        have hop : ∀ c3 : Ctx, c3.neg.version = c1.neg.version → c3.neg.opaqueSupport = c1.neg.opaqueSupport →
            Opaque.respond c3.cc c2.config.secureVersions m.opaq = Opaque.respond c1.cc c1.config.secureVersions m.opaq := by
          intro c3 g1 g2
          rw [q2]
          exact respond_congr g1 g2 _ _
        rw [hop { c2 with rt := { c2.rt with needSummary := wantsSummary m.summary }, neg := { c1.neg with terminationPolicy := m.policy &&& 1 == 1 } } rfl rfl]
        cases h3 : Opaque.respond c1.cc c1.config.secureVersions m.opaq with
        | panic => exact .inr (.inl (by simp [Res.lift]))
        | err st => exact .inl ⟨_, _, rfl, q4⟩
        | ok opaq =>
          simp only [Res.lift, M.pure_apply]
          have hch : ∀ c3 : Ctx, c3.prov = c2.prov → localChain c3 m.slot = localChain c1 m.slot := by
            intro c3 g; unfold localChain; rw [g, q3]
          simp only [hch]
          cases h4 : localChain c1 m.slot with
          | none => exact .inl ⟨_, _, rfl, q4⟩
          | some chain =>
            simp only [M.ofOption_some]
            cases h5 : e.dheGen c1.neg.dhe with
            | none => exact .inr (.inl (by simp [M.unwrap_none]))
            | some p =>
              obtain ⟨exchange, f⟩ := p
              simp only [M.unwrap_some]
              cases h6 : f m.exchange with
              | none => exact .inl ⟨_, _, rfl, q4⟩
              | some final =>
                simp only [M.ofOption_some]
                have hnx : ∀ c3 : Ctx, c3.sessions = c2.sessions → c3.nextHalfId false = c1.nextHalfId false := by
                  intro c3 g; unfold Ctx.nextHalfId; rw [g, q4]
                simp only [hnx]
                cases h7 : c1.nextHalfId false with
                | panic => exact .inr (.inl rfl)
                | err st => exact .inl ⟨_, _, rfl, q4⟩
                | ok rspId =>
                  simp only [M.mapErr]
                  cases h8 : (Option.some chain).bind (e.crypto.hash c1.neg.baseHash) with
                  | none => exact .inl ⟨_, _, rfl, q4⟩
                  | some certHash =>
                    simp only [M.ofOption_some]
                    refine .inr (.inr ⟨m, List.take r'.used (v :: k :: t), sum, opaq, certHash, exchange, final, rspId,
                      ⟨hready, h11, ⟨v, k, t, r', rfl, hv, h2, rfl⟩, hs, h3, ⟨chain, h4, h8⟩, ⟨f, h5, h6⟩, nextHalfId_ok h7⟩, ?_⟩)
                    rfl

/-- the responder's context in PSK_EXCHANGE_RSP: nothing without a context, else 64 zero bytes. -/
def PskContextIs (e : Env) (c : Ctx) (context : Bytes) : Prop :=
  if c.cc.pskNoContext then (e.random 64).isSome = true ∧ context = [] else context = List.replicate 64 0

/-- everything a PSK_EXCHANGE needs before a session slot is taken. -/
structure PskExchangeValid (e : Env) (c : Ctx) (bytes : Bytes) (m : PskEx) (req sum opaq context : Bytes) (rspId : UInt16) : Prop where
  ready : ConnState.negotiated.code ≤ c.rt.state.code
  version : SpdmVersion.v11.get ≤ c.neg.version.get
  wire : ∃ v k t r', bytes = v :: k :: t ∧ SpdmVersion.ofCode v = c.neg.version ∧ PskEx.read c.cc ⟨t, 2⟩ = .ok m r' ∧ req = bytes.take r'.used
  summary : SummaryIs e c m.summary sum
  opaq : Opaque.respond c.cc c.config.secureVersions m.opaq = .ok opaq
  context : PskContextIs e c context
  id : Ctx.nextHalf false 0 c.sessions = some rspId

/-- the context when the slot is taken. -/
def pskCtx (c : Ctx) (m : PskEx) : Ctx :=
  { Ctx.resetBuffers .reqPskExchange none c with
    rt := { (Ctx.resetBuffers .reqPskExchange none c).rt with needSummary := wantsSummary m.summary }
    neg := c.neg }

theorem pskExchange_prefix (bytes : Bytes) (c : Ctx) :
    (∃ st c', pskExchangeRsp e bytes c = .err st c' ∧ c'.sessions = c.sessions) ∨ pskExchangeRsp e bytes c = .panic ∨
    ∃ m req sum opaq context rspId, PskExchangeValid e c bytes m req sum opaq context rspId ∧
      pskExchangeRsp e bytes c = (do
        Ctx.onSession 0 (M.fail .invalidStateLocal) (openPsk e (pskCtx c m) (joinId rspId m.reqSession) m.hint)
        pskExchangeBody e req (joinId rspId m.reqSession) rspId context sum opaq) (pskCtx c m) := by
  unfold pskExchangeRsp
  rw [M.bind_apply]
  cases h1 : exchangeStart bytes c with
  | panic => exact .inr (.inl rfl)
  | err st c' => exact .inl ⟨st, c', rfl, (((calm_frame (rel_exchangeStart _)) c).err h1).2⟩
  | ok r c1 =>
    obtain ⟨rfl, hready, v, k, t, rfl, hv, h11, rfl⟩ := exchangeStart_ok h1
    obtain ⟨q1, q2, q3, q4, q5⟩ := reset_fields .reqPskExchange c1
    dsimp only
    rw [M.bind_apply, M.modify_apply]
    unfold pskCtx
    generalize Ctx.resetBuffers .reqPskExchange none c1 = c2 at *
    dsimp only
    rw [M.bind_apply]
    simp only [readMsg, M.bind_apply, M.get_apply, q1]
    cases h2 : PskEx.read c1.cc ⟨t, 2⟩ with
    | panic => exact .inr (.inl (by simp [Res.read, h2, Res.lift]))
    | err u r => simp only [Res.read, h2, Res.lift]; exact .inl ⟨_, _, rfl, q4⟩
    | ok m r' =>
      simp only [Res.read, h2, Res.lift, M.pure_apply, M.bind_apply, summaryHash_eq, q5]
      generalize hsum : (if wantsSummary m.summary then (match e.summary c1.neg.version c1.neg.baseHash c1.neg.measSpec c1.neg.measHash m.summary with
        | none => none
        | some h => if h.length = 0 then none else some h) else some ([] : Bytes)) = o
      cases o with
      | none => exact .inl ⟨_, _, rfl, q4⟩
      | some sum =>
        have hs : SummaryIs e c1 m.summary sum := by
          unfold SummaryIs
          split at hsum
          · rename_i hw
            rw [if_pos hw]
            split at hsum
            · cases hsum
            · rename_i hh heq
              split at hsum
              · cases hsum
              · rename_i hl
                cases hsum
                exact ⟨heq, fun h => hl (by rw [h]; rfl)⟩
          · rename_i hw
            rw [if_neg hw]
            cases hsum; rfl
        simp only [M.ofOption_some, M.modify_apply, M.get_apply]
        have hop : ∀ c3 : Ctx, c3.neg.version = c1.neg.version → c3.neg.opaqueSupport = c1.neg.opaqueSupport →
            Opaque.respond c3.cc c2.config.secureVersions m.opaq = Opaque.respond c1.cc c1.config.secureVersions m.opaq := by
          intro c3 g1 g2
          rw [q2]
          exact respond_congr g1 g2 _ _
        have hcx : ∀ f, (Ctx.cc { c2 with neg := c1.neg, rt := { c2.rt with needSummary := f } }).pskNoContext = c1.cc.pskNoContext := fun _ => rfl
        have hnx : ∀ c3 : Ctx, c3.sessions = c2.sessions → c3.nextHalfId false = c1.nextHalfId false := by
          intro c3 g; unfold Ctx.nextHalfId; rw [g, q4]
        rw [hop { c2 with neg := c1.neg, rt := { c2.rt with needSummary := wantsSummary m.summary } } rfl rfl]
        cases h3 : Opaque.respond c1.cc c1.config.secureVersions m.opaq with
        | panic => exact .inr (.inl (by simp [Res.lift]))
        | err st => exact .inl ⟨_, _, rfl, q4⟩
        | ok opaq =>
          simp only [Res.lift, M.pure_apply, hcx, hnx]
          have fin : ∀ context rspId, PskContextIs e c1 context → c1.nextHalfId false = .ok rspId →
              PskExchangeValid e c1 (v :: k :: t) m (List.take r'.used (v :: k :: t)) sum opaq context rspId := fun context rspId h4 h7 =>
            ⟨hready, h11, ⟨v, k, t, r', rfl, hv, h2, rfl⟩, hs, h3, h4, nextHalfId_ok h7⟩
          by_cases hpc : c1.cc.pskNoContext = true
          · cases hr : e.random 64 with
            | none =>
              simp only [pskContext, hpc, if_true, Ctx.random, hr, M.bind_apply]
              exact .inl ⟨_, _, rfl, q4⟩
            | some rnd =>
              have hctx : PskContextIs e c1 [] := by unfold PskContextIs; rw [if_pos hpc]; exact ⟨by rw [hr]; rfl, rfl⟩
              simp only [pskContext, hpc, if_true, Ctx.random, hr, M.bind_apply, M.ofOption_some, M.pure_apply]
              cases h7 : c1.nextHalfId false with
              | panic => exact .inr (.inl rfl)
              | err st => exact .inl ⟨_, _, rfl, q4⟩
              | ok rspId => exact .inr (.inr ⟨m, _, sum, opaq, [], rspId, fin [] rspId hctx h7, rfl⟩)
          · have hctx : PskContextIs e c1 (List.replicate 64 0) := by unfold PskContextIs; rw [if_neg hpc]
            simp only [pskContext, hpc, if_false, M.pure_apply]
            cases h7 : c1.nextHalfId false with
            | panic => exact .inr (.inl rfl)
            | err st => exact .inl ⟨_, _, rfl, q4⟩
            | ok rspId => exact .inr (.inr ⟨m, _, sum, opaq, List.replicate 64 0, rspId, fin _ rspId hctx h7, rfl⟩)

end Rsp
end Verif
