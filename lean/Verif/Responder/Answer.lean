/-
What a packet outside a session gives: the message written by the handler, or the ERROR it asked for, is the one packet sent.
-/
import Verif.Responder.Negotiated

namespace Verif
namespace Rsp
variable {e : Env}

theorem codes_versionRsp (v : UInt8) (t : Bytes) : Codes 0x04 (Starts 0x04) (versionRsp (v :: 0x84 :: t)) := by
  intro c
  by_cases hv : v = 0x10 ∧ 2 ≤ t.length
  · obtain ⟨rfl, ht⟩ := hv
    match t, ht with
    | p1 :: p2 :: t, _ =>
      rw [M.wp, versionRsp_ok]
      exact ⟨_, _, rfl⟩
  · obtain ⟨code, c2, hf, h2⟩ := versionRsp_bad v t c hv
    rw [M.wp, h2]
    exact .inl rfl

theorem versionRsp_prov (v : UInt8) (t : Bytes) (c : Ctx) :
    (versionRsp (v :: 0x84 :: t)).wp c (fun _ c1 => c1.prov = c.prov) (fun _ c1 => c1.prov = c.prov) := by
  by_cases hv : v = 0x10 ∧ 2 ≤ t.length
  · obtain ⟨rfl, ht⟩ := hv
    match t, ht with
    | p1 :: p2 :: t, _ =>
      rw [M.wp, versionRsp_ok]
      rfl
  · obtain ⟨code, c2, hf, h2⟩ := versionRsp_bad v t c hv
    rw [M.wp, h2]
    exact hf.prov rfl

/-- the packet was processed without a failure: the message that went out, and the context left behind. -/
theorem plain_answered {x : H Bytes} {v k r : UInt8} {t rx : Bytes} {c c' : Ctx} (hp : Plain e rx (v :: k :: t))
    (hd : dispatchCode e (ReqRespCode.ofCode k) (v :: k :: t) = (do let b ← reply x; sendMessage e b))
    (hc : Codes r (Starts r) x) (hr : r ≠ 0x65) (h : processMessage e rx c = .ok true c') :
    ∃ b c1 pkt, Ctx.encap e (outgoing c1 b) = .ok pkt ∧
      ((x c = .ok b c1 ∧ c' = withState (afterState (if tooLarge c1 b then 0x7F else r) c1.rt.state) (withSent pkt c1)) ∨
       (∃ rep, x c = .err rep c1 ∧ writeError c1 rep = some b ∧ rep.pre ≠ [] ∧ Starts r b ∧
          c' = withState (afterState (if tooLarge c1 b then 0x7F else r) c1.rt.state) (withSent pkt c1)) ∨
       (∃ rep, x c = .err rep c1 ∧ rep.pre = [] ∧ b = errorBytes c1.neg.version rep.code rep.data ∧ c' = withSent pkt c1)) := by
  rw [process_plain rx hp, isOk_true, dispatch_cons, hd] at h
  simp only [M.bind_apply, reply] at h
  cases hx : x c with
  | panic => rw [hx] at h; cases h
  | ok b c1 =>
    rw [hx] at h
    obtain ⟨pkt, h1, _, h3⟩ := (sendMessage_wp (e := e) ((hc c).ok hx) hr c1).ok h
    exact ⟨b, c1, pkt, h1, .inl ⟨rfl, h3⟩⟩
  | err rep c1 =>
    rw [hx] at h
    dsimp only at h
    cases hw : writeError c1 rep with
    | none => rw [hw] at h; cases h
    | some b =>
      rw [hw] at h
      dsimp only at h
      by_cases hn : rep.pre = []
      · have hb := writeError_nil c1 rep hn
        rw [hw] at hb
        cases hb
        obtain ⟨pkt, h1, _, h3⟩ := (sendMessage_error_wp (e := e) (starts_error c1.neg.version rep.code rep.data) c1).ok h
        exact ⟨_, c1, pkt, h1, .inr (.inr ⟨rep, rfl, hn, rfl, h3⟩)⟩
      · have hcl := (hc c).err hx
        have hs : Starts r b := by
          rcases hcl with g | g
          · exact absurd g hn
          · exact g.of_prefix (writeError_pre hw)
        obtain ⟨pkt, h1, _, h3⟩ := (sendMessage_wp (e := e) hs hr c1).ok h
        exact ⟨b, c1, pkt, h1, .inr (.inl ⟨rep, rfl, hw, hn, hs, h3⟩)⟩

/-- a message that fits and that the transport and the device take is delivered. -/
theorem sendMessage_delivers {b pkt : Bytes} {code : UInt8} {c : Ctx} (hb : Starts code b) (hc : code ≠ 0x65) (ht : tooLarge c b = false)
    (he : Ctx.encap e b = .ok pkt) (hs : e.send c.sent.length pkt = none) :
    sendMessage e b c = .ok () (withState (afterState code c.rt.state) (withSent pkt c)) := by
  unfold sendMessage
  rw [M.bind_apply, M.get_apply]
  simp only [ht, Bool.false_eq_true, if_false]
  unfold sendPlain
  rw [M.bind_apply, he]
  simp only [Res.lift, M.pure_apply]
  rw [M.bind_apply]
  unfold Ctx.devSend
  simp only [M.bind_apply, M.get_apply, M.set_apply, hs, M.pure_apply, hb.get]
  exact afterSend_eq code hc _

/-- a packet whose handler succeeds with a message that is delivered. -/
theorem plain_delivers {x : H Bytes} {v k r : UInt8} {t rx b pkt : Bytes} {c c1 : Ctx} (hp : Plain e rx (v :: k :: t))
    (hd : dispatchCode e (ReqRespCode.ofCode k) (v :: k :: t) = (do let b ← reply x; sendMessage e b)) (hx : x c = .ok b c1)
    (hb : Starts r b) (hr : r ≠ 0x65) (ht : tooLarge c1 b = false) (he : Ctx.encap e b = .ok pkt) (hs : e.send c1.sent.length pkt = none) :
    processMessage e rx c = .ok true (withState (afterState r c1.rt.state) (withSent pkt c1)) := by
  rw [process_plain rx hp, isOk_true, dispatch_cons, hd]
  simp only [M.bind_apply, reply, hx]
  exact sendMessage_delivers hb hr ht he hs

/-- whatever becomes of the packet: the context left behind is what the handler left, up to the connection state and the packets sent. -/
theorem plain_left {x : H Bytes} {v k r : UInt8} {t rx : Bytes} {c c' : Ctx} (hp : Plain e rx (v :: k :: t))
    (hd : dispatchCode e (ReqRespCode.ofCode k) (v :: k :: t) = (do let b ← reply x; sendMessage e b))
    (hc : Codes r (Starts r) x) (hr : r ≠ 0x65) (h : (∃ b, processMessage e rx c = .ok b c') ∨ processMessage e rx c = .err () c') :
    ∃ c1 st sent, ((∃ b, x c = .ok b c1) ∨ ∃ rep, x c = .err rep c1) ∧ c' = { c1 with rt := { c1.rt with state := st }, sent := sent } := by
  have hsend : ∀ (c1 : Ctx) (b : Bytes) (code : UInt8), Starts code b → code ≠ 0x65 →
      (sendMessage e b).wp c1 (fun _ c' => ∃ st sent, c' = { c1 with rt := { c1.rt with state := st }, sent := sent })
        (fun _ c' => ∃ st sent, c' = { c1 with rt := { c1.rt with state := st }, sent := sent }) := by
    intro c1 b code hb hcode
    refine (sendMessage_wp hb hcode c1).mono ?_ ?_
    · rintro _ _ ⟨pkt, _, _, rfl⟩; exact ⟨_, _, rfl⟩
    · rintro _ _ (rfl | ⟨pkt, _, rfl⟩) <;> exact ⟨_, _, rfl⟩
  have hd' : (do let b ← reply x; sendMessage e b : M Status Ctx Unit).wp c
      (fun _ c' => ∃ c1 st sent, ((∃ b, x c = .ok b c1) ∨ ∃ rep, x c = .err rep c1) ∧ c' = { c1 with rt := { c1.rt with state := st }, sent := sent })
      (fun _ c' => ∃ c1 st sent, ((∃ b, x c = .ok b c1) ∨ ∃ rep, x c = .err rep c1) ∧ c' = { c1 with rt := { c1.rt with state := st }, sent := sent }) := by
    rw [M.wp_bind, M.wp, reply]
    cases hx : x c with
    | panic => trivial
    | ok b c1 =>
      refine (hsend c1 b r ((hc c).ok hx) hr).mono ?_ ?_ <;>
      · rintro _ _ ⟨st, sent, rfl⟩; exact ⟨c1, st, sent, .inl ⟨b, rfl⟩, rfl⟩
    | err rep c1 =>
      dsimp only
      cases hw : writeError c1 rep with
      | none => trivial
      | some b =>
        dsimp only
        have hb : ∃ code, Starts code b ∧ code ≠ 0x65 := by
          rcases (hc c).err hx with g | g
          · have := writeError_nil c1 rep g
            rw [hw] at this; cases this
            exact ⟨0x7F, starts_error _ _ _, by decide⟩
          · exact ⟨r, g.of_prefix (writeError_pre hw), hr⟩
        obtain ⟨code, hb, hcode⟩ := hb
        refine (hsend c1 b code hb hcode).mono ?_ ?_ <;>
        · rintro _ _ ⟨st, sent, rfl⟩; exact ⟨c1, st, sent, .inr ⟨rep, rfl⟩, rfl⟩
  rw [process_plain rx hp] at h
  unfold isOk at h
  rw [dispatch_cons, hd] at h
  generalize (do let b ← reply x; sendMessage e b : M Status Ctx Unit) = y at *
  cases hy : y c with
  | panic => rw [hy] at h; rcases h with ⟨_, h⟩ | h <;> cases h
  | ok a c2 => rw [hy] at h; rcases h with ⟨_, h⟩ | h <;> cases h; exact hd'.ok hy
  | err a c2 => rw [hy] at h; rcases h with ⟨_, h⟩ | h <;> cases h; exact hd'.err hy

end Rsp
end Verif
