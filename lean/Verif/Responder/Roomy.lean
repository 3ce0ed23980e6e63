/-
The two transports of the repository stay inside their buffers.
-/
import Verif.Responder.Sound
import Verif.Props.Transport

namespace Verif
open M Res
namespace Rsp

theorem safe_intoBuf {x : M Status Bytes Nat} {cap : Nat} (h : (∃ n buf, x (List.replicate cap 0) = .ok n buf ∧ n ≤ cap) ∨ ∃ r buf, x (List.replicate cap 0) = .err r buf) :
    Safe (Ctx.intoBuf x cap) := by
  intro hc
  unfold Ctx.intoBuf at hc
  rcases h with ⟨n, buf, hx, hn⟩ | ⟨r, buf, hx⟩
  · rw [hx] at hc
    dsimp only at hc
    rw [if_pos hn] at hc
    cases hc
  · rw [hx] at hc
    cases hc

theorem safe_intoBuf2 {x : M Status Bytes (Nat × Bool)} {cap : Nat}
    (h : (∃ n f buf, x (List.replicate cap 0) = .ok (n, f) buf ∧ n ≤ cap) ∨ ∃ r buf, x (List.replicate cap 0) = .err r buf) : Safe (Ctx.intoBuf2 x cap) := by
  intro hc
  unfold Ctx.intoBuf2 at hc
  rcases h with ⟨n, f, buf, hx, hn⟩ | ⟨r, buf, hx⟩
  · rw [hx] at hc
    dsimp only at hc
    rw [if_pos hn] at hc
    cases hc
  · rw [hx] at hc
    cases hc

theorem intoBuf_len {x : M Status Bytes Nat} {cap n : Nat} {buf b : Bytes} (hx : x (List.replicate cap 0) = .ok n buf) (h : Ctx.intoBuf x cap = .ok b) : b.length ≤ n := by
  unfold Ctx.intoBuf at h
  rw [hx] at h
  dsimp only at h
  by_cases hn : n ≤ cap
  · rw [if_pos hn] at h
    cases h
    simp only [List.length_take]
    omega
  · rw [if_neg hn] at h
    cases h

theorem mctp_encap (msg : Bytes) (sec : Bool) (cap : Nat) : Safe (Ctx.intoBuf (Mctp.encap msg sec) cap) := by
  refine safe_intoBuf ?_
  have h := Props.C12_encap msg sec (List.replicate cap 0)
  rw [List.length_replicate] at h
  by_cases hl : 1 + msg.length ≤ cap
  · exact .inl ⟨_, _, h.1 hl, hl⟩
  · obtain ⟨b, hb⟩ := h.2 (by omega)
    exact .inr ⟨_, _, hb⟩

theorem mctp_decap (rx : Bytes) (cap : Nat) : Safe (Ctx.intoBuf2 (Mctp.decap rx) cap) := by
  refine safe_intoBuf2 ?_
  rcases Props.C12_decap rx (List.replicate cap 0) with ⟨t, m, _, _, h2, h3⟩ | ⟨_, h⟩
  · rw [List.length_replicate] at h2
    exact .inl ⟨_, _, _, h3, h2⟩
  · exact .inr ⟨_, _, h⟩

theorem mctp_decapApp (rx : Bytes) (cap : Nat) : Safe (Ctx.intoBuf2 (Mctp.decapApp rx) cap) := by
  refine safe_intoBuf2 ?_
  rcases Props.C12_decap_app rx (List.replicate cap 0) with ⟨t, m, _, _, h2, h3⟩ | ⟨_, h⟩
  · rw [List.length_replicate] at h2
    exact .inl ⟨_, _, _, h3, h2⟩
  · exact .inr ⟨_, _, h⟩

theorem mctp_encapApp (msg : Bytes) (a : Bool) (cap : Nat) (hl : 1 + msg.length ≤ cap) :
    Safe (Ctx.intoBuf (Mctp.encapApp msg a) cap) ∧ ∀ b, Ctx.intoBuf (Mctp.encapApp msg a) cap = .ok b → b.length ≤ 1 + msg.length := by
  have h := Mctp.encapApp_eq msg a (List.replicate cap 0)
  rw [List.length_replicate, if_pos hl] at h
  exact ⟨safe_intoBuf (.inl ⟨_, _, h, hl⟩), fun b hb => intoBuf_len h hb⟩

/-- MCTP: every plaintext that fits a receive buffer is fine. -/
theorem roomy_mctp : Roomy Mctp.transport 4160 := by
  refine ⟨fun msg sec _ => mctp_encap msg sec _, fun rx _ => mctp_decap rx _, fun msg a h => ?_, fun app _ _ => mctp_decapApp app _⟩
  obtain ⟨h1, h2⟩ := mctp_encapApp msg a 4160 (by omega)
  exact ⟨h1, fun b hb => by have := h2 b hb; omega⟩

theorem doe_encap (msg : Bytes) (sec : Bool) (cap : Nat) (hl : msg.length ≤ 5000) : Safe (Ctx.intoBuf (PciDoe.encap msg sec) cap) := by
  refine safe_intoBuf ?_
  have hp : Props.PaddedLen msg.length (PciDoe.aligned msg.length) := Props.paddedLen_iff.2 rfl
  have h := Props.C13_encap msg sec (List.replicate cap 0) _ hp (by unfold Props.PaddedLen at hp; omega)
  rw [List.length_replicate] at h
  by_cases hc : 8 + PciDoe.aligned msg.length ≤ cap
  · obtain ⟨b, hb, _⟩ := h.1 hc
    exact .inl ⟨_, _, hb, hc⟩
  · obtain ⟨b, hb⟩ := h.2 (by omega)
    exact .inr ⟨_, _, hb⟩

theorem doe_decap (rx : Bytes) (cap : Nat) : Safe (Ctx.intoBuf2 (PciDoe.decap rx) cap) := by
  refine safe_intoBuf2 ?_
  rcases Props.C13_decap rx (List.replicate cap 0) with ⟨_, _, _, b, _, _, _, h2, h3⟩ | h
  · rw [List.length_replicate] at h2
    exact .inl ⟨_, _, _, h3, h2⟩
  · exact .inr ⟨_, _, h⟩

theorem doe_app (msg : Bytes) (a : Bool) (cap : Nat) (hl : msg.length ≤ cap) :
    (Safe (Ctx.intoBuf (PciDoe.encapApp msg a) cap) ∧ ∀ b, Ctx.intoBuf (PciDoe.encapApp msg a) cap = .ok b → b.length ≤ msg.length) ∧
    Safe (Ctx.intoBuf2 (PciDoe.decapApp msg) cap) := by
  obtain ⟨h1, h2⟩ := Props.C13_app_round_trip msg a (List.replicate cap 0) (List.replicate cap 0) (by rw [List.length_replicate]; exact hl) (by rw [List.length_replicate]; exact hl)
  exact ⟨⟨safe_intoBuf (.inl ⟨_, _, h1, hl⟩), fun b hb => intoBuf_len h1 hb⟩, safe_intoBuf2 (.inl ⟨_, _, _, h2, hl⟩)⟩

/-- PCI DOE: fine as long as a record carries at most 4096 bytes of plaintext. -/
theorem roomy_doe : Roomy PciDoe.transport 4096 := by
  refine ⟨fun msg sec h => doe_encap msg sec _ (by omega), fun rx _ => doe_decap rx _, fun msg a h => ?_, fun app h _ => (doe_app app true msgSize (by unfold msgSize; exact h)).2⟩
  obtain ⟨h1, h2⟩ := (doe_app msg a 4160 (by omega)).1
  exact ⟨h1, fun b hb => by have := h2 b hb; omega⟩

end Rsp
end Verif
