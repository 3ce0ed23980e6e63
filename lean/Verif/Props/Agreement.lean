/-
C41: a requester and a responder that talk to each other agree on what they negotiated.
-/
import Verif.Requester.Connect
import Verif.Requester.Peer
import Verif.Spec.ToyReq
import Verif.Props.ReqAuth

namespace Verif.Props
open Verif Req

variable {e : REnv} {f : Env} {r0 : Ctx}

theorem negotiate_fits {c c' : Ctx} {u : Unit} (h : negotiateAlgorithms e c = .ok u c') : c'.rt.messageA.length ≤ 156 := by
  obtain ⟨_, c0, _, h1⟩ := M.bind_ok.1 h
  obtain ⟨_, c01, _, h01⟩ := M.bind_ok.1 h1
  obtain ⟨req, c1, _, h3⟩ := M.bind_ok.1 h01
  obtain ⟨bytes, c2, _, h5⟩ := M.bind_ok.1 h3
  obtain ⟨r, c3, _, h10⟩ := M.bind_ok.1 h5
  obtain ⟨⟨m, rsp⟩, c4, _, h12⟩ := M.bind_ok.1 h10
  obtain ⟨c40, c41, h40, h41⟩ := M.bind_ok.1 h12
  cases h40
  obtain ⟨_, c5, h14, h15⟩ := M.bind_ok.1 h41
  cases h14
  by_cases ht : (takeAlgs m c4.neg).2 = false
  · have h15' := h15
    rw [if_pos (by exact ht)] at h15'
    cases h15'
  · rw [if_neg (by exact ht)] at h15
    obtain ⟨_, c6, _, h17⟩ := M.bind_ok.1 h15
    obtain ⟨hl, rfl⟩ := Rsp.appendA_ok h17
    simpa using hl

theorem config_kept (hf : Rsp.HashLaw f) {c c' : Ctx} {l : List Bytes} (h : Toy.runAll f c l = some c') : c'.config = c.config := by
  have hr := runAll_run (c0 := c) l .nil h
  refine Rsp.Run.induct (P := fun _ c' => c'.config = c.config) rfl ?_ hr ?_
  · intro _ _ _ c1 c2 _ _ hc hs
    rcases hs with rfl | ⟨_, _, _, _, hs⟩ | ⟨_, _, _, hs⟩
    · exact hc
    · exact hs.config.trans hc
    · exact hs.config.trans hc
  · intro p hp
    simp only [List.nil_append, List.mem_map] at hp
    obtain ⟨_, _, rfl⟩ := hp
    exact hf

/-- The responder `rc` and the requester `c` agree: same version, capabilities, sizes, algorithms and formats, and the same record of the
negotiation, byte for byte.  In SPDM 1.0 GET_CAPABILITIES carries no flags and no CTExponent, so the responder has none for the requester. -/
structure Agree (rc c : Ctx) : Prop where
  neg : rc.neg = if 0x11 ≤ c.neg.version.get then c.neg else { c.neg with reqCaps := 0, reqCt := 0 }
  transcript : rc.rt.messageA = c.rt.messageA

/-- A requester that has not negotiated before and whose `init_connection` succeeds against this responder agrees with it on everything that was
negotiated, whatever the two configurations, whatever either side did before, and whatever the transport does to packets that are not
answered. -/
theorem C41_connect (hl : Linked e f r0) (hf : Rsp.HashLaw f) (c c' : Ctx) (hn : c.neg = {}) (hq : DefinedBits c.config) (hr : DefinedBits r0.config)
    (h : initConnection e c = .ok () c') :
    ∃ rc, Toy.runAll f r0 c'.sent = some rc ∧ rc.rt.state = .negotiated ∧ Agree rc c' := by
  obtain ⟨_, c1, h1, z1⟩ := M.bind_ok.1 h
  obtain ⟨_, c2, h2, h3⟩ := M.bind_ok.1 z1
  have hfit := negotiate_fits h3
  obtain ⟨rc1, a1, a2, a3, a4, ⟨v, a5⟩, a6⟩ := linked_version hl h1
  have hrc : rc1.config = r0.config := by
    exact config_kept hf a1
  have hfit2 : c2.rt.messageA.length ≤ 156 := by
    obtain ⟨_, _, _, _, _, _, _, _, _, _, _, _, _, h5⟩ := negotiateAlgorithms_ok h3
    rw [h5] at hfit
    simp only [List.length_append] at hfit
    omega
  obtain ⟨rc2, b1, b2, b3, b4, b5, b6, b7⟩ := linked_capabilities hl h2 a1 a2 a3 a4 ⟨v, by rw [a5, hn]⟩ (by rw [a6]; exact hq.reqCaps)
    (by rw [hrc]; exact hr.rspCaps) hfit2
  have hv2 : c2.neg.version = c1.neg.version := by rw [b7]; rfl
  obtain ⟨rc3, d1, d2, d3, d4, d5, d6, d7, _⟩ := linked_algorithms hl h3 b1 b2 b3 b4 (by rw [hv2, b6, b5]; exact b7) (by rw [b6, a6]; exact hq)
    (by rw [b5, hrc]; exact hr) hfit
  exact ⟨rc3, d1, d3, d2, d4⟩

/-- Two endpoints on MCTP, or on PCI DOE, with nothing in between, are linked in the sense of `C41_connect`, whatever else their environments do. -/
theorem C41_mctp (e f : Env) (r0 : Ctx) : Linked { e with tr := Mctp.transport, recv := peer { f with tr := Mctp.transport } r0 } { f with tr := Mctp.transport } r0 :=
  linked_peer (e := { e with tr := Mctp.transport }) rfl carries_mctp

theorem C41_pcidoe (e f : Env) (r0 : Ctx) :
    Linked { e with tr := PciDoe.transport, recv := peer { f with tr := PciDoe.transport } r0 } { f with tr := PciDoe.transport } r0 :=
  linked_peer (e := { e with tr := PciDoe.transport }) rfl carries_doe

/-! The hypotheses are met by the concrete responder and requester, over MCTP and over PCI DOE. -/

/-- the concrete environment on transport `t`. -/
def onWire (t : Transport) : Env := { Toy.menv with tr := t }

theorem onWire_hashLaw (t : Transport) : Rsp.HashLaw (onWire t) := fun h => toy_hashLaw h

theorem toy_bits : DefinedBits Toy.req0.config ∧ DefinedBits Toy.rsp0.config := by
  constructor <;> constructor <;> decide

/-- the hypotheses of `C41_connect`, met by a run over transport `t` that negotiates SPDM 1.2. -/
def connects (t : Transport) : Prop :=
  Linked { onWire t with recv := peer (onWire t) Toy.rsp0 } (onWire t) Toy.rsp0 ∧ Rsp.HashLaw (onWire t) ∧ Toy.req0.neg = {} ∧
    DefinedBits Toy.req0.config ∧ DefinedBits Toy.rsp0.config ∧
    (match initConnection { onWire t with recv := peer (onWire t) Toy.rsp0 } Toy.req0 with
      | .ok () c' => some (c'.sent.length, c'.neg.version.get, c'.neg.baseHash, c'.neg.dhe, c'.rt.messageA.length) | _ => none) = some (3, 0x12, 1, 8, 156)

example : connects Mctp.transport :=
  ⟨linked_peer rfl carries_mctp, onWire_hashLaw _, rfl, toy_bits.1, toy_bits.2, by decide +kernel⟩

example : connects PciDoe.transport :=
  ⟨linked_peer rfl carries_doe, onWire_hashLaw _, rfl, toy_bits.1, toy_bits.2, by decide +kernel⟩

end Verif.Props
