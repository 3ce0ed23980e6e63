/-
The two transports deliver every plain message.
-/
import Verif.Requester.Complete

namespace Verif
namespace Req
open Rsp

/-- Every plain message of up to 4096 bytes can be sent, and comes out of a buffer of 4096 bytes, possibly padded. -/
def Wires (tr : Transport) : Prop := ∀ m : Bytes, m.length ≤ 4096 → ∃ pkt pad, Ctx.intoBuf (tr.encap m false) 4160 = .ok pkt ∧ pkt.length ≤ 4160 ∧
  Ctx.intoBuf2 (tr.decap pkt) 4096 = .ok (m ++ pad, false)

theorem wires_mctp : Wires Mctp.transport := by
  intro m hm
  obtain ⟨hs1, hs2⟩ : (4160 : Nat) ≤ 5000 ∧ (4096 : Nat) + 64 ≤ 4160 := by decide
  unfold Ctx.intoBuf
  generalize (4160 : Nat) = sz at *
  generalize (4096 : Nat) = cap at *
  have hx := (Props.C12_encap m false (List.replicate sz 0)).1 (by rw [List.length_replicate]; omega)
  have hx' : Mctp.transport.encap m false (List.replicate sz 0) = _ := hx
  refine ⟨5 :: m, [], ?_, by simp; omega, intoBuf2_ok.2 ?_⟩
  · rw [hx']
    dsimp only
    rw [if_pos (by omega)]
    congr 1
    simp [Nat.add_comm 1]
  · rcases Props.C12_decap (5 :: m) (List.replicate cap 0) with ⟨t, m', g1, _, g2, g3⟩ | ⟨g, _⟩
    · cases g1
      exact ⟨_, _, g3, by rw [List.length_replicate] at g2; exact g2, by rw [List.take_left' rfl, List.append_nil]⟩
    · have := g 5 m rfl (.inl rfl)
      rw [List.length_replicate] at this
      omega

theorem wires_doe : Wires PciDoe.transport := by
  intro m hm
  have hal : PciDoe.aligned m.length ≤ 4096 := by unfold PciDoe.aligned; omega
  obtain ⟨hs1, hs2⟩ : (4160 : Nat) ≤ 5000 ∧ (4096 : Nat) + 64 ≤ 4160 := by decide
  have hge := PciDoe.aligned_ge m.length
  unfold Ctx.intoBuf
  generalize (4160 : Nat) = sz at *
  generalize (4096 : Nat) = cap at *
  have hx := PciDoe.encap_eq m false (List.replicate sz 0) (by omega) (by rw [List.length_replicate]; omega)
  have hx' : PciDoe.transport.encap m false (List.replicate sz 0) = _ := hx
  obtain ⟨pad, hpl, hframe⟩ : ∃ pad : Bytes, pad.length = PciDoe.aligned m.length - m.length ∧
      (PciDoe.header (PciDoe.aligned m.length) false ++ m ++ (List.replicate sz (0 : UInt8)).drop (8 + m.length)).take (8 + PciDoe.aligned m.length) =
        1 :: 0 :: 1 :: 0 :: (putU32 (PciDoe.lenField (PciDoe.aligned m.length)) ++ (m ++ pad)) := by
    refine ⟨List.replicate (PciDoe.aligned m.length - m.length) 0, by simp, ?_⟩
    rw [List.append_assoc, List.take_append, List.take_append]
    rw [List.take_of_length_le (l := PciDoe.header _ _) (by simp), List.take_of_length_le (l := m) (by simp; omega)]
    rw [List.drop_replicate, List.take_replicate, PciDoe.header_length,
      show min (8 + PciDoe.aligned m.length - 8 - m.length) (sz - (8 + m.length)) = PciDoe.aligned m.length - m.length by omega]
    rfl
  have hlen : (m ++ pad).length = PciDoe.aligned m.length := by rw [List.length_append]; omega
  refine ⟨1 :: 0 :: 1 :: 0 :: (putU32 (PciDoe.lenField (PciDoe.aligned m.length)) ++ (m ++ pad)), pad, ?_, ?_, intoBuf2_ok.2
    ⟨PciDoe.aligned m.length, m ++ pad ++ List.replicate (cap - PciDoe.aligned m.length) 0, ?_, hal, ?_⟩⟩
  · rw [hx']
    dsimp only
    rw [if_pos (by omega), hframe]
  · simp only [List.length_cons, List.length_append, putU32, List.length_nil] at hlen ⊢
    omega
  · refine (PciDoe.decap_eq 1 0 1 0 _ (m ++ pad) _).trans ?_
    have hd : PciDoe.declared (PciDoe.lenField (PciDoe.aligned m.length)) = PciDoe.aligned m.length :=
      PciDoe.declared_lenField (by omega) (PciDoe.aligned_mod _)
    have h1 : (PciDoe.lenField (PciDoe.aligned m.length)).toNat % 0x40000 ≠ 1 := by
      unfold PciDoe.lenField
      rw [if_neg (by omega), UInt32.toNat_ofNat', Nat.mod_eq_of_lt (a := (PciDoe.aligned m.length + 8) / 4) (by omega)]
      have := PciDoe.aligned_mod m.length
      by_cases hz : PciDoe.aligned m.length = 0
      · rw [hz]; decide
      · omega
    rw [hd, if_pos ⟨h1, rfl, rfl, .inl rfl, by omega, by rw [List.length_replicate]; exact hal⟩, List.drop_replicate,
      List.take_of_length_le (by omega)]
    rfl
  · rw [List.take_left' hlen]

/-- A requester and a responder on the same transport, nothing in between and nothing lost. -/
theorem delivers_peer {e f : Env} {r0 : Ctx} (htr : e.tr = f.tr) (h : Carries f.tr) (hw : Wires f.tr) (he : ∀ n p, e.send n p = none) (hf : ∀ n p, f.send n p = none) :
    Delivers { e with recv := peer f r0 } f r0 where
  toLinked := linked_peer htr h
  sendable m hm := by
    obtain ⟨pkt, pad, h1, _⟩ := hw m hm
    refine ⟨pkt, ?_⟩
    show Ctx.intoBuf (e.tr.encap m false) 4160 = _
    rw [htr]; exact h1
  repliable m hm := by
    obtain ⟨pkt, pad, h1, h2, h3⟩ := hw m hm
    refine ⟨pkt, pad, h1, h2, ?_⟩
    show Ctx.decap e pkt 4096 = _
    unfold Ctx.decap
    rw [htr, h3]
    rfl
  sends := he
  replies := hf
  received sent rx rc rc' p h1 h2 h3 := by
    show peer f r0 (sent ++ [rx]) = some p
    unfold peer
    rw [List.getLast?_append, List.dropLast_concat]
    simp only [List.getLast?_singleton, Option.some_or]
    rw [h1]
    dsimp only
    rw [h2]
    dsimp only
    rw [h3, List.getLast?_append]
    simp

end Req
end Verif
