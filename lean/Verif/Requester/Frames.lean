/-
A sealed packet carries one message only: for both transport bindings, whatever the AEAD.
-/
import Verif.Requester.LinkedSec

namespace Verif
open Rsp Req

/-- how a transport frames records and messages: a header of fixed size, and padding behind records. -/
structure Frames (tr : Transport) : Prop where
  record : ∃ n : Nat, ∀ r pkt, Ctx.intoBuf (tr.encap r true) 4160 = .ok pkt → ∃ h pad : Bytes, h.length = n ∧ pkt = h ++ (r ++ pad)
  message : ∃ h : Bytes, ∀ m a, Ctx.intoBuf (tr.encapApp m false) 4160 = .ok a → a = h ++ m

theorem frames_mctp : Frames Mctp.transport where
  record := ⟨1, fun r pkt h => by
    obtain ⟨n, buf, he, hn, rfl⟩ := intoBuf_ok h
    generalize (4160 : Nat) = sz at *
    have he : Mctp.encap r true (List.replicate sz 0) = .ok n buf := he
    rw [Mctp.encap_eq] at he
    split at he
    · have hnb := Out.ok.inj he
      refine ⟨[6], [], rfl, ?_⟩
      rw [← hnb.1, ← hnb.2]
      simp [Nat.add_comm 1]
    · split at he <;> cases he⟩
  message := ⟨[5], fun m a h => by
    obtain ⟨n, buf, he, hn, rfl⟩ := intoBuf_ok h
    generalize (4160 : Nat) = sz at *
    have he : Mctp.encapApp m false (List.replicate sz 0) = .ok n buf := he
    rw [Mctp.encapApp_eq] at he
    split at he
    · have hnb := Out.ok.inj he
      rw [← hnb.1, ← hnb.2]
      simp [Nat.add_comm 1]
    · split at he <;> cases he⟩

theorem frames_doe : Frames PciDoe.transport where
  record := ⟨8, fun m pkt h => by
    obtain ⟨n, buf, he, hn, rfl⟩ := intoBuf_ok h
    have hsz : (4160 : Nat) ≤ 5000 := by decide
    generalize (4160 : Nat) = sz at *
    have he : PciDoe.encap m true (List.replicate sz 0) = .ok n buf := he
    have hm : PciDoe.aligned m.length ≤ sz := by
      have he' := he
      unfold PciDoe.encap at he'
      obtain ⟨hs, b1, _, he2⟩ := M.bind_ok.1 he'
      obtain ⟨b2, b3, hg, he3⟩ := M.bind_ok.1 he2
      obtain ⟨_, he4⟩ := M.guard_ok.1 he3
      obtain ⟨_, b4, _, he5⟩ := M.bind_ok.1 he4
      have := (M.pure_ok.1 he5).1
      omega
    have hge := PciDoe.aligned_ge m.length
    by_cases hf : 8 + PciDoe.aligned m.length ≤ sz
    · have hx := PciDoe.encap_eq m true (List.replicate sz 0) (by omega) (by rw [List.length_replicate]; exact hf)
      rw [he] at hx
      have hnb := Out.ok.inj hx
      refine ⟨PciDoe.header (PciDoe.aligned m.length) true, List.replicate (PciDoe.aligned m.length - m.length) 0, by simp, ?_⟩
      rw [hnb.1, hnb.2, List.append_assoc, List.take_append, List.take_append]
      rw [List.take_of_length_le (l := PciDoe.header _ _) (by simp), List.take_of_length_le (l := m) (by simp; omega)]
      rw [List.drop_replicate, List.take_replicate, PciDoe.header_length,
        show min (8 + PciDoe.aligned m.length - 8 - m.length) (sz - (8 + m.length)) = PciDoe.aligned m.length - m.length by omega]
    · obtain ⟨b', hb', _⟩ := PciDoe.encap_short m true (List.replicate sz 0) (by omega) (by rw [List.length_replicate]; omega)
      rw [he] at hb'; cases hb'⟩
  message := ⟨[], fun m a h => by
    obtain ⟨n, buf, he, hn, rfl⟩ := intoBuf_ok h
    generalize (4160 : Nat) = sz at *
    have he : PciDoe.encapApp m false (List.replicate sz 0) = .ok n buf := he
    obtain ⟨_, b1, g1, g2⟩ := M.bind_ok.1 he
    obtain ⟨g3, rfl⟩ := M.pure_ok.1 g2
    obtain ⟨-, rfl⟩ := copyAt_zero g1
    rw [← g3, List.take_left' rfl]
    rfl⟩

namespace Rsp

/-- a sealed packet carries only one message. -/
def SealLaw (e : Env) : Prop := ∀ s m m' pkt, SealedBy e s m pkt → SealedBy e s m' pkt → m = m'

theorem sealLaw_of {e : Env} (hc : e.crypto.AeadLaws) (ht : Frames e.tr) : SealLaw e := by
  rintro s m m' pkt ⟨app, rec, a1, a2, a3⟩ ⟨app', rec', b1, b2, b3⟩
  obtain ⟨n, hn⟩ := ht.record
  obtain ⟨hd, hm⟩ := ht.message
  obtain ⟨h1, p1, l1, e1⟩ := hn _ _ a3
  obtain ⟨h2, p2, l2, e2⟩ := hn _ _ b3
  have he : h1 ++ (rec ++ p1) = h2 ++ (rec' ++ p2) := e1.symm.trans e2
  have hr := (List.append_inj he (l1.trans l2.symm)).2
  rw [Session.encodeMsg_ok] at a2 b2
  obtain ⟨-, -, -, q1, -, ct, tag, c1, c2, c3, rfl⟩ := a2
  obtain ⟨-, -, -, q2, -, ct', tag', d1, d2, d3, rfl⟩ := b2
  simp only [List.append_assoc] at hr
  obtain ⟨r1, r2⟩ := List.append_inj hr (by simp)
  have hlen : app.length = app'.length := by
    unfold Session.header at r1
    have r3 := (List.append_inj r1 rfl).2
    have r4 := (List.append_inj r3 (by simp)).2
    have hput : ∀ v w : UInt16, putU16 v = putU16 w → v = w := by
      intro v w h
      have h1 := rdU16_put v [] 0
      have h2 := rdU16_put w [] 0
      rw [h] at h1
      have := h1.symm.trans h2
      cases this
      rfl
    have r6 := hput _ _ r4
    unfold Session.recLen at r6
    have r7 := congrArg UInt16.toNat r6
    unfold Session.bufSize at q1 q2
    simp only [UInt16.toNat_add, UInt16.toNat_ofNat'] at r7
    omega
  obtain ⟨r3, r4⟩ := List.append_inj r2 (by omega)
  obtain ⟨r5, -⟩ := List.append_inj r4 (by omega)
  subst r3 r5
  have o1 := hc.open_seal _ _ _ _ _ _ _ c1
  have o2 := hc.open_seal _ _ _ _ _ _ _ d1
  rw [← r1] at o2
  have := Option.some.inj (o1.symm.trans o2)
  have happ := (List.append_inj this (by simp [putU16])).2
  have k1 := hm _ _ a1
  have k2 := hm _ _ b1
  rw [k1, k2] at happ
  exact List.append_cancel_left happ

end Rsp
end Verif
