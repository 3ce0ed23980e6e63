/-
A responder at the other end of the requester's transport.
-/
import Verif.Requester.Linked
import Verif.Props.Transport

namespace Verif
namespace Req
open Rsp

/-- A plain message that a 4160-byte sender buffer takes comes out of the transport as it went in, possibly followed by padding. -/
def Carries (tr : Transport) : Prop := ∀ m pkt, Ctx.intoBuf (tr.encap m false) 4160 = .ok pkt →
  (∃ pad, Ctx.intoBuf2 (tr.decap pkt) 4160 = .ok (m ++ pad, false)) ∧
    ∀ cap bytes, Ctx.intoBuf2 (tr.decap pkt) cap = .ok (bytes, false) → ∃ pad, bytes = m ++ pad

/-- What the responder `f`, started in `r0` and given the packets `l`, sends in answer to the last of them. -/
def peer (f : Env) (r0 : Ctx) (l : List Bytes) : Option Bytes :=
  match l.getLast? with
  | none => none
  | some rx =>
    match Toy.runAll f r0 l.dropLast with
    | none => none
    | some rc =>
      match processMessage f rx rc with
      | .ok true rc' =>
        match rc'.sent.getLast? with
        | none => none
        | some p => if rc'.sent = rc.sent ++ [p] then some p else none
      | _ => none

theorem peer_answers {f : Env} {r0 : Ctx} {sent : List Bytes} {rx p : Bytes} (h : peer f r0 (sent ++ [rx]) = some p) :
    ∃ rc rc', Toy.runAll f r0 sent = some rc ∧ processMessage f rx rc = .ok true rc' ∧ rc'.sent = rc.sent ++ [p] := by
  unfold peer at h
  rw [List.getLast?_append, List.dropLast_concat] at h
  simp only [List.getLast?_singleton, Option.some_or] at h
  cases h1 : Toy.runAll f r0 sent with
  | none => rw [h1] at h; cases h
  | some rc =>
    rw [h1] at h
    dsimp only at h
    cases h2 : processMessage f rx rc with
    | panic => rw [h2] at h; cases h
    | err _ _ => rw [h2] at h; cases h
    | ok b rc' =>
      rw [h2] at h
      cases b with
      | false => cases h
      | true =>
        dsimp only at h
        cases h3 : rc'.sent.getLast? with
        | none => rw [h3] at h; cases h
        | some q =>
          rw [h3] at h
          dsimp only at h
          by_cases h4 : rc'.sent = rc.sent ++ [q]
          · rw [if_pos h4] at h
            cases h
            exact ⟨rc, rc', rfl, h2, h4⟩
          · rw [if_neg h4] at h; cases h

/-- A requester and a responder on the same transport, nothing in between. -/
theorem linked_peer {e f : Env} {r0 : Ctx} (htr : e.tr = f.tr) (h : Carries f.tr) : Linked { e with recv := peer f r0 } f r0 where
  out m pkt hp := by
    have hp' : Ctx.intoBuf (e.tr.encap m false) 4160 = .ok pkt := hp
    rw [htr] at hp'
    obtain ⟨⟨pad, h1⟩, _⟩ := h m pkt hp'
    refine ⟨pad, ?_⟩
    unfold Plain received
    rw [h1]
  back m pkt bytes hp hb := by
    obtain ⟨_, h2⟩ := h m pkt hp
    have hb' : Ctx.decap e pkt 4096 = .ok bytes := hb
    unfold Ctx.decap at hb'
    obtain ⟨r, hr, hb'⟩ := Res.bind_ok.1 hb'
    rcases r with ⟨bs, fl⟩
    dsimp only at hb'
    cases fl with
    | true => cases hb'
    | false =>
      rw [htr] at hr
      cases hb'
      exact h2 _ _ hr
  answers _ _ _ h := peer_answers h

theorem intoBuf_ok {x : M Status Bytes Nat} {cap : Nat} {b : Bytes} (h : Ctx.intoBuf x cap = .ok b) :
    ∃ n buf, x (List.replicate cap 0) = .ok n buf ∧ n ≤ cap ∧ b = buf.take n := by
  unfold Ctx.intoBuf at h
  cases he : x (List.replicate cap 0) with
  | panic => rw [he] at h; cases h
  | err _ _ => rw [he] at h; cases h
  | ok n buf =>
    rw [he] at h
    dsimp only at h
    by_cases hn : n ≤ cap
    · rw [if_pos hn] at h
      exact ⟨n, buf, rfl, hn, (Res.ok.inj h).symm⟩
    · rw [if_neg hn] at h; cases h

theorem intoBuf2_ok {x : M Status Bytes (Nat × Bool)} {cap : Nat} {r : Bytes × Bool} :
    Ctx.intoBuf2 x cap = .ok r ↔ ∃ n buf, x (List.replicate cap 0) = .ok (n, r.2) buf ∧ n ≤ cap ∧ r.1 = buf.take n := by
  rcases r with ⟨b, fl⟩
  unfold Ctx.intoBuf2
  cases he : x (List.replicate cap 0) with
  | panic => simp
  | err _ _ => simp
  | ok r buf =>
    rcases r with ⟨n, fl'⟩
    dsimp only
    by_cases hn : n ≤ cap
    · rw [if_pos hn]
      constructor
      · intro h
        have := Prod.mk.inj (Res.ok.inj h)
        exact ⟨n, buf, by rw [this.2], hn, this.1.symm⟩
      · rintro ⟨n', buf', h1, h2, h3⟩
        cases h1
        rw [h3]
    · rw [if_neg hn]
      constructor
      · intro h; cases h
      · rintro ⟨n', buf', h1, h2, h3⟩
        cases h1
        exact absurd h2 hn

theorem carries_mctp : Carries Mctp.transport := by
  intro m pkt h
  obtain ⟨n, buf, he, hn, rfl⟩ := intoBuf_ok h
  generalize hsz : (4160 : Nat) = sz at *
  have he : Mctp.encap m false (List.replicate sz 0) = .ok n buf := he
  by_cases hl : 1 + m.length ≤ sz
  · have hx := (Props.C12_encap m false (List.replicate sz 0)).1 (by rw [List.length_replicate]; omega)
    rw [he] at hx
    have hnb := Out.ok.inj hx
    have hframe : buf.take n = 5 :: m := by
      rw [hnb.1, hnb.2]
      simp [Nat.add_comm 1]
    rw [hframe]
    constructor
    · refine ⟨[], intoBuf2_ok.2 ?_⟩
      rcases Props.C12_decap (5 :: m) (List.replicate sz 0) with ⟨t, m', g1, _, g2, g3⟩ | ⟨g, _⟩
      · cases g1
        exact ⟨_, _, g3, by rw [List.length_replicate] at g2; exact g2, by rw [List.take_left' rfl, List.append_nil]⟩
      · have := g 5 m rfl (.inl rfl)
        rw [List.length_replicate] at this
        omega
    · intro cap bytes hb
      obtain ⟨n', buf', h1, _, h3⟩ := intoBuf2_ok.1 hb
      have h1 : Mctp.decap (5 :: m) (List.replicate cap 0) = .ok (n', false) buf' := h1
      rcases Props.C12_decap (5 :: m) (List.replicate cap 0) with ⟨t, m', g1, _, g2, g3⟩ | ⟨_, g⟩
      · cases g1
        rw [g3] at h1
        cases h1
        exact ⟨[], by rw [show bytes = _ from h3, List.take_left' rfl, List.append_nil]⟩
      · rw [g] at h1; cases h1
  · obtain ⟨b', hb'⟩ := (Props.C12_encap m false (List.replicate sz 0)).2 (by rw [List.length_replicate]; omega)
    rw [he] at hb'
    cases hb'

theorem carries_doe : Carries PciDoe.transport := by
  intro m pkt h
  obtain ⟨n, buf, he, hn, rfl⟩ := intoBuf_ok h
  have hsz : (4160 : Nat) ≤ 5000 := by decide
  generalize (4160 : Nat) = sz at *
  have he : PciDoe.encap m false (List.replicate sz 0) = .ok n buf := he
  have hm : PciDoe.aligned m.length ≤ sz := by
    have he' := he
    unfold PciDoe.encap at he'
    obtain ⟨hs, b1, _, he2⟩ := M.bind_ok.1 he'
    obtain ⟨b2, b3, hg, he3⟩ := M.bind_ok.1 he2
    obtain ⟨_, he4⟩ := M.guard_ok.1 he3
    obtain ⟨_, b4, _, he5⟩ := M.bind_ok.1 he4
    have := (M.pure_ok.1 he5).1
    omega
  have hge := PciDoe.aligned_ge m.length
  by_cases hf : 8 + PciDoe.aligned m.length ≤ sz
  · have hx := PciDoe.encap_eq m false (List.replicate sz 0) (by omega) (by rw [List.length_replicate]; exact hf)
    rw [he] at hx
    have hnb := Out.ok.inj hx
    obtain ⟨pad, hpl, hframe⟩ : ∃ pad : Bytes, pad.length = PciDoe.aligned m.length - m.length ∧
        buf.take n = 1 :: 0 :: 1 :: 0 :: (putU32 (PciDoe.lenField (PciDoe.aligned m.length)) ++ (m ++ pad)) := by
      refine ⟨List.replicate (PciDoe.aligned m.length - m.length) 0, by simp, ?_⟩
      rw [hnb.1, hnb.2, List.append_assoc, List.take_append, List.take_append]
      rw [List.take_of_length_le (l := PciDoe.header _ _) (by simp), List.take_of_length_le (l := m) (by simp; omega)]
      rw [List.drop_replicate, List.take_replicate, PciDoe.header_length,
        show min (8 + PciDoe.aligned m.length - 8 - m.length) (sz - (8 + m.length)) = PciDoe.aligned m.length - m.length by omega]
      rfl
    have hd : PciDoe.declared (PciDoe.lenField (PciDoe.aligned m.length)) = PciDoe.aligned m.length :=
      PciDoe.declared_lenField (by omega) (PciDoe.aligned_mod _)
    rw [hframe]
    have hlen : (m ++ pad).length = PciDoe.aligned m.length := by rw [List.length_append]; omega
    constructor
    · refine ⟨pad, intoBuf2_ok.2 ⟨PciDoe.aligned m.length, m ++ pad ++ List.replicate (sz - PciDoe.aligned m.length) 0, ?_, hm, ?_⟩⟩
      · refine (PciDoe.decap_eq 1 0 1 0 _ (m ++ pad) _).trans ?_
        have h1 : (PciDoe.lenField (PciDoe.aligned m.length)).toNat % 0x40000 ≠ 1 := by
          unfold PciDoe.lenField
          rw [if_neg (by omega), UInt32.toNat_ofNat', Nat.mod_eq_of_lt (a := (PciDoe.aligned m.length + 8) / 4) (by omega)]
          have := PciDoe.aligned_mod m.length
          by_cases hz : PciDoe.aligned m.length = 0
          · rw [hz]; decide
          · omega
        rw [hd, if_pos ⟨h1, rfl, rfl, .inl rfl, by omega, by rw [List.length_replicate]; exact hm⟩, List.drop_replicate,
          List.take_of_length_le (by omega)]
        rfl
      · rw [List.take_left' hlen]
    · intro cap bytes hb
      obtain ⟨n', buf', h1, _, h3⟩ := intoBuf2_ok.1 hb
      have h1 := (PciDoe.decap_eq 1 0 1 0 _ (m ++ pad) _).symm.trans h1
      rw [hd] at h1
      split at h1
      · cases h1
        refine ⟨pad, ?_⟩
        rw [show bytes = _ from h3, List.take_of_length_le (l := m ++ pad) (by omega), List.take_left' hlen]
      · cases h1
  · obtain ⟨b', hb', _⟩ := PciDoe.encap_short m false (List.replicate sz 0) (by omega) (by rw [List.length_replicate]; omega)
    rw [he] at hb'; cases hb'

end Req
end Verif
