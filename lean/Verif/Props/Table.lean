/-
C21: the session table.  C22: ending a session.  C45: no secret survives a session.
-/
import Verif.Responder.Table
import Verif.Props.Phase
import Verif.Props.Conn
import Verif.Spec.ToySession

namespace Verif.Props
open Verif.Rsp

variable {e : Env}

/-- a state of a responder with `n` session slots after some history of received packets. -/
def Reachable (n : Nat) (c : Ctx) : Prop :=
  ∃ cfg prov h, Run (Ctx.new cfg prov n) h c ∧ ∀ p ∈ h, HashLaw p.1

/-- the table has `n` slots and is well formed (`TableOk`): what the theorems below need of a reachable state. -/
def Tabled (n : Nat) (c : Ctx) : Prop := c.sessions.length = n ∧ TableOk 0 c.sessions

theorem Reachable.table {n : Nat} {c : Ctx} (hn : n < 0xFFFD) (h : Reachable n c) : c.sessions.length = n ∧ TableOk 0 c.sessions := by
  obtain ⟨cfg, prov, h, hr, hl⟩ := h
  exact hr.table hn hl

/-! ### C21 -/

/-- The table keeps its size. -/
theorem C21_capacity (n : Nat) (hn : n < 0xFFFD) (c : Ctx) (h : Reachable n c) : c.sessions.length = n := (h.table hn).1

theorem own_inj {i j : Nat} (hi : i < 0xFFFD) (hj : j < 0xFFFD) (h : (0xFFFD : UInt16) - UInt16.ofNat i = 0xFFFD - UInt16.ofNat j) : i = j := by
  have h2 : (0xFFFD : UInt16).toNat = 0xFFFD := by decide
  have aux : ∀ k, k < 0xFFFD → ((0xFFFD : UInt16) - UInt16.ofNat k).toNat = 0xFFFD - k := by
    intro k hk
    have h1 : (UInt16.ofNat k).toNat = k := by simp [UInt16.toNat_ofNat, Nat.mod_eq_of_lt (show k < 65536 by omega)]
    rw [UInt16.toNat_sub_of_le _ _ (by rw [UInt16.le_iff_toNat_le, h1]; omega), h1, h2]
  have := congrArg UInt16.toNat h
  rw [aux i hi, aux j hj] at this
  omega

theorem getElem?_lt {α : Type} {l : List α} {i : Nat} {a : α} (h : l[i]? = some a) : i < l.length := by
  by_cases hi : i < l.length
  · exact hi
  · rw [List.getElem?_eq_none (Nat.le_of_not_lt hi)] at h; cases h

theorem tabled_unique (n : Nat) (hn : n < 0xFFFD) (c : Ctx) (h : Tabled n c) (i j : Nat) (s t : Session) (hi : c.sessions[i]? = some s)
    (hj : c.sessions[j]? = some t) (h0 : s.id ≠ 0) (he : s.id = t.id) : i = j := by
  obtain ⟨hlen, ht⟩ := h
  have hi' := getElem?_lt hi
  have hj' := getElem?_lt hj
  rcases ht.get hi with g | g
  · exact absurd g.id h0
  rcases ht.get hj with g' | g'
  · exact absurd (he.trans g'.id) h0
  rw [Nat.zero_add] at g g'
  rw [he, g'] at g
  exact (own_inj (by omega) (by omega) g).symm

/-- Two sessions in different slots never share an id (an id is nonzero exactly when its slot is taken). -/
theorem C21_unique (n : Nat) (hn : n < 0xFFFD) (c : Ctx) (h : Reachable n c) (i j : Nat) (s t : Session) (hi : c.sessions[i]? = some s)
    (hj : c.sessions[j]? = some t) (h0 : s.id ≠ 0) (he : s.id = t.id) : i = j :=
  tabled_unique n hn c (h.table hn) i j s t hi hj h0 he

theorem tabled_nonzero (n : Nat) (hn : n < 0xFFFD) (c : Ctx) (h : Tabled n c) (i : Nat) (s : Session) (hi : c.sessions[i]? = some s)
    (hs : s.state ≠ .notStarted) : s.id ≠ 0 := by
  obtain ⟨hlen, ht⟩ := h
  intro h0
  have := (ht.get hi).id_zero (by have := getElem?_lt hi; omega)
  exact hs (this.1 h0).notStarted

/-- A session in use has a nonzero id. -/
theorem C21_nonzero (n : Nat) (hn : n < 0xFFFD) (c : Ctx) (h : Reachable n c) (i : Nat) (s : Session) (hi : c.sessions[i]? = some s)
    (hs : s.state ≠ .notStarted) : s.id ≠ 0 :=
  tabled_nonzero n hn c (h.table hn) i s hi hs

theorem tabled_lookup (n : Nat) (hn : n < 0xFFFD) (c : Ctx) (h : Tabled n c) (sid : UInt32) (h0 : sid ≠ 0) (s : Session) :
    c.session? sid = some s ↔ s.id = sid ∧ ∃ i : Nat, c.sessions[i]? = some s := by
  constructor
  · intro hf
    refine ⟨session?_id hf, ?_⟩
    have := List.mem_of_find?_eq_some hf
    obtain ⟨i, hi, rfl⟩ := List.mem_iff_getElem.1 this
    exact ⟨i, List.getElem?_eq_getElem hi⟩
  · rintro ⟨h1, i, hi⟩
    cases hf : c.session? sid with
    | none =>
      have := List.find?_eq_none.1 hf s (List.mem_of_getElem? hi)
      simp [h1] at this
    | some t =>
      have ht := session?_id hf
      obtain ⟨j, hj, hjt⟩ := List.mem_iff_getElem.1 (List.mem_of_find?_eq_some hf)
      have hj' : c.sessions[j]? = some t := by rw [List.getElem?_eq_getElem hj, hjt]
      have := tabled_unique n hn c h i j s t hi hj' (by rw [h1]; exact h0) (h1.trans ht.symm)
      subst this
      rw [hi] at hj'
      exact hj'.symm

/-- A lookup by a nonzero id finds exactly the session with that id, wherever it is in the table. -/
theorem C21_lookup (n : Nat) (hn : n < 0xFFFD) (c : Ctx) (h : Reachable n c) (sid : UInt32) (h0 : sid ≠ 0) (s : Session) :
    c.session? sid = some s ↔ s.id = sid ∧ ∃ i : Nat, c.sessions[i]? = some s :=
  tabled_lookup n hn c (h.table hn) sid h0 s

theorem no_free {l : List Session} (h : ∀ s ∈ l, s.id ≠ 0) : l.find? (·.id = 0) = none := by
  rw [List.find?_eq_none]
  intro s hs
  simp [h s hs]

/-- When every slot is taken, KEY_EXCHANGE and PSK_EXCHANGE are refused: no response is produced and no session changes. -/
theorem C21_full (c : Ctx) (bytes : Bytes) (hfull : ∀ s ∈ c.sessions, s.id ≠ 0) :
    ((∃ st c', keyExchangeRsp e bytes c = .err st c' ∧ c'.sessions = c.sessions) ∨ keyExchangeRsp e bytes c = .panic) ∧
    ((∃ st c', pskExchangeRsp e bytes c = .err st c' ∧ c'.sessions = c.sessions) ∨ pskExchangeRsp e bytes c = .panic) := by
  have hno : ∀ est c', ¬ OpenedIn est c c' := by
    rintro est c' ⟨_, _, _, _, _, _, _, ⟨s0, hs0⟩, _, _⟩
    have := no_free hfull
    unfold Ctx.session? at hs0
    rw [hs0] at this
    cases this
  have gen : ∀ {est : Bool} {x : M Status Ctx Bytes}, x.wp c (fun _ c' => ExConn c c' ∧ OpenedIn est c c') (fun _ => Exch est c) →
      (∃ st c', x c = .err st c' ∧ c'.sessions = c.sessions) ∨ x c = .panic := by
    intro est x hx
    unfold M.wp at hx
    cases hr : x c with
    | ok b c' => rw [hr] at hx; exact absurd hx.2 (hno _ _)
    | err st c' =>
      rw [hr] at hx
      rcases hx.2 with h | h
      · exact .inl ⟨st, c', rfl, h⟩
      · exact absurd h (hno _ _)
    | panic => exact .inr rfl
  exact ⟨gen (keyExchangeRsp_opens bytes c), gen (pskExchangeRsp_opens bytes c)⟩

theorem updFirst_other {p : Session → Bool} {f : Session → Session} {l : List Session} {i : Nat} {s : Session} (hi : l[i]? = some s) (hp : p s = false) :
    (Ctx.updFirst p f l)[i]? = some s := by
  induction l generalizing i with
  | nil => simp at hi
  | cons a l ih =>
    unfold Ctx.updFirst
    cases i with
    | zero =>
      simp at hi; subst hi
      simp [hp]
    | succ i =>
      split
      · simpa using hi
      · simpa using ih (by simpa using hi)

theorem All2.get? {α : Type} {R : α → α → Prop} {l m : List α} (h : All2 R l m) {i : Nat} {a : α} (hi : l[i]? = some a) : ∃ b, m[i]? = some b ∧ R a b := by
  have h1 := getElem?_lt hi
  have h2 : i < m.length := by rw [h.length_eq]; exact h1
  refine ⟨m[i], List.getElem?_eq_getElem h2, ?_⟩
  have := h.get i h1 h2
  rw [List.getElem?_eq_getElem h1] at hi
  rw [← Option.some.inj hi]
  exact this

theorem tabled_open_others (n : Nat) (hn : n < 0xFFFD) (hl : HashLaw e) (c c' : Ctx) (h : Tabled n c) (rx : Bytes) (v k : UInt8) (t : Bytes)
    (hp : Plain e rx (v :: k :: t)) (hk : k ≠ 0x84 ∧ k ≠ 0xE5)
    (hr : (∃ b, processMessage e rx c = .ok b c') ∨ processMessage e rx c = .err () c') (i : Nat) (s : Session) (hi : c.sessions[i]? = some s)
    (h0 : s.id ≠ 0) : c'.sessions[i]? = some s := by
  have hstep : Step e rx c c' := by
    rcases hr with ⟨b, hr⟩ | hr
    · exact (process_step hl rx c).ok hr
    · exact (process_step hl rx c).err hr
  obtain ⟨hlen, ht⟩ := h
  have hopen : ∀ est, OpenedIn est c c' → c'.sessions[i]? = some s := by
    rintro est ⟨r, q, s1, l, h1, h2, _, _, rfl, h6⟩
    have hi2 := updFirst_other (p := (·.id = 0)) (f := fun _ => s1) hi (by simp [h0])
    obtain ⟨s', hs', hR⟩ := All2.get? h6 hi2
    rcases hR with rfl | ⟨hid, _⟩
    · exact hs'
    · -- the id handed out belongs to the free slot, not to slot `i`
      exfalso
      have hown : Ctx.half false s.id = 0xFFFD - UInt16.ofNat i := by
        rcases ht.get hi with g | g
        · exact absurd g.id h0
        · rwa [Nat.zero_add] at g
      rw [hid, half_join] at hown
      have hfree : ∀ (l : List Session) (a : Nat), Ctx.nextHalf false a l = some r → ∃ j t, l[j]? = some t ∧ Ctx.half false t.id = 0 ∧ r = 0xFFFD - UInt16.ofNat (a + j) := by
        intro l
        induction l with
        | nil => intro a h; simp [Ctx.nextHalf] at h
        | cons x l ih =>
          intro a h
          unfold Ctx.nextHalf at h
          by_cases hz : Ctx.half false x.id = 0
          · rw [if_pos hz] at h
            exact ⟨0, x, rfl, hz, (Option.some.inj h).symm⟩
          · rw [if_neg hz] at h
            obtain ⟨j, t, g1, g2, g3⟩ := ih (a + 1) h
            exact ⟨j + 1, t, by simpa using g1, g2, by rw [g3]; congr 2; omega⟩
      obtain ⟨j, t, g1, g2, g3⟩ := hfree c.sessions 0 h1
      rw [Nat.zero_add] at g3
      have hj := getElem?_lt g1
      have hi' := getElem?_lt hi
      have hij : i = j := own_inj (by omega) (by omega) (hown.symm.trans g3)
      subst hij
      rw [hi] at g1
      have : t = s := (Option.some.inj g1).symm
      subst this
      have := ((ht.get hi).half_zero (by omega)).1 g2
      exact h0 this.id
  cases hstep with
  | ignored h => rw [h]; exact hi
  | secured sid hs _ _ =>
    obtain ⟨_, _, _, _, _, h1, _⟩ := hs
    unfold Plain at hp
    rw [h1] at hp
    cases hp
  | plain v' k' t' hp' hst =>
    have : k' = k := by
      unfold Plain at hp hp'
      rw [hp] at hp'
      simp at hp'
      exact hp'.2.1.symm
    subst this
    cases hst.table with
    | same h => rw [h]; exact hi
    | cleared h _ => exact absurd h hk.1
    | keyExchange _ h => exact hopen _ h
    | pskExchange _ h => exact hopen _ h
    | finish _ _ h _ _ _ _ _ => exact absurd h hk.2

/-- No plain packet but GET_VERSION (which restarts) and FINISH (for the session being finished) changes an existing session; in
particular opening a session leaves all others untouched. -/
theorem C21_open_others (n : Nat) (hn : n < 0xFFFD) (hl : HashLaw e) (c c' : Ctx) (h : Reachable n c) (rx : Bytes) (v k : UInt8) (t : Bytes)
    (hp : Plain e rx (v :: k :: t)) (hk : k ≠ 0x84 ∧ k ≠ 0xE5)
    (hr : (∃ b, processMessage e rx c = .ok b c') ∨ processMessage e rx c = .err () c') (i : Nat) (s : Session) (hi : c.sessions[i]? = some s)
    (h0 : s.id ≠ 0) : c'.sessions[i]? = some s :=
  tabled_open_others n hn hl c c' (h.table hn) rx v k t hp hk hr i s hi h0

/-! ### C22 -/

theorem updFirst_updFirst {sid : UInt32} {f g : Session → Session} (hf : ∀ s, s.id = sid → (f s).id = sid) (l : List Session) :
    Ctx.updFirst (·.id = sid) g (Ctx.updFirst (·.id = sid) f l) = Ctx.updFirst (·.id = sid) (fun s => g (f s)) l := by
  induction l with
  | nil => rfl
  | cons a l ih =>
    by_cases h : a.id = sid
    · simp [Ctx.updFirst, h, hf a h]
    · simp [Ctx.updFirst, h, ih]

theorem updFirst_congr {sid : UInt32} {f g : Session → Session} (l : List Session) (h : ∀ s, l.find? (·.id = sid) = some s → f s = g s) :
    Ctx.updFirst (·.id = sid) f l = Ctx.updFirst (·.id = sid) g l := by
  induction l with
  | nil => rfl
  | cons a l ih =>
    by_cases hp : a.id = sid
    · simp [Ctx.updFirst, hp, h a (by simp [hp])]
    · simp [Ctx.updFirst, hp, ih fun s hs => h s (by simp [hp, hs])]

theorem encodeSecured_ok {sid : UInt32} {msg pkt : Bytes} {isReq isApp : Bool} {c c1 : Ctx} (h : Ctx.encodeSecured e sid msg isReq isApp c = .ok pkt c1) :
    InUse c sid ∧ c1 = c.updSession sid (·.bump isReq) := by
  unfold Ctx.encodeSecured at h
  obtain ⟨app, c2, h3, g2⟩ := M.bind_ok.1 h
  have h3 : c2 = c := by
    revert h3
    cases Ctx.intoBuf (e.tr.encapApp msg isApp) 4160 <;> simp [Res.lift, eq_comm]
  subst h3
  obtain ⟨enc, c3, h4, g3⟩ := M.bind_ok.1 g2
  have h5 : c1 = c3 := by
    revert g3
    cases Ctx.intoBuf (e.tr.encap enc true) 4160 <;> simp [Res.lift, eq_comm]
  subst h5
  unfold Ctx.onSession at h4
  cases hs : c2.session? sid with
  | none => simp [hs] at h4
  | some s =>
    simp only [M.bind_apply, M.get_apply, hs] at h4
    cases hx : Session.encodeSecured e.crypto app 4160 isReq s with
    | panic => simp [hx] at h4
    | err st s' => simp [hx] at h4
    | ok a s' =>
      obtain ⟨g1, _, rfl⟩ := Session.dispatchDir_ok.1 hx
      simp only [hx, M.bind_apply, M.set_apply, M.pure_apply] at h4
      refine ⟨⟨s, hs, g1⟩, ?_⟩
      cases h4
      unfold Ctx.updSession
      rw [updFirst_const (f := (·.bump isReq)) _ hs]

theorem bump_slotId (s : Session) (r : Bool) : (s.bump r).slotId = s.slotId := by
  unfold Session.bump; split <;> rfl

/-- sending END_SESSION_ACK erases the session. -/
theorem sendSecured_ack {sid : UInt32} {v : UInt8} {t : Bytes} {c c' : Ctx} (hsize : tooLarge c (v :: 0x6C :: t) = false)
    (h : sendSecured e sid (v :: 0x6C :: t) false c = .ok () c') :
    c'.sessions = Ctx.updFirst (·.id = sid) Session.setDefault c.sessions ∧ c'.rt = c.rt ∧ c'.neg = c.neg ∧ ∃ pkt, c'.sent = c.sent ++ [pkt] := by
  unfold sendSecured at h
  simp only [M.bind_apply, M.get_apply, hsize, Bool.false_eq_true, and_false, if_false] at h
  unfold sendSecuredPlain at h
  obtain ⟨pkt, c1, h1, h2⟩ := M.bind_ok.1 h
  obtain ⟨⟨s0, hs0, _⟩, rfl⟩ := encodeSecured_ok h1
  obtain ⟨_, c2, h3, h4⟩ := M.bind_ok.1 h2
  unfold Ctx.devSend at h3
  simp only [M.bind_apply, M.get_apply, M.set_apply] at h3
  cases hd : e.send (c.updSession sid (·.bump false)).sent.length pkt with
  | some st => rw [hd] at h3; simp at h3
  | none =>
    rw [hd] at h3
    simp only [M.pure_apply] at h3
    cases h3
    obtain ⟨op, c3, h5, h6⟩ := M.bind_ok.1 h4
    simp [M.unwrap] at h5
    obtain ⟨rfl, rfl⟩ := h5
    unfold afterSecured at h6
    rw [if_pos (by decide)] at h6
    unfold Ctx.onSession at h6
    simp only [M.bind_apply, M.get_apply] at h6
    cases hs : Ctx.session? ({ (c.updSession sid (·.bump false)) with sent := (c.updSession sid (·.bump false)).sent ++ [pkt] }) sid with
    | none => rw [hs] at h6; simp at h6
    | some s =>
      rw [hs] at h6
      have hid := session?_id hs
      simp only [Session.teardown, M.bind_apply, M.get_apply, hid, if_true, M.set_apply, M.pure_apply] at h6
      cases h6
      refine ⟨?_, rfl, rfl, ⟨pkt, rfl⟩⟩
      show Ctx.updFirst (·.id = sid) (fun _ => s.setDefault) (Ctx.updFirst (·.id = sid) (·.bump false) c.sessions) = _
      have hs' : (Ctx.updFirst (·.id = sid) (·.bump false) c.sessions).find? (·.id = sid) = some s := hs
      rw [updFirst_const (f := Session.setDefault) _ hs', updFirst_updFirst (by intro s h; simpa using h)]
      refine updFirst_congr _ fun t _ => ?_
      simp [Session.setDefault, bump_slotId]

theorem updFirst_hit {p : Session → Bool} {f : Session → Session} {l : List Session} {i : Nat} {s : Session} (hi : l[i]? = some s) (hp : p s = true)
    (hu : ∀ (j : Nat) (y : Session), l[j]? = some y → p y = true → j = i) : (Ctx.updFirst p f l)[i]? = some (f s) := by
  induction l generalizing i with
  | nil => simp at hi
  | cons a l ih =>
    unfold Ctx.updFirst
    cases i with
    | zero =>
      simp at hi; subst hi
      simp [hp]
    | succ i =>
      split
      · rename_i ha
        have := hu 0 a rfl ha
        omega
      · have := ih (i := i) (by simpa using hi) fun j y hj hy => by
          have := hu (j + 1) y (by simpa using hj) hy
          omega
        simpa using this

theorem endAck_written (c : Ctx) : encodeRsp .rspEndSessionAck .endSessionAck c = .ok [c.neg.version.get, 0x6C, 0, 0] c := by
  have hw : Writes (Msg.encode c.cc ⟨⟨c.neg.version, .rspEndSessionAck⟩, .endSessionAck⟩) [c.neg.version.get, 0x6C, 0, 0] := by
    have h1 : Writes (Header.encode ⟨c.neg.version, .rspEndSessionAck⟩) [c.neg.version.get, 0x6C] := by
      unfold Header.encode
      exact Writes.seq_cons (Writes.u8 _) (Writes.seq_cons (Writes.u8 _) Writes.seq_nil)
    exact (Writes.seq_cons h1 (Writes.seq_cons encNoParams_writes Writes.seq_nil)).cast (by simp)
  have := (hw (Writer.init msgSize) (by simp [Writer.WF, Writer.init])).1 (by simp [Writer.init, msgSize])
  unfold encodeRsp
  rw [this]
  simp [Writer.init]

theorem endSessionRsp_ok {c : Ctx} {sid : UInt32} {v a p : UInt8} {t : Bytes} (hv : SpdmVersion.ofCode v = c.neg.version) (ha : a ≤ 1) :
    endSessionRsp sid (v :: 0xEC :: a :: p :: t) c = .ok [c.neg.version.get, 0x6C, 0, 0] (Ctx.resetBuffers .reqEndSession (some sid) c) := by
  have hr : rdEndSession ⟨a :: p :: t, 2⟩ = .ok a ⟨t, 4⟩ := by
    have : ¬ a > 1 := by simpa using ha
    simp [rdEndSession, this]
  have hneg : (Ctx.resetBuffers .reqEndSession (some sid) c).neg = c.neg := by
    simp [Ctx.resetBuffers, Ctx.resetM, Ctx.updSession]
    split <;> rfl
  unfold endSessionRsp checkVersion header readReq
  simp only [M.bind_apply, header_read, M.pure_apply, M.get_apply, hv, ne_eq, not_true, if_false, hr, M.modify_apply]
  rw [endAck_written, hneg]

theorem end_session (c c' : Ctx) (sid : UInt32)
    (h0 : sid ≠ 0) (hu : ∀ (i j : Nat) (x y : Session), c.sessions[i]? = some x → c.sessions[j]? = some y → x.id = sid → y.id = sid → i = j)
    (s : Session) (v a p : UInt8) (t : Bytes)
    (hs : c.session? sid = some s) (hst : s.state = .established) (hv : SpdmVersion.ofCode v = c.neg.version) (ha : a ≤ 1)
    (hdts : c.neg.reqDts = 0 ∨ 4 ≤ c.neg.reqDts.toNat)
    (h : dispatchSecured e sid (v :: 0xEC :: a :: p :: t) c = .ok () c') :
    (∀ (i : Nat) (x : Session), c.sessions[i]? = some x → c'.sessions[i]? = some (if x.id = sid then { Session.new with slotId := x.slotId } else x)) ∧
    c'.session? sid = none ∧ c'.rt.state = c.rt.state ∧ c'.neg = c.neg ∧ ∃ pkt, c'.sent = c.sent ++ [pkt] := by
  unfold dispatchSecured dispatchApplication at h
  simp only [M.bind_apply, M.get_apply, hs, hst, Res.read, header_read, Res.lift] at h
  have hk : ReqRespCode.ofCode 0xEC = .reqEndSession := rfl
  simp only [hk] at h
  unfold handleEndSession at h
  simp only [M.bind_apply, reply, endSessionRsp_ok hv ha] at h
  have hneg : (Ctx.resetBuffers .reqEndSession (some sid) c).neg = c.neg := by
    simp [Ctx.resetBuffers, Ctx.resetM, Ctx.updSession]
    split <;> rfl
  have hstate : (Ctx.resetBuffers .reqEndSession (some sid) c).rt.state = c.rt.state := by
    simp [Ctx.resetBuffers, Ctx.resetM, Ctx.updSession]
    split <;> rfl
  have hsent : (Ctx.resetBuffers .reqEndSession (some sid) c).sent = c.sent := by
    simp [Ctx.resetBuffers, Ctx.resetM, Ctx.updSession]
    split <;> rfl
  have hsess : (Ctx.resetBuffers .reqEndSession (some sid) c).sessions = Ctx.updFirst (·.id = sid) (fun s => { s with l1l2 := none }) c.sessions := by
    simp [Ctx.resetBuffers, Ctx.resetM, Ctx.updSession]
    split <;> rfl
  have hsize : tooLarge (Ctx.resetBuffers .reqEndSession (some sid) c) [c.neg.version.get, 0x6C, 0, 0] = false := by
    unfold tooLarge
    rw [hneg]
    rcases hdts with hd | hd
    · simp [hd]
    · simp; intro _; exact hd
  obtain ⟨h1, h2, h3, pkt, h4⟩ := sendSecured_ack hsize h
  rw [hsess, updFirst_updFirst (by intro s h; exact h)] at h1
  have h1 : c'.sessions = Ctx.updFirst (·.id = sid) Session.setDefault c.sessions := h1
  have hall : ∀ (i : Nat) (x : Session), c.sessions[i]? = some x → c'.sessions[i]? = some (if x.id = sid then { Session.new with slotId := x.slotId } else x) := by
    intro i x hi
    rw [h1]
    by_cases hx : x.id = sid
    · rw [if_pos hx]
      exact updFirst_hit hi (by simp [hx]) fun j y hj hy => by
        have hy : y.id = sid := by simpa using hy
        exact hu j i y x hj hi hy hx
    · rw [if_neg hx]
      exact updFirst_other hi (by simp [hx])
  refine ⟨hall, ?_, by rw [h2, hstate], by rw [h3, hneg], pkt, by rw [h4, hsent]⟩
  unfold Ctx.session?
  rw [List.find?_eq_none]
  intro y hy
  obtain ⟨i, hi, hx⟩ := List.mem_iff_getElem.1 hy
  have hlen : c'.sessions.length = c.sessions.length := by rw [h1, updFirst_length]
  have hi' : i < c.sessions.length := by omega
  have := hall i c.sessions[i] (List.getElem?_eq_getElem hi')
  rw [List.getElem?_eq_getElem hi, hx] at this
  have := Option.some.inj this
  by_cases hc : c.sessions[i].id = sid
  · rw [if_pos hc] at this
    subst this
    show ¬ (decide ((0 : UInt32) = sid)) = true
    simpa using fun h => h0 h.symm
  · rw [if_neg hc] at this
    subst this
    simpa using hc

/-- END_SESSION in the application phase: when the packet was processed and answered, the session's slot is erased (all secrets,
counters and transcripts back at their initial values), all other slots are untouched, the id is not found any more, and one
packet was sent. -/
theorem C22_end_session (n : Nat) (hn : n < 0xFFFD) (c c1 c' : Ctx) (hreach : Reachable n c) (rx : Bytes) (sid : UInt32) (s : Session) (v a p : UInt8) (t : Bytes)
    (ho : Opens e rx c sid (v :: 0xEC :: a :: p :: t) false c1) (hs : c.session? sid = some s) (hst : s.state = .established)
    (hv : SpdmVersion.ofCode v = c.neg.version) (ha : a ≤ 1) (hdts : c.neg.reqDts = 0 ∨ 4 ≤ c.neg.reqDts.toNat)
    (h : processMessage e rx c = .ok true c') :
    (∀ (i : Nat) (x : Session), c.sessions[i]? = some x → c'.sessions[i]? = some (if x.id = sid then { Session.new with slotId := x.slotId } else x)) ∧
    c'.session? sid = none ∧ c'.rt.state = c.rt.state ∧ c'.neg = c.neg ∧ ∃ pkt, c'.sent = c.sent ++ [pkt] := by
  obtain ⟨_, _, _, _, rfl⟩ := ho.eq
  have hid := session?_id hs
  have h0 : sid ≠ 0 := by
    obtain ⟨i, hi, hx⟩ := List.mem_iff_getElem.1 (List.mem_of_find?_eq_some hs)
    have := C21_nonzero n hn c hreach i s (by rw [List.getElem?_eq_getElem hi, hx]) (by rw [hst]; decide)
    rwa [hid] at this
  have hu : ∀ (i j : Nat) (x y : Session), c.sessions[i]? = some x → c.sessions[j]? = some y → x.id = sid → y.id = sid → i = j :=
    fun i j x y hi hj hx hy => C21_unique n hn c hreach i j x y hi hj (by rw [hx]; exact h0) (hx.trans hy.symm)
  rw [ho.process] at h
  have h : dispatchSecured e sid (v :: 0xEC :: a :: p :: t) (c.updSession sid (·.bump true)) = .ok () c' := by
    revert h
    unfold isOk
    cases dispatchSecured e sid (v :: 0xEC :: a :: p :: t) (c.updSession sid (·.bump true)) <;> simp
  have hb : ∀ (i : Nat) (x : Session), c.sessions[i]? = some x → (c.updSession sid (·.bump true)).sessions[i]? = some (if x.id = sid then x.bump true else x) := by
    intro i x hi
    show (Ctx.updFirst (·.id = sid) (·.bump true) c.sessions)[i]? = _
    by_cases hx : x.id = sid
    · rw [if_pos hx]
      exact updFirst_hit hi (by simp [hx]) fun j y hj hy => hu j i y x hj hi (by simpa using hy) hx
    · rw [if_neg hx]
      exact updFirst_other hi (by simp [hx])
  have hb' : ∀ (i : Nat) (x : Session), (c.updSession sid (·.bump true)).sessions[i]? = some x → x.id = sid → ∃ y, c.sessions[i]? = some y ∧ y.id = sid := by
    intro i x hi hx
    have hl : (c.updSession sid (·.bump true)).sessions.length = c.sessions.length := updFirst_length ..
    have hi' : i < c.sessions.length := by have := getElem?_lt hi; omega
    refine ⟨_, List.getElem?_eq_getElem hi', ?_⟩
    have := hb i _ (List.getElem?_eq_getElem hi')
    rw [hi] at this
    have := Option.some.inj this
    by_cases hc : c.sessions[i].id = sid
    · exact hc
    · rw [if_neg hc] at this; rw [← this]; exact hx
  have hs1 : (c.updSession sid (·.bump true)).session? sid = some (s.bump true) := by
    have := find_updFirst (sid := sid) (f := (·.bump true)) (fun s => Session.bump_id s true) c.sessions
    unfold Ctx.session? Ctx.updSession at *
    rw [this, hs]; rfl
  obtain ⟨g1, g2, g3, g4, g5⟩ := end_session (c.updSession sid (·.bump true)) c' sid h0
    (fun i j x y hi hj hx hy => by
      obtain ⟨x', hx', hx''⟩ := hb' i x hi hx
      obtain ⟨y', hy', hy''⟩ := hb' j y hj hy
      exact hu i j x' y' hx' hy' hx'' hy'') (s.bump true) v a p t hs1 (by rw [Session.bump_state]; exact hst) hv ha hdts h
  refine ⟨?_, g2, g3, g4, g5⟩
  intro i x hi
  have := g1 i _ (hb i x hi)
  rw [this]
  by_cases hx : x.id = sid
  · simp only [if_pos hx, Session.bump_id, hx, if_true, bump_slotId]
  · simp only [if_neg hx]

/-- Packets for a session that ended (or never existed) have no effect at all. -/
theorem C22_after_end (c c' : Ctx) (rx : Bytes) (sid : UInt32) (hp : SecuredFor e rx sid) (hs : ∀ s, c.session? sid = some s → s.state = .notStarted)
    (hr : (∃ b, processMessage e rx c = .ok b c') ∨ processMessage e rx c = .err () c') : c' = c := by
  have hrec : ∃ p, received e rx = some (p, true) := by
    obtain ⟨a, b, c, d, t, h, _⟩ := hp
    exact ⟨_, h⟩
  obtain ⟨p, hrec⟩ := hrec
  have hx : c' = c ∨ ∃ sid, SecuredFor e rx sid ∧ InUse c sid ∧ SecOnly sid c c' := by
    rcases hr with ⟨b, hr⟩ | hr
    · exact (process_secured rx hrec c).ok hr
    · exact (process_secured rx hrec c).err hr
  rcases hx with h | ⟨j, hj, ⟨s, h1, h2⟩, _⟩
  · exact h
  · obtain rfl := hp.unique hj
    exact absurd (hs s h1) h2

/-- A freed slot can be used again: while some slot is free, the next session id is available and a free slot is found. -/
theorem C22_reusable (n : Nat) (hn : n < 0xFFFD) (c : Ctx) (hreach : Reachable n c) (i : Nat) (s : Session) (hi : c.sessions[i]? = some s) (h0 : s.id = 0) :
    (∃ r, c.nextHalfId false = .ok r ∧ r ≠ 0) ∧ ∃ s0, c.session? 0 = some s0 ∧ s0.Erased := by
  obtain ⟨hlen, ht⟩ := hreach.table hn
  constructor
  · have : ∀ (l : List Session) (a j : Nat), a + l.length < 0xFFFD → l[j]? = some s → ∃ r, Ctx.nextHalf false a l = some r ∧ r ≠ 0 := by
      intro l
      induction l with
      | nil => intro a j _ h; simp at h
      | cons x l ih =>
        intro a j hl h
        unfold Ctx.nextHalf
        by_cases hz : Ctx.half false x.id = 0
        · rw [if_pos hz]; exact ⟨_, rfl, own_ne_zero (by simp at hl; omega)⟩
        · rw [if_neg hz]
          cases j with
          | zero => simp at h; subst h; exact absurd (by rw [h0]; exact Rsp.half_zero) hz
          | succ j => exact ih (a + 1) j (by simp at hl; omega) (by simpa using h)
    obtain ⟨r, hr, hne⟩ := this c.sessions 0 i (by omega) hi
    exact ⟨r, by unfold Ctx.nextHalfId; rw [hr]; rfl, hne⟩
  · cases hf : c.session? 0 with
    | none =>
      have := List.find?_eq_none.1 hf s (List.mem_of_getElem? hi)
      simp [h0] at this
    | some s0 =>
      obtain ⟨g1, g2⟩ := ht.find (by omega) hf
      exact ⟨s0, rfl, g2.1 g1⟩

/-! ### C45 -/

/-- In every reachable state, a slot without a session holds no secret, key, counter or transcript of an earlier one: it differs
from a brand-new slot at most in the remembered certificate slot number. -/
theorem C45_no_residue (n : Nat) (hn : n < 0xFFFD) (c : Ctx) (h : Reachable n c) (s : Session) (hs : s ∈ c.sessions) (h0 : s.id = 0) :
    { s with slotId := 0 } = Session.new := by
  obtain ⟨hlen, ht⟩ := h.table hn
  obtain ⟨i, hi, hx⟩ := List.mem_iff_getElem.1 hs
  have := ht.get (show c.sessions[i]? = some s by rw [List.getElem?_eq_getElem hi, hx])
  obtain ⟨slot, rfl⟩ := (this.id_zero (by omega)).1 h0
  rfl

/-- Tearing a session down (either role) resets every field but the certificate slot number; another id is a fatal error and never
erases the wrong session. -/
theorem C45_teardown (s : Session) (id : UInt32) :
    (s.id = id → Session.teardown id s = .ok () { Session.new with slotId := s.slotId }) ∧ (s.id ≠ id → Session.teardown id s = .panic) := by
  constructor <;> intro h <;> simp [Session.teardown, h, Session.setDefault]

/-- Restarting the connection erases every slot. -/
theorem C45_reset (c : Ctx) (s : Session) (hs : s ∈ c.reset.sessions) : { s with slotId := 0 } = Session.new := by
  unfold Ctx.reset at hs
  simp only [List.mem_map] at hs
  obtain ⟨a, _, rfl⟩ := hs
  rfl

/-! ### The hypotheses are met by a concrete responder with two slots -/

theorem runAll_run {e : Env} {c0 c c' : Ctx} {h : List (Env × Bytes)} (l : List Bytes) (hr : Run c0 h c) (he : Toy.runAll e c l = some c') :
    Run c0 (h ++ l.map fun rx => (e, rx)) c' := by
  induction l generalizing c h with
  | nil => simp [Toy.runAll] at he; subst he; simpa using hr
  | cons rx l ih =>
    unfold Toy.runAll at he
    split at he
    · rename_i b c1 hp
      simpa using ih (Run.ok hr hp) he
    · rename_i b c1 hp
      simpa using ih (Run.err hr hp) he
    · cases he

theorem toy_reachable {c : Ctx} (l : List Bytes) (he : Toy.runAll Toy.env Toy.ctx0 l = some c) : Reachable 2 c :=
  ⟨Toy.cfg, _, _, runAll_run l Run.nil he, by simp; intro _ _; exact toy_hashLaw⟩

/-- the packets of one whole session, and of two sessions that fill the table. -/
def toyPackets : List Bytes := [Toy.version, Toy.capabilities, Toy.algorithms, Toy.keyExchange, Toy.finishPacket 0 Toy.exchanged]
def toyFull : List Bytes := [Toy.version, Toy.capabilities, Toy.algorithms, Toy.keyExchange, Toy.keyExchangeFor 9]

/-- what a list of packets leads to -/
def toyRun (l : List Bytes) : Ctx := (Toy.runAll Toy.env Toy.ctx0 l).getD Toy.ctx0

theorem toyRun_reachable (l : List Bytes) (h : (Toy.runAll Toy.env Toy.ctx0 l).isSome = true) : Reachable 2 (toyRun l) := by
  obtain ⟨c, hc⟩ := Option.isSome_iff_exists.1 h
  unfold toyRun
  rw [hc]
  exact toy_reachable l hc

example : Reachable 2 (toyRun toyPackets) := toyRun_reachable _ (by decide +kernel)
example : Reachable 2 (toyRun toyFull) := toyRun_reachable _ (by decide +kernel)
/-- two sessions with different ids; a third exchange is refused and changes no slot. -/
example : (toyRun toyFull).sessions.map (fun s => (s.id, s.state)) = [(0xFFFD0007, .handshaking), (0xFFFC0009, .handshaking)] := by decide +kernel
example : (toyRun (toyFull ++ [Toy.keyExchangeFor 11])).sessions = (toyRun toyFull).sessions := by decide +kernel
/-- the hypotheses of `C22_end_session`. -/
example : (match Ctx.intoBuf2 (Toy.env.tr.decap Toy.endPacket) 4160 with
    | .ok (pkt, true) => (match openSecured Toy.env pkt (toyRun toyPackets) with
      | .ok r _ => some r
      | _ => none)
    | _ => none) = some (0xFFFD0007, [0x12, 0xEC, 0, 0], false) := by decide +kernel
example : ((toyRun toyPackets).session? 0xFFFD0007).map (·.state) = some .established ∧ SpdmVersion.ofCode 0x12 = (toyRun toyPackets).neg.version ∧
    (toyRun toyPackets).neg.reqDts = 4096 := by decide +kernel
example : (match processMessage Toy.env Toy.endPacket (toyRun toyPackets) with | .ok b c => some (b, c.sessions) | _ => none) =
    some (true, [Session.new, Session.new]) := by decide +kernel
/-- after the end the same packet has no effect. -/
example : (match processMessage Toy.env Toy.endPacket Toy.ended with | .ok _ c => some c.sessions | .err _ c => some c.sessions | _ => none) =
    some [Session.new, Session.new] := by decide +kernel

end Verif.Props
