/-
C72: the certificate chains a responder collects from its requester during mutual authentication (`mut-auth` feature).
-/
import Verif.Encap.Took
import Verif.Props.Conn
import Verif.Props.Phase
import Verif.Props.Table
import Verif.Spec.ToyMutual

namespace Verif.Props
open Verif.Encap Verif.Rsp

variable {e : Env}

/-- the certificate portion in a DELIVER_ENCAPSULATED_RESPONSE (code EB) that carries CERTIFICATE (code 02): after the two
headers come the slot, a reserved byte, the length of the portion, the number of bytes still to come, and the portion. -/
def portionIn : Bytes → Option Bytes
  | _ :: 0xEB :: _ :: _ :: _ :: 0x02 :: _ :: _ :: a :: b :: _ :: _ :: rest => some (rest.take (a.toNat + 256 * b.toNat))
  | _ => none

theorem portionIn_of {v sl id x : UInt8} {len rem : UInt16} {data rsp : Bytes} (h : IsPortion v sl len rem data rsp) :
    portionIn (v :: 0xEB :: id :: x :: rsp) = some data := by
  obtain ⟨p, rest, rfl, h1, h2⟩ := h
  have hlen : (len.toUInt8).toNat + 256 * ((len >>> 8).toUInt8).toNat = len.toNat := by
    rw [← decU16_toNat, dec_putU16]
  simp only [putU16, List.cons_append, List.nil_append, portionIn]
  rw [hlen, ← h1, List.take_append_of_le_length (Nat.le_refl _), List.take_length]

/-- the portions in a packet, given by what the responder decrypts it to. -/
def heardIn (e : Env) (rx : Bytes) (c : Ctx) : List Bytes :=
  match received e rx with
  | some (pkt, true) =>
    match openSecured e pkt c with
    | .ok (_, msg, false) _ => (portionIn msg).toList
    | _ => []
  | _ => []

theorem heardIn_of {rx msg : Bytes} {c c1 : Ctx} {sid : UInt32} (h : Opens e rx c sid msg false c1) : heardIn e rx c = (portionIn msg).toList := by
  obtain ⟨pkt, h1, h2⟩ := h
  unfold heardIn
  rw [h1]
  dsimp only
  rw [h2]

/-- one packet, whatever the result. -/
def Processed (e : Env) (rx : Bytes) (p p' : Responder) : Prop :=
  (∃ b, Encap.processMessage e rx p = .ok b p') ∨ Encap.processMessage e rx p = .err () p'

/-- the same without the feature. -/
def ProcessedBase (e : Env) (rx : Bytes) (c c' : Ctx) : Prop := (∃ b, Rsp.processMessage e rx c = .ok b c') ∨ Rsp.processMessage e rx c = .err () c'

theorem within_of {ε α : Type} {x : M ε Ctx α} {p : Responder} : within x p = match x p.c with
    | .ok a c => .ok a ⟨c, p.x⟩ | .err st c => .err st ⟨c, p.x⟩ | .panic => .panic := rfl

/-- a packet is handled as without the feature, or it is an encapsulation message of a session in its handshake. -/
theorem processed_cases {rx : Bytes} {p p' : Responder} (hT : Short p.c) (h : Processed e rx p p') :
    (ProcessedBase e rx p.c p'.c ∧ p'.x = p.x) ∨
    ∃ sid msg c1 s, Opens e rx p.c sid msg false c1 ∧ c1.session? sid = some s ∧ s.state = .handshaking ∧ c1.cc.inClear = false ∧
      ((∃ v t, msg = v :: 0xEB :: t) ∧ Handled e sid msg ⟨c1, p.x⟩ p' ∨ (∃ v t, msg = v :: 0xEA :: t) ∧ Handled e sid [] ⟨c1, p.x⟩ p') := by
  have hwithin : ∀ {α : Type} {x : M Unit Ctx α}, ((∃ b, within x p = .ok b p') ∨ within x p = .err () p') →
      ((∃ b, x p.c = .ok b p'.c) ∨ x p.c = .err () p'.c) ∧ p'.x = p.x := by
    intro α x hh
    simp only [within_of] at hh
    cases hx : x p.c with
    | panic => rw [hx] at hh; rcases hh with ⟨b, hh⟩ | hh <;> cases hh
    | ok a c => rw [hx] at hh; rcases hh with ⟨b, hh⟩ | hh <;> cases hh; exact ⟨.inl ⟨_, rfl⟩, rfl⟩
    | err a c => rw [hx] at hh; rcases hh with ⟨b, hh⟩ | hh <;> cases hh; exact ⟨.inr rfl, rfl⟩
  unfold Processed Encap.processMessage at h
  cases hd : Ctx.intoBuf2 (e.tr.decap rx) 4160 with
  | panic => rw [hd] at h; exact .inl (hwithin h)
  | err st => rw [hd] at h; exact .inl (hwithin h)
  | ok q =>
    obtain ⟨pkt, sec⟩ := q
    rw [hd] at h
    cases sec with
    | false => exact .inl (hwithin h)
    | true =>
      dsimp only at h
      have hrec : received e rx = some (pkt, true) := by unfold received; rw [hd]
      have hbase : Rsp.processMessage e rx p.c = match openSecured e pkt p.c with
          | .panic => .panic
          | .err _ c => .err () c
          | .ok (sid, msg, isApp) c => if isApp = true then Rsp.isOk (Rsp.dispatchApp e sid msg) c else Rsp.isOk (Rsp.dispatchSecured e sid msg) c := by
        unfold Rsp.processMessage
        rw [hd]
        simp only [Res.lift, M.mapErr, M.bind_apply]
        rw [if_pos trivial]
        rw [M.bind_apply]
        cases openSecured e pkt p.c with
        | panic => rfl
        | err x c => cases x; rfl
        | ok a c =>
          obtain ⟨sid, msg, isApp⟩ := a
          cases isApp <;> rfl
      cases ho : openSecured e pkt p.c with
      | panic => rw [ho] at h; rcases h with ⟨b, h⟩ | h <;> cases h
      | err x c =>
        rw [ho] at h; rw [ho] at hbase
        rcases h with ⟨b, h⟩ | h <;> cases h
        exact .inl ⟨.inr hbase, rfl⟩
      | ok a c1 =>
        obtain ⟨sid, msg, isApp⟩ := a
        rw [ho] at h; rw [ho] at hbase
        dsimp only at h hbase
        have hgo : ∀ x : M Unit Ctx Bool, Rsp.processMessage e rx p.c = x c1 → ((∃ b, within x ⟨c1, p.x⟩ = .ok b p') ∨ within x ⟨c1, p.x⟩ = .err () p') →
            ProcessedBase e rx p.c p'.c ∧ p'.x = p.x := by
          intro x hb hh
          simp only [within_of] at hh
          unfold ProcessedBase
          rw [hb]
          cases hx : x c1 with
          | panic => rw [hx] at hh; rcases hh with ⟨b, hh⟩ | hh <;> cases hh
          | ok a c => rw [hx] at hh; rcases hh with ⟨b, hh⟩ | hh <;> cases hh; exact ⟨.inl ⟨_, rfl⟩, rfl⟩
          | err a c => rw [hx] at hh; rcases hh with ⟨b, hh⟩ | hh <;> cases hh; exact ⟨.inr rfl, rfl⟩
        cases isApp with
        | true =>
          rw [if_pos rfl] at h hbase
          exact .inl (hgo _ hbase h)
        | false =>
          rw [if_neg (by decide)] at h hbase
          have hopen : Opens e rx p.c sid msg false c1 := ⟨pkt, hrec, ho⟩
          have hT1 : Short c1 := by
            obtain ⟨_, s, _, _, rfl⟩ := hopen.eq
            exact hT
          unfold Encap.isOk at h
          have hrest : encapsulating c1 sid msg ≠ some .reqGetEncapsulatedRequest → encapsulating c1 sid msg ≠ some .reqDeliverEncapsulatedResponse →
              ProcessedBase e rx p.c p'.c ∧ p'.x = p.x := by
            intro n1 n2
            have hx : Encap.dispatchSecured e sid msg ⟨c1, p.x⟩ = within (Rsp.dispatchSecured e sid msg) ⟨c1, p.x⟩ := by
              unfold Encap.dispatchSecured
              dsimp only
              split
              · rename_i g; exact absurd g n1
              · rename_i g; exact absurd g n2
              · rfl
            rw [hx, within_of] at h
            unfold ProcessedBase
            rw [hbase]
            unfold Rsp.isOk
            dsimp only at h
            cases hy : Rsp.dispatchSecured e sid msg c1 with
            | panic => rw [hy] at h; rcases h with ⟨b, h⟩ | h <;> cases h
            | ok a c => rw [hy] at h; rcases h with ⟨b, h⟩ | h <;> cases h; exact ⟨.inl ⟨_, rfl⟩, rfl⟩
            | err a c => rw [hy] at h; rcases h with ⟨b, h⟩ | h <;> cases h; exact ⟨.inl ⟨_, rfl⟩, rfl⟩
          have henc : ∀ k, encapsulating c1 sid msg = some k → ∃ s v t, c1.session? sid = some s ∧ s.state = .handshaking ∧ c1.cc.inClear = false ∧ msg = v :: k.get :: t := by
            intro k hk
            unfold encapsulating at hk
            cases hs : c1.session? sid with
            | none => rw [hs] at hk; cases hk
            | some s =>
              rw [hs] at hk
              match msg, hk with
              | [], hk => cases hk
              | [a], hk => cases hk
              | v :: k0 :: t, hk =>
                rw [header_read] at hk
                dsimp only at hk
                by_cases hc : s.state = .handshaking ∧ c1.cc.inClear = false ∧ (ReqRespCode.ofCode k0 = .reqGetEncapsulatedRequest ∨ ReqRespCode.ofCode k0 = .reqDeliverEncapsulatedResponse)
                · rw [if_pos hc] at hk
                  cases hk
                  exact ⟨s, v, t, rfl, hc.1, hc.2.1, by rw [ReqRespCode.get_ofCode]⟩
                · rw [if_neg hc] at hk; cases hk
          by_cases n1 : encapsulating c1 sid msg = some .reqGetEncapsulatedRequest
          · obtain ⟨s, v, t, g1, g2, gc, g3⟩ := henc _ n1
            have hx : Encap.dispatchSecured e sid msg ⟨c1, p.x⟩ = handleGet e sid msg ⟨c1, p.x⟩ := by unfold Encap.dispatchSecured; dsimp only; rw [n1]
            rw [hx] at h
            have hh := handleGet_handled (e := e) sid msg ⟨c1, p.x⟩ hT1
            unfold M.wp at hh
            refine .inr ⟨sid, msg, c1, s, hopen, g1, g2, gc, .inr ⟨⟨v, t, g3⟩, ?_⟩⟩
            cases hy : handleGet e sid msg ⟨c1, p.x⟩ with
            | panic => rw [hy] at h; rcases h with ⟨b, h⟩ | h <;> cases h
            | ok a c => rw [hy] at h hh; rcases h with ⟨b, h⟩ | h <;> cases h; exact hh
            | err a c => rw [hy] at h hh; rcases h with ⟨b, h⟩ | h <;> cases h; exact hh
          · by_cases n2 : encapsulating c1 sid msg = some .reqDeliverEncapsulatedResponse
            · obtain ⟨s, v, t, g1, g2, gc, g3⟩ := henc _ n2
              have hx : Encap.dispatchSecured e sid msg ⟨c1, p.x⟩ = handleDeliver e sid msg ⟨c1, p.x⟩ := by unfold Encap.dispatchSecured; dsimp only; rw [n2]
              rw [hx] at h
              have hh := handleDeliver_handled (e := e) sid msg ⟨c1, p.x⟩ hT1
              unfold M.wp at hh
              refine .inr ⟨sid, msg, c1, s, hopen, g1, g2, gc, .inl ⟨⟨v, t, g3⟩, ?_⟩⟩
              cases hy : handleDeliver e sid msg ⟨c1, p.x⟩ with
              | panic => rw [hy] at h; rcases h with ⟨b, h⟩ | h <;> cases h
              | ok a c => rw [hy] at h hh; rcases h with ⟨b, h⟩ | h <;> cases h; exact hh
              | err a c => rw [hy] at h hh; rcases h with ⟨b, h⟩ | h <;> cases h; exact hh
            · exact .inl (hrest n1 n2)

/-- some session is in use. -/
def AnySession (c : Ctx) : Prop := ∃ s ∈ c.sessions, s.state ≠ .notStarted

theorem all2_mem {R : Session → Session → Prop} {l m : List Session} (h : All2 R l m) {s' : Session} (hm : s' ∈ m) : ∃ s ∈ l, R s s' := by
  induction h with
  | nil => cases hm
  | cons a _ ih =>
    rcases List.mem_cons.1 hm with rfl | hm
    · exact ⟨_, List.mem_cons_self .., a⟩
    · obtain ⟨s, h1, h2⟩ := ih hm
      exact ⟨s, List.mem_cons_of_mem _ h1, h2⟩

theorem moves_ready {k : UInt8} {a b : ConnState} (h : Spec.Moves k a b) (hk : k ≠ 0x84) (hr : Spec.ready a = true) : Spec.ready b = true := by
  cases h with
  | stay => exact hr
  | version _ h => exact absurd h hk
  | versionUnsent _ h => exact absurd h hk
  | capabilities _ => exact hr
  | algorithms _ => rfl
  | digests _ _ _ => rfl
  | certificate _ _ _ => rfl
  | challenge _ _ _ => rfl

theorem inUse_any {c : Ctx} {sid : UInt32} (h : InUse c sid) : AnySession c := by
  obtain ⟨s, h1, h2⟩ := h
  exact ⟨s, List.mem_of_find?_eq_some h1, h2⟩

/-- a packet handled as without the feature leaves the peer's chains alone or, for GET_VERSION, clears them; sessions only exist after the
negotiation, which they outlive only unchanged. -/
theorem base_step (hl : HashLaw e) {rx : Bytes} {c c' : Ctx} (h : ProcessedBase e rx c c') (hready : AnySession c → Spec.ready c.rt.state = true) :
    (c'.peer = {} ∧ ¬ AnySession c') ∨
    (c'.peer = c.peer ∧ (AnySession c' → Spec.ready c'.rt.state = true) ∧
      (Spec.ready c.rt.state = true → Spec.ready c'.rt.state = true ∧ c'.prov = c.prov ∧ ∃ q, c'.neg = { c.neg with terminationPolicy := q })) := by
  have hstep : Step e rx c c' := by
    rcases h with ⟨b, h⟩ | h
    · exact (process_step hl rx c).ok h
    · exact (process_step hl rx c).err h
  rcases hstep with rfl | ⟨v, k, t, hp, hs⟩ | ⟨sid, hsec, hu, hs⟩
  · exact .inr ⟨rfl, hready, fun h => ⟨h, rfl, _, rfl⟩⟩
  · by_cases hk : k = 0x84
    · subst hk
      by_cases hgood : v = 0x10 ∧ 2 ≤ t.length
      · obtain ⟨rfl, hlen⟩ := hgood
        match t, hlen with
        | p1 :: p2 :: t, _ =>
          have hr := C25_restart c p1 p2 t rx hp
          have hres : Restarted [0x10, 0x84, p1, p2] c c' := by
            rcases h with ⟨b, h⟩ | h
            · exact (hr.ok h).1
            · exact (hr.err h).elim
          refine .inl ⟨hres.peer, ?_⟩
          rintro ⟨s, h1, h2⟩
          exact h2 (hres.no_session s h1).2
      · have hr := C25_malformed c v t rx hp (by
          by_cases hv : v = 0x10
          · right
            exact Nat.lt_of_not_le fun g => hgood ⟨hv, g⟩
          · exact .inl hv)
        have hres : c'.sessions = c.sessions ∧ c'.neg = c.neg ∧ c'.rt.state = c.rt.state ∧ c'.rt.messageA = c.rt.messageA ∧ c'.peer = c.peer ∧ c'.prov = c.prov := by
          rcases h with ⟨b, h⟩ | h
          · exact hr.ok h
          · exact (hr.err h).elim
        obtain ⟨r1, r2, r3, _, r5, r6⟩ := hres
        exact .inr ⟨r5, fun ⟨s, h1, h2⟩ => by rw [r3]; exact hready ⟨s, by rw [← r1]; exact h1, h2⟩,
          fun h => ⟨by rw [r3]; exact h, r6, c.neg.terminationPolicy, r2⟩⟩
    · have hdisp : (dispatch e (v :: k :: t) c = .ok () c') ∨ ∃ st, dispatch e (v :: k :: t) c = .err st c' := by
        unfold ProcessedBase at h
        rw [process_plain rx hp] at h
        unfold Rsp.isOk at h
        cases hx : dispatch e (v :: k :: t) c with
        | panic => rw [hx] at h; rcases h with ⟨b, h⟩ | h <;> cases h
        | ok a c => rw [hx] at h; rcases h with ⟨b, h⟩ | h <;> cases h; exact .inl rfl
        | err a c => rw [hx] at h; rcases h with ⟨b, h⟩ | h <;> cases h; exact .inr ⟨_, rfl⟩
      have hsent : (c' = c ∨ ∃ pkt, c' = { c with sent := c.sent ++ [pkt] }) →
          (c'.peer = {} ∧ ¬ AnySession c') ∨ (c'.peer = c.peer ∧ (AnySession c' → Spec.ready c'.rt.state = true) ∧
          (Spec.ready c.rt.state = true → Spec.ready c'.rt.state = true ∧ c'.prov = c.prov ∧ ∃ q, c'.neg = { c.neg with terminationPolicy := q })) := by
        rintro (rfl | ⟨pkt, rfl⟩)
        · exact .inr ⟨rfl, hready, fun h => ⟨h, rfl, _, rfl⟩⟩
        · exact .inr ⟨rfl, hready, fun h => ⟨h, rfl, _, rfl⟩⟩
      by_cases hr : Spec.ready c.rt.state = true
      · by_cases hE : k = 0xE1 ∨ k = 0xE3
        · have htoo : Spec.tooEarly k c.rt.state = true := by
            rcases hE with rfl | rfl <;> cases hst : c.rt.state <;> rw [hst] at hr <;> first | rfl | cases hr
          exact hsent (C24_too_early_effect c c' v k t htoo hdisp)
        · obtain ⟨g1, g2, g3, g4⟩ := hs.keep hk (fun h => hE (.inl h)) (fun h => hE (.inr h))
          have hr' := moves_ready hs.conn hk hr
          exact .inr ⟨hs.cfgs hk, fun _ => hr', fun _ => ⟨hr', g3, g1⟩⟩
      · have hno : ¬ AnySession c := fun h => hr (hready h)
        refine .inr ⟨hs.cfgs hk, fun hany => ?_, fun h => absurd h hr⟩
        have hnoE : ∀ (_ : k = 0xE4 ∨ k = 0xE6), c' = c := fun hkk => by
          have hx := C24_exchange_too_early (e := e) c v k t (by
            unfold Spec.exchangeTooEarly
            have : Spec.ready c.rt.state = false := by simpa using hr
            rw [this]; rcases hkk with rfl | rfl <;> rfl)
          rcases hdisp with h | ⟨st, h⟩
          · rw [hx] at h; cases h
          · rw [hx] at h; cases h; rfl
        exfalso
        apply hno
        rcases hs.table with h | ⟨h, _⟩ | ⟨h, _⟩ | ⟨h, _⟩ | ⟨sid, s, _, _, _, h5, h6, _⟩
        · obtain ⟨s, h1, h2⟩ := hany
          exact ⟨s, by rw [← h]; exact h1, h2⟩
        · exact absurd h hk
        · rw [hnoE (.inl h)] at hany; exact hany
        · rw [hnoE (.inr h)] at hany; exact hany
        · exact inUse_any ⟨s, h5, by rw [h6]; decide⟩
  · refine .inr ⟨hs.peer, fun _ => by rw [hs.state]; exact hready (inUse_any hu), fun h => ⟨by rw [hs.state]; exact h, hs.prov, c.neg.terminationPolicy, hs.neg⟩⟩

/-- a history of packets, each with its environment, and of the certificate portions delivered in them. -/
inductive EncapRun (p0 : Responder) : List (Env × Bytes) → List Bytes → Responder → Prop
  | start : EncapRun p0 [] [] p0
  | step {h ds p e rx p'} : EncapRun p0 h ds p → Processed e rx p p' → EncapRun p0 (h ++ [(e, rx)]) (ds ++ heardIn e rx p.c) p'

/-- where the peer's certificates come from. -/
structure Collected (h : List (Env × Bytes)) (ds : List Bytes) (p : Responder) : Prop where
  slot : p.x.reqSlot = 0
  short : Short p.c
  temp : ∀ t, p.c.peer.temp = some t → ∃ ps : List Bytes, ps.Sublist ds ∧ ps.flatten = t
  chains : ∀ i ch, p.c.peer.chain i = some ch → i = 0 ∧ ch.length < 4096 ∧ (∃ ps : List Bytes, ps.Sublist ds ∧ ps.flatten = ch) ∧ ∃ q ∈ h, Checked q.1 p.c ch
  ready : (AnySession p.c ∨ ∃ i, p.c.peer.chain i ≠ none) → Spec.ready p.c.rt.state = true

theorem checked_congr {c c' : Ctx} {ch : Bytes} (h : Checked e c ch) (h1 : c'.neg.baseHash = c.neg.baseHash) (h2 : c'.prov = c.prov) : Checked e c' ch := by
  obtain ⟨h⟩ := h
  exact ⟨by rw [h1, h2]; exact h⟩

theorem collected_step {h : List (Env × Bytes)} {ds : List Bytes} {p p' : Responder} {e : Env} {rx : Bytes} (hl : HashLaw e)
    (hc : Collected h ds p) (hp : Processed e rx p p') : Collected (h ++ [(e, rx)]) (ds ++ heardIn e rx p.c) p' := by
  have hmore : ∀ {x : Bytes}, (∃ ps : List Bytes, ps.Sublist ds ∧ ps.flatten = x) → ∃ ps : List Bytes, ps.Sublist (ds ++ heardIn e rx p.c) ∧ ps.flatten = x := by
    rintro x ⟨ps, h1, h2⟩
    exact ⟨ps, h1.trans (List.sublist_append_left ..), h2⟩
  rcases processed_cases hc.short hp with ⟨hb, hx⟩ | ⟨sid, msg, c1, s, hopen, hs1, hs2, -, hh⟩
  · rcases base_step hl hb (fun h => hc.ready (.inl h)) with ⟨h1, h2⟩ | ⟨h1, h2, h3⟩
    · refine ⟨by rw [hx]; exact hc.slot, ?_, ?_, ?_, ?_⟩
      · intro t ht; rw [h1] at ht; cases ht
      · intro t ht; rw [h1] at ht; cases ht
      · intro i ch ht; rw [h1] at ht; cases ht
      · rintro (h | ⟨i, h⟩)
        · exact absurd h h2
        · rw [h1] at h; exact absurd rfl h
    · refine ⟨by rw [hx]; exact hc.slot, ?_, ?_, ?_, ?_⟩
      · intro t ht; rw [h1] at ht; exact hc.short t ht
      · intro t ht; rw [h1] at ht; exact hmore (hc.temp t ht)
      · intro i ch ht
        rw [h1] at ht
        obtain ⟨g1, g2, g3, q, g4, g5⟩ := hc.chains i ch ht
        obtain ⟨_, r2, z, r3⟩ := h3 (hc.ready (.inr ⟨i, by rw [ht]; exact Option.some_ne_none _⟩))
        exact ⟨g1, g2, hmore g3, q, List.mem_append_left _ g4, checked_congr g5 (by rw [r3]) r2⟩
      · rintro (h | ⟨i, h⟩)
        · exact h2 h
        · rw [h1] at h; exact (h3 (hc.ready (.inr ⟨i, h⟩))).1
  · obtain ⟨_, s0, g1, g2, rfl⟩ := hopen.eq
    have hready : Spec.ready p.c.rt.state = true := hc.ready (.inl (inUse_any ⟨s0, g1, g2⟩))
    have hfin : ∀ m, Handled e sid m ⟨p.c.updSession sid (·.bump true), p.x⟩ p' → (m = msg ∨ m = []) → (∀ v k t, m = v :: k :: t → k = 0xEB) →
        Collected (h ++ [(e, rx)]) (ds ++ heardIn e rx p.c) p' := by
      intro m hm hmm hk
      have hr : ∃ sl, p'.c.rt = { p.c.rt with peerSlot := sl } := hm.rt
      have hst : p'.c.rt.state = p.c.rt.state := by obtain ⟨sl, h⟩ := hr; rw [h]
      have hdeliver : ∀ v sl rem data, Delivers v sl rem data m → heardIn e rx p.c = [data] := by
        rintro v sl rem data ⟨k, id, x, len, rsp, g3, g4⟩
        have := hk _ _ _ g3
        subst this
        rcases hmm with rfl | rfl
        · rw [heardIn_of hopen, g3, portionIn_of g4]; rfl
        · cases g3
      have htook : Took e p.x.reqSlot m p.c p'.c := by
        rcases hm.took with ⟨b1, b2, b3⟩ | ⟨t, data, rem, b1, b2, b3, b4, b5, b6, b7⟩ | ⟨t, data, i, b1, b2, b3, b4, b5, b6, b7, b8⟩
        · exact .kept b1 b2 b3
        · exact .part t data rem b1 b2 b3 b4 b5 b6 b7
        · exact .stored t data i b1 b2 b3 ⟨b4.ok⟩ b5 b6 b7 b8
      have hsame : p'.c.neg = p.c.neg := hm.neg
      have hprov : p'.c.prov = p.c.prov := hm.prov
      have hold : p'.c.peer.chain = p.c.peer.chain → ∀ i ch, p'.c.peer.chain i = some ch → i = 0 ∧ ch.length < 4096 ∧
          (∃ ps : List Bytes, ps.Sublist (ds ++ heardIn e rx p.c) ∧ ps.flatten = ch) ∧ ∃ q ∈ h ++ [(e, rx)], Checked q.1 p'.c ch := by
        intro hch i ch hi
        rw [hch] at hi
        obtain ⟨r1, r2, r3, q, r4, r5⟩ := hc.chains i ch hi
        exact ⟨r1, r2, hmore r3, q, List.mem_append_left _ r4, checked_congr r5 (by rw [hsame]) hprov⟩
      have hnew : ∀ t data, p.c.peer.temp = some t → heardIn e rx p.c = [data] → ∃ ps : List Bytes, ps.Sublist (ds ++ heardIn e rx p.c) ∧ ps.flatten = t ++ data := by
        intro t data ht hd
        obtain ⟨ps, r1, r2⟩ := hc.temp t ht
        refine ⟨ps ++ [data], ?_, by rw [List.flatten_append, r2]; simp⟩
        rw [hd]; exact r1.append_right _
      refine ⟨hm.slot.trans hc.slot, hm.short hc.short, ?_, ?_, fun _ => by rw [hst]; exact hready⟩
      · intro t ht
        rcases htook with ⟨b1, b2, b3⟩ | ⟨t0, data, rem, b1, b2, b3, b4, b5, b6, b7⟩ | ⟨t0, data, i, b1, b2, b3, b4, b5, b6, b7, b8⟩
        · rcases b3 with b3 | b3 | ⟨_, b3⟩
          · rw [b3] at ht; exact hmore (hc.temp t ht)
          · rw [b3] at ht; cases ht
          · rw [b3] at ht; cases ht; exact ⟨[], List.nil_sublist _, rfl⟩
        · rw [b7] at ht; cases ht; exact hnew t0 data b1 (hdeliver _ _ _ _ b2)
        · rw [b8] at ht; cases ht
      · rcases htook with ⟨b1, b2, b3⟩ | ⟨t0, data, rem, b1, b2, b3, b4, b5, b6, b7⟩ | ⟨t0, data, j, b1, b2, b3, b4, b5, b6, b7, b8⟩
        · exact hold b1
        · exact hold b5
        · intro i ch hi
          rw [b6] at hi
          dsimp only at hi
          by_cases hij : i = j
          · rw [if_pos hij] at hi
            cases hi
            rw [hc.slot] at b5
            exact ⟨hij.trans (Fin.ext b5), by rw [List.length_append]; exact b3, hnew t0 data b1 (hdeliver _ _ _ _ b2),
              (e, rx), List.mem_append_right _ (List.mem_singleton.2 rfl), checked_congr b4 (by rw [hsame]) hprov⟩
          · rw [if_neg hij] at hi
            obtain ⟨r1, r2, r3, q, r4, r5⟩ := hc.chains i ch hi
            exact ⟨r1, r2, hmore r3, q, List.mem_append_left _ r4, checked_congr r5 (by rw [hsame]) hprov⟩
    rcases hh with ⟨⟨v, t, rfl⟩, hh⟩ | ⟨⟨v, t, rfl⟩, hh⟩
    · exact hfin _ hh (.inl rfl) (fun _ _ _ h => by cases h; rfl)
    · exact hfin _ hh (.inr rfl) (fun _ _ _ h => by cases h)

/-- **C72**: the chains a responder holds of its requester.  After any history of packets, whatever they contain, a chain is only in slot 0, it was put together from portions that were
delivered inside a session, in the order in which they came, it is shorter than 4096 bytes, and it satisfies the checks of `ChainValid` (length field, path validation, digest of the root
certificate and provisioned root), under the parameters negotiated now. -/
theorem C72_chains (p0 p : Responder) (h : List (Env × Bytes)) (ds : List Bytes) (h0 : p0.c.peer = {} ∧ ¬ AnySession p0.c ∧ p0.x.reqSlot = 0) (hl : ∀ q ∈ h, HashLaw q.1)
    (hr : EncapRun p0 h ds p) (i : Fin 8) (ch : Bytes) (hi : p.c.peer.chain i = some ch) :
    i = 0 ∧ ch.length < 4096 ∧ (∃ ps : List Bytes, ps.Sublist ds ∧ ps.flatten = ch) ∧ ∃ q ∈ h, Checked q.1 p.c ch := by
  have hc : Collected h ds p := by
    clear hi
    induction hr with
    | start =>
      obtain ⟨h1, h2, h3⟩ := h0
      refine ⟨h3, ?_, ?_, ?_, ?_⟩
      · intro t ht; rw [h1] at ht; cases ht
      · intro t ht; rw [h1] at ht; cases ht
      · intro i ch ht; rw [h1] at ht; cases ht
      · rintro (h | ⟨i, h⟩)
        · exact absurd h h2
        · rw [h1] at h; exact absurd rfl h
    | step hr hp ih =>
      exact collected_step (hl _ (List.mem_append_right _ (List.mem_singleton.2 rfl))) (ih fun q hq => hl q (List.mem_append_left _ hq)) hp
  exact hc.chains i ch hi

/-- **C72**: one packet changes the chains a responder holds only if it is GET_VERSION outside a session, which clears all of them, or if it opens, in a session in its handshake, to
DELIVER_ENCAPSULATED_RESPONSE with the last portion of a valid chain, which goes to slot 0; then that slot is the one FINISH is checked against. -/
theorem C72_step (hl : HashLaw e) (rx : Bytes) (p p' : Responder) (hT : Short p.c) (hready : AnySession p.c → Spec.ready p.c.rt.state = true) (h : Processed e rx p p') :
    p'.c.peer.chain = p.c.peer.chain ∨ p'.c.peer = {} ∨
    ∃ sid msg c1 s t data, Opens e rx p.c sid msg false c1 ∧ p.c.session? sid = some s ∧ s.state = .handshaking ∧ p.c.peer.temp = some t ∧ portionIn msg = some data ∧
      Checked e p.c (t ++ data) ∧ p'.c.rt.peerSlot = p.x.reqSlot ∧
      p'.c.peer.chain = fun j => if j.val = p.x.reqSlot.toNat then some (t ++ data) else p.c.peer.chain j := by
  rcases processed_cases hT h with ⟨hb, hx⟩ | ⟨sid, msg, c1, s, hopen, hs1, hs2, -, hh⟩
  · rcases base_step hl hb hready with ⟨h1, _⟩ | ⟨h1, _⟩
    · exact .inr (.inl h1)
    · exact .inl (by rw [h1])
  · have hopen' := hopen
    obtain ⟨_, s0, g1, g2, rfl⟩ := hopen.eq
    have hst : s0.state = .handshaking := by
      have := Rsp.session?_upd (c := p.c) (f := (·.bump true)) g1 (by rw [Session.bump_id]; exact session?_id g1)
      rw [this] at hs1
      cases hs1
      rwa [Session.bump_state] at hs2
    rcases hh with ⟨⟨v, t0, rfl⟩, hh⟩ | ⟨⟨v, t0, rfl⟩, hh⟩
    · rcases hh.took with ⟨b1, b2, b3⟩ | ⟨t, data, rem, b1, b2, b3, b4, b5, b6, b7⟩ | ⟨t, data, j, b1, b2, b3, b4, b5, b6, b7, b8⟩
      · exact .inl b1
      · exact .inl b5
      · obtain ⟨k, id, x, len, rsp, g3, g4⟩ := b2
        cases g3
        refine .inr (.inr ⟨sid, _, _, s0, t, data, hopen', g1, hst, b1, portionIn_of g4, ⟨b4.ok⟩, b7, ?_⟩)
        rw [b6]
        funext i
        have hij : i = j ↔ i.val = p.x.reqSlot.toNat := by rw [← b5]; exact Fin.ext_iff
        by_cases h0 : i = j
        · rw [if_pos h0, if_pos (hij.1 h0)]
        · rw [if_neg h0, if_neg (fun g => h0 (hij.2 g))]; rfl
    · rcases hh.took with ⟨b1, b2, b3⟩ | ⟨t, data, rem, b1, b2, b3, b4, b5, b6, b7⟩ | ⟨t, data, j, b1, b2, b3, b4, b5, b6, b7, b8⟩
      · exact .inl b1
      · exact .inl b5
      · obtain ⟨k, id, x, len, rsp, g3, g4⟩ := b2
        cases g3

/-- **C72**: an encapsulation message never changes a session's phase or keys, nor what was negotiated: besides the certificates only the record counters of its session advance. -/
theorem C72_only (rx : Bytes) (p p' : Responder) (hT : Short p.c) (h : Processed e rx p p') :
    (ProcessedBase e rx p.c p'.c ∧ p'.x = p.x) ∨
    ∃ sid s, p.c.session? sid = some s ∧ s.state = .handshaking ∧
      (p'.c.sessions = Ctx.updFirst (·.id = sid) (·.bump true) p.c.sessions ∨ p'.c.sessions = Ctx.updFirst (·.id = sid) (fun s => (s.bump true).bump false) p.c.sessions) ∧
      p'.c.neg = p.c.neg ∧ p'.c.config = p.c.config ∧ p'.c.prov = p.c.prov ∧ (∃ sl, p'.c.rt = { p.c.rt with peerSlot := sl }) ∧ p.c.sent <+: p'.c.sent := by
  rcases processed_cases hT h with hb | ⟨sid, msg, c1, s, hopen, hs1, hs2, -, hh⟩
  · exact .inl hb
  · obtain ⟨_, s0, g1, g2, rfl⟩ := hopen.eq
    have hst : s0.state = .handshaking := by
      have := Rsp.session?_upd (c := p.c) (f := (·.bump true)) g1 (by rw [Session.bump_id]; exact session?_id g1)
      rw [this] at hs1
      cases hs1
      rwa [Session.bump_state] at hs2
    have hfin : ∀ m, Handled e sid m ⟨p.c.updSession sid (·.bump true), p.x⟩ p' →
        (p'.c.sessions = Ctx.updFirst (·.id = sid) (·.bump true) p.c.sessions ∨ p'.c.sessions = Ctx.updFirst (·.id = sid) (fun s => (s.bump true).bump false) p.c.sessions) ∧
        p'.c.neg = p.c.neg ∧ p'.c.config = p.c.config ∧ p'.c.prov = p.c.prov ∧ (∃ sl, p'.c.rt = { p.c.rt with peerSlot := sl }) ∧ p.c.sent <+: p'.c.sent := by
      intro m hm
      refine ⟨?_, hm.neg, hm.config, hm.prov, hm.rt, hm.sent⟩
      rcases hm.sessions with h | h
      · exact .inl h
      · refine .inr (h.trans ?_)
        exact updFirst_updFirst (fun s hs => by rw [Session.bump_id]; exact hs) _
    refine .inr ⟨sid, s0, g1, hst, ?_⟩
    rcases hh with ⟨_, hh⟩ | ⟨_, hh⟩
    · exact hfin _ hh
    · exact hfin _ hh

/-! ### A concrete responder; C73 what it does not check -/

theorem runMutual_run {p0 : Responder} {h : List (Env × Bytes)} {ds : List Bytes} (l : List Bytes) : ∀ {p p' : Responder}, EncapRun p0 h ds p → Toy.runMutual e p l = some p' →
    ∃ ds', EncapRun p0 (h ++ l.map (e, ·)) ds' p' := by
  induction l generalizing h ds with
  | nil => intro p p' hr hx; cases hx; exact ⟨ds, by simpa using hr⟩
  | cons rx l ih =>
    intro p p' hr hx
    unfold Toy.runMutual at hx
    cases hy : Encap.processMessage e rx p with
    | panic => rw [hy] at hx; cases hx
    | ok b p1 =>
      rw [hy] at hx
      obtain ⟨ds', h'⟩ := ih (hr.step (.inl ⟨b, hy⟩)) hx
      exact ⟨ds', by simpa using h'⟩
    | err b p1 =>
      rw [hy] at hx
      obtain ⟨ds', h'⟩ := ih (hr.step (.inr hy)) hx
      exact ⟨ds', by simpa using h'⟩

/-- a responder without ENCAP_CAP. -/
def quietRsp : Responder := { c := Ctx.new Toy.cfg { chainData := fun i => if i = 0 then some [1, 2, 3, 4, 5, 6, 7, 8] else none } 2 }

/-- a chain of one certificate with a correct length field and a correct digest of its root certificate. -/
def smallChain : Bytes := [45, 0, 0, 0] ++ (Toy.menv.crypto.hash 1 [9, 8, 7, 6]).getD [] ++ [9, 8, 7, 6, 5, 4, 3, 2, 1]

/-- after the packets `l` and then the messages `ms` in sessions, each given by the position of its session in the table. -/
def talkTo (l : List Bytes) (ms : List (Nat × Bytes)) : Option (Responder × List Bytes) :=
  ms.foldl (fun r m => r.bind fun (p, done) => (Toy.runMutual Toy.menv p [Toy.sealIn m.1 p.c m.2]).map fun p' => (p', done ++ [Toy.sealIn m.1 p.c m.2]))
    ((Toy.runMutual Toy.menv quietRsp l).map fun p => (p, l))

/-- DELIVER_ENCAPSULATED_RESPONSE with DIGESTS of a chain nobody has. -/
def falseDigests : Bytes := [8, 0x12, 0xEB, 0, 0, 0x12, 0x01, 0, 1] ++ List.replicate 32 7
/-- DELIVER_ENCAPSULATED_RESPONSE with bytes `i`..`j` of `smallChain`. -/
def deliverPart (i j : Nat) : Bytes := [8, 0x12, 0xEB, 0, 0, 0x12, 0x02, 0, 0, (j - i).toUInt8, 0, (45 - j).toUInt8, 0] ++ (smallChain.drop i).take (j - i)

theorem talkTo_run {l : List Bytes} {ms : List (Nat × Bytes)} {r : Responder × List Bytes} (h : talkTo l ms = some r) : ∃ ds, EncapRun quietRsp (r.2.map (Toy.menv, ·)) ds r.1 := by
  have hgen : ∀ (ms : List (Nat × Bytes)) (o : Option (Responder × List Bytes)), (∀ q, o = some q → ∃ ds, EncapRun quietRsp (q.2.map (Toy.menv, ·)) ds q.1) →
      ∀ r, ms.foldl (fun r m => r.bind fun (p, done) => (Toy.runMutual Toy.menv p [Toy.sealIn m.1 p.c m.2]).map fun p' => (p', done ++ [Toy.sealIn m.1 p.c m.2])) o = some r →
      ∃ ds, EncapRun quietRsp (r.2.map (Toy.menv, ·)) ds r.1 := by
    intro ms
    induction ms with
    | nil => intro o ho r hr; exact ho r hr
    | cons m ms ih =>
      intro o ho r hr
      refine ih _ ?_ r hr
      intro q hq
      cases o with
      | none => cases hq
      | some o =>
        obtain ⟨p, done⟩ := o
        simp only [Option.bind_some] at hq
        cases hx : Toy.runMutual Toy.menv p [Toy.sealIn m.1 p.c m.2] with
        | none => rw [hx] at hq; cases hq
        | some p' =>
          rw [hx] at hq
          cases hq
          obtain ⟨ds, hd⟩ := ho _ rfl
          obtain ⟨ds', hd'⟩ := runMutual_run _ hd hx
          exact ⟨ds', by simpa using hd'⟩
  refine hgen ms _ ?_ r h
  intro q hq
  cases hx : Toy.runMutual Toy.menv quietRsp l with
  | none => rw [hx] at hq; cases hq
  | some p =>
    rw [hx] at hq
    cases hq
    obtain ⟨ds, hd⟩ := runMutual_run (e := Toy.menv) l (.start (p0 := quietRsp)) hx
    exact ⟨ds, by simpa using hd⟩

/-- the responder starts without chains and sessions. -/
theorem quietRsp_start : quietRsp.c.peer = {} ∧ ¬ AnySession quietRsp.c ∧ quietRsp.x.reqSlot = 0 := by
  refine ⟨rfl, ?_, rfl⟩
  rintro ⟨s, h1, h2⟩
  have : s ∈ [Session.new, Session.new] := h1
  rcases List.mem_cons.1 this with rfl | h
  · exact h2 rfl
  · rcases List.mem_cons.1 h with rfl | h
    · exact h2 rfl
    · cases h

/- the history of `C72_chains` on which a chain is stored -/
example : (talkTo [Toy.version, Toy.capabilities, Toy.algorithms, Toy.keyExchange] [(0, falseDigests), (0, deliverPart 0 20), (0, deliverPart 20 45)]).map (fun r => r.1.c.peer.chain 0) =
    some (some smallChain) := by decide +kernel

/-- **C73**, finding: neither ENCAP_CAP nor the order of requests nor the digests are checked.  A responder that never announced ENCAP_CAP and was never asked for its certificate
stores the chain of a requester, and does so although the requester has just reported other digests. -/
theorem C73_unchecked_violated : ∃ (p : Responder) (h : List (Env × Bytes)) (ds : List Bytes) (l : List Bytes), h = l.map (Toy.menv, ·) ∧ EncapRun quietRsp h ds p ∧
    p.c.neg.rspCaps &&& 0x1000 = 0 ∧ p.c.rt.state = .negotiated ∧ p.c.peer.chain 0 = some smallChain ∧ Toy.menv.crypto.hash p.c.neg.baseHash smallChain ≠ some (List.replicate 32 7) := by
  have hrun : ∃ r, talkTo [Toy.version, Toy.capabilities, Toy.algorithms, Toy.keyExchange] [(0, falseDigests), (0, deliverPart 0 45)] = some r ∧
      r.1.c.neg.rspCaps &&& 0x1000 = 0 ∧ r.1.c.rt.state = .negotiated ∧ r.1.c.peer.chain 0 = some smallChain ∧
      Toy.menv.crypto.hash r.1.c.neg.baseHash smallChain ≠ some (List.replicate 32 7) := by
    have hd : ((talkTo [Toy.version, Toy.capabilities, Toy.algorithms, Toy.keyExchange] [(0, falseDigests), (0, deliverPart 0 45)]).map fun r =>
        decide (r.1.c.neg.rspCaps &&& 0x1000 = 0 ∧ r.1.c.rt.state = .negotiated ∧ r.1.c.peer.chain 0 = some smallChain ∧
          Toy.menv.crypto.hash r.1.c.neg.baseHash smallChain ≠ some (List.replicate 32 7))) = some true := by decide +kernel
    cases hx : talkTo [Toy.version, Toy.capabilities, Toy.algorithms, Toy.keyExchange] [(0, falseDigests), (0, deliverPart 0 45)] with
    | none => rw [hx] at hd; cases hd
    | some r =>
      rw [hx] at hd
      have := of_decide_eq_true (Option.some.inj hd)
      exact ⟨r, rfl, this⟩
  obtain ⟨r, h1, h2⟩ := hrun
  obtain ⟨ds, hd⟩ := talkTo_run h1
  exact ⟨r.1, _, ds, r.2, rfl, hd, h2⟩

/-- **C73**, finding: portions of one chain may come in different sessions; what was collected belongs to the connection. -/
theorem C73_sessions_violated : ∃ (p : Responder) (h : List (Env × Bytes)) (ds : List Bytes), EncapRun quietRsp h ds p ∧ p.c.peer.chain 0 = some smallChain ∧
    ((talkTo [Toy.version, Toy.capabilities, Toy.algorithms, Toy.keyExchange, Toy.keyExchangeFor 8] [(0, falseDigests), (0, deliverPart 0 20), (1, deliverPart 20 45)]).map (·.1.c.peer.chain 0)) =
      some (some smallChain) := by
  have hd : ((talkTo [Toy.version, Toy.capabilities, Toy.algorithms, Toy.keyExchange, Toy.keyExchangeFor 8] [(0, falseDigests), (0, deliverPart 0 20), (1, deliverPart 20 45)]).map (·.1.c.peer.chain 0)) =
      some (some smallChain) := by decide +kernel
  cases hx : talkTo [Toy.version, Toy.capabilities, Toy.algorithms, Toy.keyExchange, Toy.keyExchangeFor 8] [(0, falseDigests), (0, deliverPart 0 20), (1, deliverPart 20 45)] with
  | none => rw [hx] at hd; cases hd
  | some r =>
    obtain ⟨ds, hr⟩ := talkTo_run hx
    rw [hx] at hd
    exact ⟨r.1, _, ds, hr, Option.some.inj hd, by simpa using hd⟩

/-- **C73**, finding: a response the responder cannot use is answered by an ENCAPSULATED_RESPONSE_ACK whose parameters are an ERROR message: after the two bytes of the header the requester
reads the version as the request number and 0x7F as the kind of what follows. -/
theorem C73_garbled_violated (c : Ctx) (x : Asking) (k0 id y k : UInt8) (t : Bytes) (hv : c.neg.version = .v11 ∨ c.neg.version = .v12) (hk : k ≠ 0x01 ∧ k ≠ 0x02) :
    ackBody e (c.neg.version.get :: k0 :: id :: y :: c.neg.version.get :: k :: t) ⟨c, x, Writer.init 4096⟩ =
      .ok () ⟨c, x, ⟨4096, [c.neg.version.get, 0x6B] ++ [c.neg.version.get, 0x7F, 0x09, 0]⟩⟩ := by
  have hv' : SpdmVersion.ofCode c.neg.version.get = c.neg.version := by rcases hv with h | h <;> rw [h] <;> rfl
  have hk1 : ReqRespCode.ofCode k ≠ .rspDigests := fun h => hk.1 (by have := congrArg ReqRespCode.get h; simp at this; exact this)
  have hk2 : ReqRespCode.ofCode k ≠ .rspCertificate := fun h => hk.2 (by have := congrArg ReqRespCode.get h; simp at this; exact this)
  unfold ackBody
  rw [header_read]
  dsimp only
  rw [if_neg (by rw [hv']; simp)]
  have hr : rdId ⟨id :: y :: c.neg.version.get :: k :: t, 2⟩ = .ok id ⟨c.neg.version.get :: k :: t, 4⟩ := by simp [rdId]
  rw [hr]
  dsimp only
  have hd : (c.neg.version.get :: k0 :: id :: y :: c.neg.version.get :: k :: t).drop 4 = c.neg.version.get :: k :: t := rfl
  rw [hd]
  have hp : processResponse e id (c.neg.version.get :: k :: t) ⟨c, x, Writer.init 4096⟩ = .err .unsupportedCap ⟨c, x, ⟨4096, [c.neg.version.get, 0x6B]⟩⟩ := by
    unfold processResponse
    rw [M.bind_apply, M.get_apply]
    dsimp only
    rw [header_read]
    dsimp only
    rw [if_neg (by rw [hv']; simp), M.bind_apply, ackHeader_eq ⟨rfl, by simp [Writer.init]⟩]
    dsimp only
    have : respond e (ReqRespCode.ofCode k) id (c.neg.version.get :: k :: t) = M.fail .unsupportedCap := by
      generalize ReqRespCode.ofCode k = kk at hk1 hk2
      cases kk <;> first | rfl | exact absurd rfl hk1 | exact absurd rfl hk2
    rw [this]
    rfl
  rw [hp]
  dsimp only
  rw [writeErr_eq _ _ ⟨rfl, by simp⟩]
  rfl

end Verif.Props
