/-
C74: mutual authentication at FINISH, over every history of a responder built with `mut-auth`.
-/
import Verif.Props.EncapRsp
import Verif.Props.Finish
import Verif.Responder.Kinds

namespace Verif.Props
open Verif.Encap Verif.Rsp

variable {e : Env}

/-- the FINISH message `bytes` of session `s` carries a signature of the requester: it verifies under the leaf key of `chain`, which the responder
holds in the slot it uses for its peer, over the transcript of the session, the digest of that same chain and the start of the message (when no earlier FINISH of the session
has already put a digest into the transcript). -/
def RequesterSigned (e : Env) (c : Ctx) (s : Session) (bytes chain : Bytes) : Prop :=
  ∃ v slot sig rest x d h, bytes = [v, 0xE5, 1, slot] ++ sig ++ rest ∧ s.th = some x ∧
    (s.fInit = false → e.crypto.hash c.neg.baseHash chain = some d) ∧ (s.fInit = true → d = []) ∧
    e.crypto.hash x.algo (x.data ++ d ++ [v, 0xE5, 1, slot]) = some h ∧ Spec.PeerSigned e c chain h sig

/-- the ways session `s` can enter its application phase in a responder that asks for mutual authentication, when packet `rx` arrives after the history `h` in which the certificate portions
`ds` were delivered. -/
inductive MutuallyEstablished (e : Env) (rx : Bytes) (h : List (Env × Bytes)) (ds : List Bytes) (c : Ctx) (s : Session) : Prop
  /-- a verified FINISH, in the session or, when the handshake is in the clear, outside; the requester has signed under a chain that was delivered and validated -/
  | finish (bytes chain : Bytes) : ((∃ c1, Opens e rx c s.id bytes false c1) ∨ Plain e rx bytes ∧ c.cc.inClear = true) → s.state = .handshaking → s.usePsk = false →
      Spec.FinishVerified e c s bytes → RequesterSigned e c s bytes chain → c.peer.chain 0 = some chain → chain.length < 4096 → (∃ ps : List Bytes, ps.Sublist ds ∧ ps.flatten = chain) →
      (∃ q ∈ h, Checked q.1 c chain) → MutuallyEstablished e rx h ds c s
  /-- a verified PSK_FINISH -/
  | pskFinish (bytes : Bytes) (c1 : Ctx) : Opens e rx c s.id bytes false c1 → s.state = .handshaking → s.usePsk = true → Spec.PskFinishVerified e c s bytes → MutuallyEstablished e rx h ds c s
  /-- a PSK_EXCHANGE that opens a session in a free slot, on a connection whose PSK sessions have no PSK_FINISH -/
  | pskExchange (v : UInt8) (t : Bytes) : Plain e rx (v :: 0xE6 :: t) → c.cc.pskNoContext = true → s.id = 0 → MutuallyEstablished e rx h ds c s
  /-- application data whose answer, given by the application, looks like FINISH_RSP or PSK_FINISH_RSP -/
  | application (msg b : Bytes) (c1 : Ctx) : Opens e rx c s.id msg true c1 → e.app s.id msg = some b → IsFinishRsp b → MutuallyEstablished e rx h ds c s

/-! ### Histories -/

/-- how one packet changes the table. -/
theorem processed_table {rx : Bytes} {p p' : Responder} (hT : Short p.c) (h : Processed e rx p p') :
    ProcessedBase e rx p.c p'.c ∨ ∃ sid s, p.c.session? sid = some s ∧ s.state = .handshaking ∧ p.c.cc.inClear = false ∧
      ∃ f : Session → Session, (∀ s, Session.Keep s (f s)) ∧ p'.c.sessions = Ctx.updFirst (·.id = sid) f p.c.sessions := by
  rcases processed_cases hT h with hb | ⟨sid, msg, c1, s, hopen, hs1, hs2, hclear, hh⟩
  · exact .inl hb.1
  · obtain ⟨_, s0, g1, g2, rfl⟩ := hopen.eq
    have hst : s0.state = .handshaking := by
      have := Rsp.session?_upd (c := p.c) (f := (·.bump true)) g1 (by rw [Session.bump_id]; exact session?_id g1)
      rw [this] at hs1
      cases hs1
      rwa [Session.bump_state] at hs2
    have hk : ∀ (s : Session) r, s.Keep (s.bump r) := fun s r => ⟨Session.bump_id s r, Session.bump_state s r, (Session.bump_kind s r).1, (Session.bump_kind s r).2⟩
    refine .inr ⟨sid, s0, g1, hst, hclear, ?_⟩
    have hfin : ∀ m, Handled e sid m ⟨p.c.updSession sid (·.bump true), p.x⟩ p' →
        ∃ f : Session → Session, (∀ s, Session.Keep s (f s)) ∧ p'.c.sessions = Ctx.updFirst (·.id = sid) f p.c.sessions := by
      intro m hm
      rcases hm.sessions with h | h
      · exact ⟨(·.bump true), fun s => hk s _, h⟩
      · exact ⟨fun s => (s.bump true).bump false, fun s => M.Pre.trans (R := Session.Keep) (hk s true) (hk _ false),
          h.trans (updFirst_updFirst (fun s hs => by rw [Session.bump_id]; exact hs) _)⟩
    rcases hh with ⟨_, hh⟩ | ⟨_, hh⟩
    · exact hfin _ hh
    · exact hfin _ hh

theorem tabled_step {n : Nat} (hn : n < 0xFFFD) (hl : HashLaw e) {rx : Bytes} {p p' : Responder} (hT : Short p.c) (h : Processed e rx p p') (ht : Tabled n p.c) : Tabled n p'.c := by
  obtain ⟨h1, h2⟩ := ht
  rcases processed_table hT h with hb | ⟨sid, s, g1, g2, -, f, hf, hs⟩
  · have hstep : Step e rx p.c p'.c := by
      rcases hb with ⟨b, hb⟩ | hb
      · exact (process_step hl rx p.c).ok hb
      · exact (process_step hl rx p.c).err hb
    exact ⟨hstep.length.trans h1, hstep.table h2 (by omega)⟩
  · refine ⟨by rw [hs, updFirst_length, h1], ?_⟩
    obtain ⟨t1, t2⟩ := h2.find (by omega) g1
    have h0 : sid ≠ 0 := by
      rintro rfl
      have := (t2.1 t1).notStarted
      rw [g2] at this
      cases this
    refine h2.change h0 (fun s s' (hR : Loc (some sid) s s') => ?_) (by rw [hs]; exact loc_updFirst _ fun s _ => hf s)
    rcases hR with hR | ⟨h3, h4⟩
    · exact .inl hR
    · have : s.id = sid := by simpa using h3.symm
      exact .inr ⟨this, .inl (by rw [h4.1, this])⟩

theorem due_step {rx : Bytes} {p p' : Responder} (hT : Short p.c) (h : Processed e rx p p') (hd : AllDue e.mutAuth p.c) : AllDue e.mutAuth p'.c := by
  rcases processed_table hT h with hb | ⟨sid, s, g1, g2, -, f, hf, hs⟩
  · rcases hb with ⟨b, hb⟩ | hb
    · exact (ask_processMessage rx p.c).ok hb hd
    · exact (ask_processMessage rx p.c).err hb hd
  · have := asked_upd (m := e.mutAuth) p.c sid f fun s _ hds => hds.keep (hf s)
    intro s hs'
    exact this hd s (by rw [hs] at hs'; exact hs')

/-- a responder as it is created. -/
structure Fresh (n : Nat) (p0 : Responder) : Prop where
  ctx : ∃ cfg prov, p0.c = Ctx.new cfg prov n
  slot : p0.x.reqSlot = 0

theorem Fresh.any {n : Nat} {p0 : Responder} (h : Fresh n p0) : ¬ AnySession p0.c := by
  obtain ⟨⟨cfg, prov, h⟩, -⟩ := h
  rw [h]
  rintro ⟨s, h1, h2⟩
  rw [List.eq_of_mem_replicate h1] at h2
  exact h2 rfl

/-- what every history of a responder with mutual authentication keeps. -/
structure Kept (n : Nat) (h : List (Env × Bytes)) (ds : List Bytes) (p : Responder) : Prop where
  collected : Collected h ds p
  tabled : Tabled n p.c
  due : AllDue 4 p.c
  clear : p.c.cc.inClear = true → ∀ i, p.c.peer.chain i = none

theorem fresh_collected {n : Nat} {p0 : Responder} (h : Fresh n p0) : Collected [] [] p0 := by
  have hany := h.any
  obtain ⟨⟨cfg, prov, hc⟩, hs⟩ := h
  refine ⟨hs, ?_, ?_, ?_, ?_⟩
  · intro t ht; rw [hc] at ht; cases ht
  · intro t ht; rw [hc] at ht; cases ht
  · intro i ch ht; rw [hc] at ht; cases ht
  · rintro (h | ⟨i, h⟩)
    · exact absurd h hany
    · rw [hc] at h; exact absurd rfl h

theorem inClear_policy {c c' : Ctx} {q : Bool} (h : c'.neg = { c.neg with terminationPolicy := q }) : c'.cc.inClear = c.cc.inClear := by
  unfold Cc.inClear Ctx.cc
  simp only [h]

theorem kept_step {n : Nat} (hn : n < 0xFFFD) {h : List (Env × Bytes)} {ds : List Bytes} {p p' : Responder} {rx : Bytes} (hl : HashLaw e) (ha : e.asksMutual = true)
    (hk : Kept n h ds p) (hp : Processed e rx p p') : Kept n (h ++ [(e, rx)]) (ds ++ heardIn e rx p.c) p' := by
  have hm : e.mutAuth = 4 := by unfold Env.mutAuth; rw [ha]; rfl
  refine ⟨collected_step hl hk.collected hp, tabled_step hn hl hk.collected.short hp hk.tabled, ?_, ?_⟩
  · rw [← hm]; exact due_step hk.collected.short hp (by rw [hm]; exact hk.due)
  · intro hc i
    rcases processed_cases hk.collected.short hp with ⟨hb, _⟩ | ⟨sid, msg, c1, s, hopen, hs1, hs2, hclear, hh⟩
    · rcases base_step hl hb (fun h => hk.collected.ready (.inl h)) with ⟨h1, _⟩ | ⟨h1, _, h3⟩
      · rw [h1]
      · rw [h1]
        cases hx : p.c.peer.chain i with
        | none => rfl
        | some ch =>
          obtain ⟨_, _, q, hq⟩ := h3 (hk.collected.ready (.inr ⟨i, by rw [hx]; exact Option.some_ne_none _⟩))
          rw [inClear_policy hq] at hc
          rw [hk.clear hc i] at hx
          cases hx
    · exfalso
      obtain ⟨_, s0, g1, g2, rfl⟩ := hopen.eq
      have hneg : p'.c.neg = p.c.neg := by rcases hh with ⟨_, hh⟩ | ⟨_, hh⟩ <;> exact hh.neg
      have : p'.c.cc.inClear = p.c.cc.inClear := inClear_policy (q := p.c.neg.terminationPolicy) hneg
      rw [this] at hc
      have hcl : p.c.cc.inClear = false := hclear
      rw [hcl] at hc
      cases hc

theorem kept_run {n : Nat} (hn : n < 0xFFFD) {p0 p : Responder} {h : List (Env × Bytes)} {ds : List Bytes} (h0 : Fresh n p0)
    (hl : ∀ q ∈ h, HashLaw q.1 ∧ q.1.asksMutual = true) (hr : EncapRun p0 h ds p) : Kept n h ds p := by
  induction hr with
  | start =>
    refine ⟨fresh_collected h0, ?_, ?_, ?_⟩
    · obtain ⟨⟨cfg, prov, hc⟩, -⟩ := h0
      rw [hc]; exact ⟨by simp [Ctx.new], TableOk.new n 0⟩
    · obtain ⟨⟨cfg, prov, hc⟩, -⟩ := h0
      rw [hc]
      intro s hs
      rw [List.eq_of_mem_replicate hs]
      exact .inl rfl
    · obtain ⟨⟨cfg, prov, hc⟩, -⟩ := h0
      intro _ i
      rw [hc]; rfl
  | step hr hp ih =>
    obtain ⟨h1, h2⟩ := hl _ (List.mem_append_right _ (List.mem_singleton.2 rfl))
    exact kept_step hn h1 h2 (ih fun q hq => hl q (List.mem_append_left _ hq)) hp

/-! ### C74 -/

theorem requester_signed {c : Ctx} {s : Session} {bytes : Bytes} (h : Spec.FinishVerified e c s bytes) (hm : s.mutAuth ≠ 0) :
    ∃ chain, RequesterSigned e c s bytes chain ∧ ∃ i, c.peer.chain i = some chain := by
  obtain ⟨v, attr, slot, sig, mac, rest, x, d, th, h1, h2, h3, h4, h5, h6, h7, h8, h9⟩ := h
  obtain ⟨rfl, k1, chain, hh, k2, k3, k4, k5⟩ := h7 hm
  obtain ⟨i, hs, g1, g2, g3⟩ := k5
  exact ⟨chain, ⟨v, slot, sig, mac ++ rest, x, d, hh, by rw [h1]; simp, h5, k3, k2, k4, ⟨i, hs, g1, g2, g3⟩⟩, i, g2⟩

/-- **C74**: mutual authentication.  In a responder that asks for it (build with `mut-auth`), after any history of packets, a session opened by KEY_EXCHANGE enters its application phase only
by a FINISH that carries a signature of the requester under a certificate chain that was delivered in portions inside sessions, validated, and is held in slot 0; the signature covers the
session's transcript and the digest of that chain.  PSK sessions need no certificate.
Missing from the full property: the `application` case, which the code allows (`C26_application_violated`). -/
theorem C74_mutual_partial (n : Nat) (hn : n < 0xFFFD) (p0 p p' : Responder) (h : List (Env × Bytes)) (ds : List Bytes) (h0 : Fresh n p0)
    (hl : ∀ q ∈ h, HashLaw q.1 ∧ q.1.asksMutual = true) (hr : EncapRun p0 h ds p) (hle : HashLaw e) (rx : Bytes) (hp : Processed e rx p p')
    (i : Nat) (s s' : Session) (hi : p.c.sessions[i]? = some s) (hi' : p'.c.sessions[i]? = some s') (hne : s.state ≠ .established) (he : s'.state = .established) :
    MutuallyEstablished e rx h ds p.c s := by
  have hk := kept_run hn h0 hl hr
  have hsigned : ∀ bytes, s.state = .handshaking → Spec.FinishVerified e p.c s bytes → s.usePsk = false ∧ ∃ chain, RequesterSigned e p.c s bytes chain ∧ p.c.peer.chain 0 = some chain ∧
      chain.length < 4096 ∧ (∃ ps : List Bytes, ps.Sublist ds ∧ ps.flatten = chain) ∧ ∃ q ∈ h, Checked q.1 p.c chain := by
    intro bytes hst hv
    have hpsk : s.usePsk = false := by obtain ⟨_, _, _, _, _, _, _, _, _, _, _, _, h4, _⟩ := hv; exact h4
    have hid : s.id ≠ 0 := tabled_nonzero n hn p.c hk.tabled i s hi (by rw [hst]; decide)
    have hm : s.mutAuth = 4 := by
      rcases hk.due s (List.mem_of_getElem? hi) with g | g | g
      · exact absurd g hid
      · rw [hpsk] at g; cases g
      · exact g
    obtain ⟨chain, g1, j, g2⟩ := requester_signed hv (by rw [hm]; decide)
    obtain ⟨r1, r2, r3, r4⟩ := hk.collected.chains j chain g2
    subst r1
    exact ⟨hpsk, chain, g1, g2, r2, r3, r4⟩
  rcases processed_table hk.collected.short hp with hb | ⟨sid, s1, g1, g2, -, f, hf, hs⟩
  · cases established_by n hn hle p.c p'.c hk.tabled rx hb i s s' hi hi' hne he with
    | finish bytes c1 a1 a2 a3 a4 =>
      obtain ⟨b1, chain, b2, b3, b4, b5, b6⟩ := hsigned bytes a2 a4
      exact .finish bytes chain (.inl ⟨c1, a1⟩) a2 b1 a4 b2 b3 b4 b5 b6
    | pskFinish bytes c1 a1 a2 a3 a4 =>
      have hpsk : s.usePsk = true := by obtain ⟨_, _, _, _, _, _, _, _, _, _, h4, _⟩ := a4; exact h4
      exact .pskFinish bytes c1 a1 a2 hpsk a4
    | finishInClear bytes a1 a2 a3 a4 a5 =>
      obtain ⟨b1, chain, b2, b3, b4, b5, b6⟩ := hsigned bytes a4 a5
      exact .finish bytes chain (.inr ⟨a1, a2⟩) a4 b1 a5 b2 b3 b4 b5 b6
    | pskExchange v t a1 a2 a3 => exact .pskExchange v t a1 a2 a3
    | application msg b c1 a1 a2 a3 => exact .application msg b c1 a1 a2 a3
  · exfalso
    have hall := loc_updFirst (sid := sid) (f := f) p.c.sessions fun s _ => hf s
    rw [← hs] at hall
    obtain ⟨b, hb, hR⟩ := All2.get? hall hi
    rw [hi'] at hb; cases hb
    rcases hR with rfl | ⟨_, h3⟩
    · exact hne he
    · exact hne (h3.2.1.symm.trans he)

/-- **C74**, finding: with HANDSHAKE_IN_THE_CLEAR the encapsulated requests are never dispatched, so the responder never gets the chain it insists on: no session opened by KEY_EXCHANGE
can be established by FINISH, whatever the requester sends. -/
theorem C74_in_clear_violated (n : Nat) (hn : n < 0xFFFD) (p0 p p' : Responder) (h : List (Env × Bytes)) (ds : List Bytes) (h0 : Fresh n p0)
    (hl : ∀ q ∈ h, HashLaw q.1 ∧ q.1.asksMutual = true) (hr : EncapRun p0 h ds p) (hle : HashLaw e) (rx : Bytes) (hp : Processed e rx p p') (hclear : p.c.cc.inClear = true)
    (i : Nat) (s s' : Session) (hi : p.c.sessions[i]? = some s) (hi' : p'.c.sessions[i]? = some s') (hne : s.state ≠ .established) (hid : s.id ≠ 0) (hpsk : s.usePsk = false)
    (happ : ∀ msg b, e.app s.id msg = some b → ¬ IsFinishRsp b) : s'.state ≠ .established := by
  intro he
  have hk := kept_run hn h0 hl hr
  cases C74_mutual_partial n hn p0 p p' h ds h0 hl hr hle rx hp i s s' hi hi' hne he with
  | finish bytes chain a1 a2 a3 a4 a5 a6 a7 a8 a9 => rw [hk.clear hclear 0] at a6; cases a6
  | pskFinish bytes c1 a1 a2 a3 a4 => rw [hpsk] at a3; cases a3
  | pskExchange v t a1 a2 a3 => exact hid a3
  | application msg b c1 a1 a2 a3 => exact happ msg b a2 a3

/-! ### A concrete mutual authentication -/

/-- the toy environment in a build with `mut-auth`. -/
def askEnv : Env := { Toy.menv with asksMutual := true }

/-- after the packets `l` and then messages in the session in slot 0, each computed from the responder's state. -/
def talkWith (p0 : Responder) (l : List Bytes) (ms : List (Ctx → Bytes)) : Option (Responder × List Bytes) :=
  ms.foldl (fun r m => r.bind fun (p, done) => (Toy.runMutual askEnv p [Toy.sealIn 0 p.c (m p.c)]).map fun p' => (p', done ++ [Toy.sealIn 0 p.c (m p.c)]))
    ((Toy.runMutual askEnv p0 l).map fun p => (p, l))

theorem talkWith_run {p0 : Responder} {l : List Bytes} {ms : List (Ctx → Bytes)} {r : Responder × List Bytes} (h : talkWith p0 l ms = some r) : ∃ ds, EncapRun p0 (r.2.map (askEnv, ·)) ds r.1 := by
  have hgen : ∀ (ms : List (Ctx → Bytes)) (o : Option (Responder × List Bytes)), (∀ q, o = some q → ∃ ds, EncapRun p0 (q.2.map (askEnv, ·)) ds q.1) →
      ∀ r, ms.foldl (fun r m => r.bind fun (p, done) => (Toy.runMutual askEnv p [Toy.sealIn 0 p.c (m p.c)]).map fun p' => (p', done ++ [Toy.sealIn 0 p.c (m p.c)])) o = some r →
      ∃ ds, EncapRun p0 (r.2.map (askEnv, ·)) ds r.1 := by
    intro ms
    induction ms with
    | nil => intro o ho r hr; exact ho r hr
    | cons m ms ih =>
      intro o ho r hr
      refine ih _ ?_ r hr
      intro q hq
      cases o with
      | none => cases hq
      | some q0 =>
        obtain ⟨ds, hd⟩ := ho q0 rfl
        obtain ⟨p, done⟩ := q0
        dsimp only [Option.bind] at hq
        cases hx : Toy.runMutual askEnv p [Toy.sealIn 0 p.c (m p.c)] with
        | none => rw [hx] at hq; cases hq
        | some p' =>
          rw [hx] at hq
          cases hq
          obtain ⟨ds', hd'⟩ := runMutual_run _ hd hx
          exact ⟨ds', by simpa using hd'⟩
  refine hgen ms _ ?_ r h
  intro q hq
  cases hx : Toy.runMutual askEnv p0 l with
  | none => rw [hx] at hq; cases hq
  | some p =>
    rw [hx] at hq
    cases hq
    obtain ⟨ds, hd⟩ := runMutual_run (e := askEnv) l (.start (p0 := p0)) hx
    exact ⟨ds, by simpa using hd⟩

theorem quietRsp_fresh : Fresh 2 quietRsp := ⟨⟨_, _, rfl⟩, rfl⟩
theorem askEnv_law : HashLaw askEnv := toy_hashLaw

/-- FINISH with the requester's signature and HMAC, for a requester whose chain is `smallChain`. -/
def signedFinish (c : Ctx) : Bytes :=
  match (Toy.slot 0 c).th, Toy.crypto.hash c.neg.baseHash smallChain with
  | some x, some d =>
    let start : Bytes := [0x12, 0xE5, 1, 0]
    let sig := ((Toy.crypto.hash x.algo (x.data ++ d ++ start)).bind fun h => Toy.sigOf c.neg.baseAsym (Spec.signedData .finish h)).getD []
    8 :: start ++ sig ++ Toy.finishMac 0 c (d ++ start ++ sig)
  | _, _ => []

/-- the same without a signature. -/
def unsignedFinish (c : Ctx) : Bytes := [8, 0x12, 0xE5, 0, 0] ++ Toy.finishMac 0 c [0x12, 0xE5, 0, 0]

/-- the packets that open the session. -/
def mutualOpening : List Bytes := [Toy.version, Toy.capabilities, Toy.algorithms, Toy.keyExchange]

/-- and the messages by which the requester delivers its chain. -/
def delivering : List (Ctx → Bytes) := [fun _ => falseDigests, fun _ => deliverPart 0 45]

/- the hypotheses of `C74_mutual_partial` are met by a history in which the session is established -/
example : Fresh 2 quietRsp ∧ HashLaw askEnv ∧ askEnv.asksMutual = true ∧
    ((talkWith quietRsp mutualOpening delivering).map fun r => r.1.c.sessions.map (·.state)) = some [.handshaking, .notStarted] ∧
    ((talkWith quietRsp mutualOpening (delivering ++ [signedFinish])).map fun r => r.1.c.sessions.map (·.state)) = some [.established, .notStarted] :=
  ⟨quietRsp_fresh, askEnv_law, rfl, by decide +kernel, by decide +kernel⟩

/- a FINISH without signature is refused, with and without the chain -/
example : ((talkWith quietRsp mutualOpening (delivering ++ [unsignedFinish])).map fun r => r.1.c.sessions.map (·.state)) = some [.handshaking, .notStarted] ∧
    ((talkWith quietRsp mutualOpening [unsignedFinish]).map fun r => r.1.c.sessions.map (·.state)) = some [.handshaking, .notStarted] :=
  ⟨by decide +kernel, by decide +kernel⟩

/-- a responder with HANDSHAKE_IN_THE_CLEAR. -/
def clearRsp : Responder := { c := toyWith 0x82F6 }

/- the hypotheses of `C74_in_clear_violated` are met: a session in its handshake -/
example : Fresh 2 clearRsp ∧
    ((talkWith clearRsp [Toy.version, capabilitiesClear, Toy.algorithms, Toy.keyExchange] []).map fun r =>
      (r.1.c.cc.inClear, r.1.c.sessions.map (·.state), r.1.c.sessions.map (·.usePsk))) = some (true, [.handshaking, .notStarted], [false, false]) :=
  ⟨⟨⟨_, _, rfl⟩, rfl⟩, by decide +kernel⟩

/-- **C74**, finding: a refused FINISH stays in the session's transcript.  The requester's correct FINISH, which would have established the session, is refused after another one was. -/
theorem C74_retry_violated : ∃ (p : Responder) (done : List Bytes), talkWith quietRsp mutualOpening delivering = some (p, done) ∧
    ((talkWith quietRsp mutualOpening (delivering ++ [fun _ => signedFinish p.c])).map fun r => r.1.c.sessions.map (·.state)) = some [.established, .notStarted] ∧
    ((talkWith quietRsp mutualOpening (delivering ++ [unsignedFinish, fun _ => signedFinish p.c])).map fun r => r.1.c.sessions.map (·.state)) = some [.handshaking, .notStarted] := by
  have hd : ((talkWith quietRsp mutualOpening delivering).map fun r =>
      decide (((talkWith quietRsp mutualOpening (delivering ++ [fun _ => signedFinish r.1.c])).map fun r => r.1.c.sessions.map (·.state)) = some [.established, .notStarted] ∧
        ((talkWith quietRsp mutualOpening (delivering ++ [unsignedFinish, fun _ => signedFinish r.1.c])).map fun r => r.1.c.sessions.map (·.state)) = some [.handshaking, .notStarted])) =
      some true := by decide +kernel
  cases hx : talkWith quietRsp mutualOpening delivering with
  | none => rw [hx] at hd; cases hd
  | some r =>
    rw [hx] at hd
    have := of_decide_eq_true (Option.some.inj hd)
    exact ⟨r.1, r.2, rfl, this⟩

/-- **C74**, finding: the requester's signature is checked with the algorithm the *responder* signs with (`base_asym_sel`), not with the one negotiated for the requester: here none
was negotiated for the requester, yet a signature made with ECDSA P-256 establishes the session. -/
theorem C74_algorithm_violated : ∃ (p : Responder) (h : List (Env × Bytes)) (ds : List Bytes) (done : List Bytes), h = done.map (askEnv, ·) ∧ EncapRun quietRsp h ds p ∧
    p.c.neg.reqAsym = 0 ∧ p.c.neg.baseAsym = 0x10 ∧ p.c.sessions.map (·.state) = [.established, .notStarted] ∧ p.c.sessions.map (·.mutAuth) = [4, 0] := by
  have hd : ((talkWith quietRsp mutualOpening (delivering ++ [signedFinish])).map fun r =>
      decide (r.1.c.neg.reqAsym = 0 ∧ r.1.c.neg.baseAsym = 0x10 ∧ r.1.c.sessions.map (·.state) = [.established, .notStarted] ∧ r.1.c.sessions.map (·.mutAuth) = [4, 0])) = some true := by
    decide +kernel
  cases hx : talkWith quietRsp mutualOpening (delivering ++ [signedFinish]) with
  | none => rw [hx] at hd; cases hd
  | some r =>
    rw [hx] at hd
    have := of_decide_eq_true (Option.some.inj hd)
    obtain ⟨ds, hr⟩ := talkWith_run hx
    exact ⟨r.1, _, ds, r.2, rfl, hr, this⟩

end Verif.Props
