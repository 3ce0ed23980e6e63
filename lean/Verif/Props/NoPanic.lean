/-
C75: whatever packets it has received and whatever packet comes next, the responder does not abort, as long as the algorithms in force
are usable and the integrator's callbacks behave.
-/
import Verif.Responder.Placed
import Verif.Props.Table
import Verif.Props.Chosen
import Verif.Spec.ToySession
import Verif.Props.Exchange

namespace Verif
namespace Props
open Rsp

/-- something was selected in each category a session needs. -/
structure AllSelected (n : Neg) : Prop where
  hash : n.baseHash ≠ 0
  asym : n.baseAsym ≠ 0
  dhe : n.dhe ≠ 0
  aead : n.aead ≠ 0

/-- the callbacks and the cryptography the integrator provides (`Honest`, `KeyLaws`, `AeadFits`): results have the length their algorithm
prescribes; hashing, measuring, DHE key generation with a supported algorithm succeed; the AEAD does not lengthen its input.  The callback
for application messages answers with 2 to 4096 bytes.  Mutual authentication is off (a compile-time feature, off by default). -/
structure Serves (e : Env) : Prop where
  honest : Honest e
  keys : KeyLaws e.crypto
  aead : Session.AeadFits e.crypto
  alone : e.asksMutual = false
  apps : ∀ sid b, ∃ r, e.app sid b = some r ∧ 2 ≤ r.length ∧ r.length ≤ 4096

/-- every certificate chain provisioned starts with a certificate the chain parser finds. -/
def ChainsParse (e : Env) (data : Fin 8 → Option Bytes) : Prop :=
  ∀ i d, data i = some d → ∃ b en, e.certFromChain d 0 = some (b, en) ∧ b ≤ en ∧ en ≤ 4096

theorem hash_in {a : BaseHash} (h : a ∈ [BaseHash.sha256, BaseHash.sha384, BaseHash.sha512]) : (BaseHash.size? a).isSome = true := by
  simp only [List.mem_cons, List.not_mem_nil, or_false] at h
  rcases h with rfl | rfl | rfl <;> decide

theorem AllSelected.sized {n : Neg} (h : AllSelected n) (ho : OneOrNone n) : Sized n := by
  obtain ⟨h1, h2, h3, h4⟩ := ho
  have g1 := hash_in (h1.resolve_left h.hash)
  have h2 := h2.resolve_left h.asym
  have h3 := h3.resolve_left h.dhe
  have h4 := h4.resolve_left h.aead
  simp only [List.mem_cons, List.not_mem_nil, or_false] at h2 h3 h4
  refine ⟨g1, ?_, ?_, g1, ?_, ?_, ?_⟩
  · rcases h2 with h | h | h | h | h | h | h | h <;> rw [h] <;> decide
  · rcases h3 with h | h <;> rw [h] <;> decide
  all_goals rcases h4 with h | h | h <;> rw [h] <;> decide

theorem Serves.platform {e : Env} {lim : Nat} (h : Serves e) (hr : Roomy e.tr lim) : Platform e lim :=
  ⟨h.honest, h.keys, hr, h.aead, h.alone, fun sid b => by
    obtain ⟨r, h1, h2, h3⟩ := h.apps sid b
    exact ⟨r, r[1], h1, List.getElem?_eq_getElem (by omega), h3⟩⟩

/-- a responder with `n` session slots and the certificate chains `data`, which every environment of the history can parse, received the
packets of the history `h` (with the environment of each) and is now in state `c`. -/
structure Served (data : Fin 8 → Option Bytes) (n : Nat) (h : List (Env × Bytes)) (c : Ctx) : Prop where
  run : ∃ cfg root, Run (Ctx.new cfg { chainData := data, peerRoot := root } n) h c
  envs : ∀ p ∈ h, Serves p.1

/-- C75, any transport binding that stays within its buffers (`Roomy`): after every history of packets, in which environment ever they were
received, the next packet does not make the responder panic, provided that if negotiation has finished something was selected in each
category. -/
theorem C75_no_panic {data : Fin 8 → Option Bytes} {n lim : Nat} (hn : n < 0xFFFD) {h : List (Env × Bytes)} {c : Ctx} (hs : Served data n h c)
    (ha : Spec.ready c.rt.state = true → AllSelected c.neg) (e : Env) (he : Serves e) (hr : Roomy e.tr lim) (hd : ChainsParse e data) (rx : Bytes) (hl : rx.length ≤ 4160)
    (hq : ∀ rec, received e rx = some (rec, true) → rec.length ≤ lim + 24) : processMessage e rx c ≠ .panic := by
  obtain ⟨⟨cfg, root, hrun⟩, henv⟩ := hs
  have hlaw : ∀ p ∈ h, HashLaw p.1 ∧ p.1.asksMutual = false := fun p hp => ⟨(henv p hp).honest.hash, (henv p hp).alone⟩
  refine processMessage_calm (he.platform hr) (hrun.poised hn hlaw fun g => (ha g).sized (Props.Run.chosen rfl hrun (fun p hp => (hlaw p hp).1) g)) ?_ hl hq
  have hcd := (C54_history_partial cfg data root n h c hrun fun p hp => (hlaw p hp).1).1
  unfold Chained
  rw [hcd]
  exact hd

/-- C75 over MCTP: any packet that fits the receive buffer. -/
theorem C75_mctp {data : Fin 8 → Option Bytes} {n : Nat} (hn : n < 0xFFFD) {h : List (Env × Bytes)} {c : Ctx} (hs : Served data n h c)
    (ha : Spec.ready c.rt.state = true → AllSelected c.neg) (e : Env) (he : Serves e) (ht : e.tr = Mctp.transport) (hd : ChainsParse e data) (rx : Bytes)
    (hl : rx.length ≤ 4160) : processMessage e rx c ≠ .panic := by
  refine C75_no_panic hn hs ha e he (lim := 4160) (by rw [ht]; exact roomy_mctp) hd rx hl fun rec hrec => ?_
  unfold received at hrec
  cases hx : Ctx.intoBuf2 (e.tr.decap rx) 4160 with
  | ok p =>
    rw [hx] at hrec
    cases hrec
    have := intoBuf2_le hx
    dsimp only at this
    omega
  | err _ => rw [hx] at hrec; cases hrec
  | panic => rw [hx] at hrec; cases hrec

/-- C75 over PCI DOE: any packet that fits the receive buffer, unless it carries a record of more than 4120 bytes (8 header bytes of the
record with no sequence number, 4096 bytes of message, its tag of 16). -/
theorem C75_pci_doe {data : Fin 8 → Option Bytes} {n : Nat} (hn : n < 0xFFFD) {h : List (Env × Bytes)} {c : Ctx} (hs : Served data n h c)
    (ha : Spec.ready c.rt.state = true → AllSelected c.neg) (e : Env) (he : Serves e) (ht : e.tr = PciDoe.transport) (hd : ChainsParse e data) (rx : Bytes)
    (hl : rx.length ≤ 4160) (hq : ∀ rec, received e rx = some (rec, true) → rec.length ≤ 4120) : processMessage e rx c ≠ .panic :=
  C75_no_panic hn hs ha e he (lim := 4096) (by rw [ht]; exact roomy_doe) hd rx hl hq

/-- C75, whole histories: a responder reached over MCTP survives every sequence of packets in which no negotiation ends without an
algorithm in some category. -/
theorem C75_survives {data : Fin 8 → Option Bytes} {n : Nat} (hn : n < 0xFFFD) (cfg : Config) (root : Option Bytes) (h : List (Env × Bytes))
    (ha : ∀ h1 c, h1 <+: h → Run (Ctx.new cfg { chainData := data, peerRoot := root } n) h1 c → Spec.ready c.rt.state = true → AllSelected c.neg)
    (hh : ∀ p ∈ h, Serves p.1 ∧ p.1.tr = Mctp.transport ∧ ChainsParse p.1 data ∧ p.2.length ≤ 4160) :
    ∃ c, Run (Ctx.new cfg { chainData := data, peerRoot := root } n) h c := by
  have key : ∀ (l h0 : List (Env × Bytes)) (c : Ctx), h0 ++ l = h → Run (Ctx.new cfg { chainData := data, peerRoot := root } n) h0 c →
      ∃ c', Run (Ctx.new cfg { chainData := data, peerRoot := root } n) (h0 ++ l) c' := by
    intro l
    induction l with
    | nil => intro h0 c _ hc; rw [List.append_nil]; exact ⟨c, hc⟩
    | cons p l ih =>
      intro h0 c hp hc
      have hm : ∀ q ∈ h0 ++ [p], q ∈ h := fun q hq => by
        rw [← hp]
        simp only [List.mem_append, List.mem_cons, List.not_mem_nil, or_false] at hq ⊢
        rcases hq with hq | hq
        · exact .inl hq
        · exact .inr (.inl hq)
      obtain ⟨h1, h2, h3, h4⟩ := hh p (hm p (by simp))
      have hnp := C75_mctp hn ⟨⟨cfg, root, hc⟩, fun q hq => (hh q (hm q (by simp [hq]))).1⟩ (ha h0 c (by rw [← hp]; exact List.prefix_append _ _) hc) p.1 h1 h2 h3 p.2 h4
      have hgo : ∀ c', Run (Ctx.new cfg { chainData := data, peerRoot := root } n) (h0 ++ [p]) c' →
          ∃ c', Run (Ctx.new cfg { chainData := data, peerRoot := root } n) (h0 ++ p :: l) c' := fun c' hc' => by
        have := ih (h0 ++ [p]) c' (by rw [List.append_assoc]; exact hp) hc'
        rw [List.append_assoc] at this
        exact this
      cases hx : processMessage p.1 p.2 c with
      | ok b c' => exact hgo c' (hc.ok hx)
      | err u c' => exact hgo c' (hc.err hx)
      | panic => exact absurd hx hnp
  exact key h [] _ rfl .nil

/-! ### a responder that meets the hypotheses -/

/-- the toy responder behind MCTP. -/
def mctpToy : Env := { Toy.env with tr := Mctp.transport, app := fun _ _ => some [5, 1] }

theorem toy_serves (e : Env) (h1 : e.crypto = Toy.crypto) (h2 : e.summary = Toy.env.summary) (h3 : e.measure = Toy.env.measure) (h4 : e.sign = Toy.env.sign)
    (h5 : e.dheGen = Toy.env.dheGen) (h6 : e.asksMutual = false) (h7 : ∀ sid b, e.app sid b = some [5, 1]) : Serves e := by
  refine ⟨⟨?_, ?_, ?_, ?_, ?_, ?_, ?_⟩, ⟨?_, ?_⟩, ⟨?_, ?_⟩, h6, fun sid b => ⟨_, h7 sid b, by decide, by decide⟩⟩
  · intro a d h hh
    rw [h1] at hh
    exact toy_hashLaw a d h hh
  · intro h d hh
    rw [h1]
    simpa [Toy.crypto] using hh
  · intro v h s m t d hh
    rw [h2] at hh
    simp only [Toy.env, Option.map_eq_some_iff] at hh
    obtain ⟨n, hn, rfl⟩ := hh
    rw [List.length_replicate]
    exact hn
  · intro v s h i
    rw [h3]
    rfl
  · intro h a m sig hh
    rw [h4] at hh
    simp only [Toy.env, Toy.sigOf, Option.map_eq_some_iff] at hh
    obtain ⟨n, hn, rfl⟩ := hh
    rw [Toy.digest_length]
    exact hn
  · intro h k d m hh
    rw [h1] at hh
    simp only [Toy.crypto, Option.map_eq_some_iff] at hh
    obtain ⟨n, hn, rfl⟩ := hh
    rw [Toy.digest_length]
    exact hn
  · intro g hh
    rw [h5]
    simpa [Toy.env] using hh
  · rw [h1]
    exact toy_expandLaw
  · intro v h hint i o hh i'
    rw [h1] at hh ⊢
    simp only [Toy.crypto, Option.map_eq_some_iff] at hh
    obtain ⟨n, hn, rfl⟩ := hh
    exact ⟨_, by simp only [Toy.crypto, hn]; rfl, by rw [Toy.digest_length]; exact hn⟩
  · intro a k n aad pt ct tag hh
    rw [h1] at hh
    obtain ⟨g1, g2⟩ := Toy.aeadLaws.seal_size _ _ _ _ _ _ _ hh
    exact ⟨g1, fun t ht => Option.some.inj (g2.trans ht)⟩
  · intro a k n aad ct tag pt hh
    rw [h1] at hh
    simp only [Toy.crypto] at hh
    split at hh
    · cases hh
      exact Nat.le_refl _
    · cases hh

theorem mctpToy_serves : Serves mctpToy := toy_serves mctpToy rfl rfl rfl rfl rfl rfl fun _ _ => rfl

/-- certificate chain of the toy responder. -/
def toyChain : Fin 8 → Option Bytes := fun i => if i = 0 then some [1, 2, 3, 4, 5, 6, 7, 8] else none

theorem toyChain_parse (e : Env) (h : e.certFromChain = Toy.env.certFromChain) : ChainsParse e toyChain := by
  intro i d hd
  unfold toyChain at hd
  split at hd
  · cases hd
    exact ⟨0, 4, by rw [h]; decide, by decide, by decide⟩
  · cases hd

/-- the toy responder behind `e` after these packets. -/
def afterAll (e : Env) (data : Fin 8 → Option Bytes) (l : List Bytes) : Option Ctx := Toy.runAll e (Ctx.new Toy.cfg { chainData := data } 2) l

theorem run_append {e : Env} {c0 c c1 : Ctx} {h : List (Env × Bytes)} (l : List Bytes) (hr : Run c0 h c) (he : Toy.runAll e c l = some c1) :
    Run c0 (h ++ l.map fun rx => (e, rx)) c1 := by
  induction l generalizing c h with
  | nil => cases he; simpa using hr
  | cons rx l ih =>
    unfold Toy.runAll at he
    cases hx : processMessage e rx c with
    | panic => rw [hx] at he; cases he
    | ok b t =>
      rw [hx] at he
      have := ih (hr.ok hx) he
      simpa using this
    | err b t =>
      rw [hx] at he
      have := ih (hr.err hx) he
      simpa using this

theorem afterAll_served {e : Env} (he : Serves e) {data : Fin 8 → Option Bytes} {l : List Bytes} {c : Ctx} (h : afterAll e data l = some c) :
    Served data 2 (l.map fun rx => (e, rx)) c :=
  ⟨⟨Toy.cfg, none, by simpa using run_append l Run.nil h⟩, fun p hp => by
    obtain ⟨rx, _, rfl⟩ := List.mem_map.1 hp
    exact he⟩

/-- a history that meets the hypotheses, with two sessions open at its end. -/
theorem C75_case : ∃ c, Served toyChain 2 ([Toy.version, Toy.capabilities, Toy.algorithms, Toy.keyExchange, pskExchange].map fun rx => (mctpToy, rx)) c ∧
    (Spec.ready c.rt.state = true ∧ AllSelected c.neg) ∧ c.sessions.map (·.state) = [.handshaking, .handshaking] ∧
    Serves mctpToy ∧ mctpToy.tr = Mctp.transport ∧ ChainsParse mctpToy toyChain := by
  have h : (afterAll mctpToy toyChain [Toy.version, Toy.capabilities, Toy.algorithms, Toy.keyExchange, pskExchange]).isSome = true := by decide +kernel
  obtain ⟨c, hc⟩ := Option.isSome_iff_exists.1 h
  have hall : ∀ P : Ctx → Bool, (afterAll mctpToy toyChain [Toy.version, Toy.capabilities, Toy.algorithms, Toy.keyExchange, pskExchange]).all P = true → P c = true := by
    intro P hP
    rw [hc] at hP
    exact hP
  refine ⟨c, afterAll_served mctpToy_serves hc, ⟨hall (fun c => Spec.ready c.rt.state) (by decide +kernel), ⟨?_, ?_, ?_, ?_⟩⟩, ?_, mctpToy_serves, rfl, toyChain_parse _ rfl⟩
  · exact of_decide_eq_true (hall (fun c => decide (c.neg.baseHash ≠ 0)) (by decide +kernel))
  · exact of_decide_eq_true (hall (fun c => decide (c.neg.baseAsym ≠ 0)) (by decide +kernel))
  · exact of_decide_eq_true (hall (fun c => decide (c.neg.dhe ≠ 0)) (by decide +kernel))
  · exact of_decide_eq_true (hall (fun c => decide (c.neg.aead ≠ 0)) (by decide +kernel))
  · exact of_decide_eq_true (hall (fun c => decide (c.sessions.map (·.state) = [.handshaking, .handshaking])) (by decide +kernel))

/-! ### violations: packets that abort the responder -/

/-- NEGOTIATE_ALGORITHMS offering these signature, hash, DHE and AEAD algorithms only. -/
def offer (asym hash dhe aead : UInt8) : Bytes :=
  [5, 0x12, 0xE3, 4, 0, 48, 0, 1, 2, asym, 0, 0, 0, hash, 0, 0, 0] ++ List.replicate 12 0 ++ [0, 0, 0, 0] ++
    [2, 0x20, dhe, 0, 3, 0x20, aead, 0, 4, 0x20, 0, 0, 5, 0x20, 1, 0]

/-- GET_MEASUREMENTS of all blocks, signed. -/
def measureAll : Bytes := [5, 0x12, 0xE0, 1, 0xFF] ++ List.replicate 32 7 ++ [0]

/-- the packets so far are survived, the next aborts the responder. -/
def Aborts (e : Env) (data : Fin 8 → Option Bytes) (before : List Bytes) (rx : Bytes) : Prop :=
  (afterAll e data before).isSome = true ∧ (afterAll e data (before ++ [rx])).isNone = true ∧ rx.length ≤ 4160

instance (e : Env) (data : Fin 8 → Option Bytes) (before : List Bytes) (rx : Bytes) : Decidable (Aborts e data before rx) := by
  unfold Aborts; infer_instance

/-- VIOLATION: a requester that offers no signature algorithm in common aborts the responder with one GET_MEASUREMENTS or KEY_EXCHANGE
packet, although the environment meets every requirement: no session and no authentication is needed. -/
theorem C75_no_signature_violated : Serves mctpToy ∧ Aborts mctpToy toyChain [Toy.version, Toy.capabilities, offer 0 1 8 2] measureAll ∧
    Aborts mctpToy toyChain [Toy.version, Toy.capabilities, offer 0 1 8 2] Toy.keyExchange := ⟨mctpToy_serves, by decide +kernel, by decide +kernel⟩

/-- VIOLATION: the same with no DHE group in common. -/
theorem C75_no_dhe_violated : Serves mctpToy ∧ Aborts mctpToy toyChain [Toy.version, Toy.capabilities, offer 0x10 1 0 2] Toy.keyExchange :=
  ⟨mctpToy_serves, by decide +kernel⟩

/-- VIOLATION: the same with no AEAD in common; PSK_EXCHANGE aborts as well. -/
theorem C75_no_aead_violated : Serves mctpToy ∧ Aborts mctpToy toyChain [Toy.version, Toy.capabilities, offer 0x10 1 8 0] Toy.keyExchange ∧
    Aborts mctpToy toyChain [Toy.version, Toy.capabilities, offer 0x10 1 8 0] pskExchange := ⟨mctpToy_serves, by decide +kernel, by decide +kernel⟩

/-- VIOLATION: the same with no hash in common, when no certificate chain is provisioned (else negotiation itself fails). -/
theorem C75_no_hash_violated : Serves mctpToy ∧ Aborts mctpToy (fun _ => none) [Toy.version, Toy.capabilities, offer 0x10 0 8 2] pskExchange :=
  ⟨mctpToy_serves, by decide +kernel⟩

/-- VIOLATION of the contract with the integrator: a measurement provider that has nothing to report aborts the responder (the trait lets
it return `None`, the handler unwraps). -/
theorem C75_no_measurement_violated :
    Aborts { mctpToy with measure := fun _ _ _ _ => none } toyChain [Toy.version, Toy.capabilities, Toy.algorithms] measureAll := by decide +kernel

/-- VIOLATION: PCI DOE.  Every record that opens to more than 4096 bytes aborts the responder, whatever it contains. -/
theorem C75_doe_violated {e : Env} (ht : e.tr = PciDoe.transport) {c : Ctx} {rx : Bytes} {a b d f : UInt8} {t : Bytes} {s s' : Session} {app : Bytes}
    (hrec : received e rx = some (a :: b :: d :: f :: t, true)) (hs : c.session? (decU32 a b d f) = some s)
    (ho : Session.decodeSecured e.crypto (a :: b :: d :: f :: t) 4160 true s = .ok app s') (hlen : 4096 < app.length) : processMessage e rx c = .panic := by
  have hd : Ctx.intoBuf2 (e.tr.decap rx) 4160 = .ok (a :: b :: d :: f :: t, true) := by
    unfold received at hrec
    split at hrec
    · rename_i p hp; cases hrec; exact hp
    · simp at hrec
  have hx : openSecured e (a :: b :: d :: f :: t) c = .panic := by
    have hp : Ctx.intoBuf2 (e.tr.decapApp app) msgSize = .panic := by
      rw [ht]
      show Ctx.intoBuf2 (PciDoe.decapApp app) msgSize = .panic
      have : PciDoe.decapApp app (List.replicate msgSize 0) = .panic := by
        have hc : copyAt 0 app (List.replicate msgSize 0) = .panic := by
          unfold copyAt
          exact if_neg (by rw [List.length_replicate]; unfold msgSize; omega)
        unfold PciDoe.decapApp
        rw [M.bind_apply, hc]
      unfold Ctx.intoBuf2
      rw [this]
    have hr : Res.read .invalidParameter rdU32 (Reader.init (a :: b :: d :: f :: t)) = .ok (decU32 a b d f, ⟨t, 4⟩) := by
      simp [Res.read, Reader.init]
    have hon : Ctx.onSession (decU32 a b d f) (M.fail .invalidParameter) (Session.decodeSecured e.crypto (a :: b :: d :: f :: t) 4160 true) c =
        .ok app (c.updSession (decU32 a b d f) fun _ => s') := by
      unfold Ctx.onSession
      rw [M.bind_apply, M.get_apply]
      dsimp only
      rw [hs]
      dsimp only
      rw [ho]
      rfl
    unfold openSecured
    simp only [hr, Res.lift, M.mapErr, M.bind_apply, hon, hp]
  unfold processMessage
  simp [hd, Res.lift, M.mapErr, hx]

/-- a PCI DOE frame. -/
def doeFrame (secured : Bool) (m : Bytes) : Bytes :=
  match Ctx.intoBuf (PciDoe.encap m secured) 4160 with
  | .ok b => b
  | _ => []

/-- the toy responder behind PCI DOE. -/
def doeToy : Env := { Toy.env with tr := PciDoe.transport, app := fun _ _ => some [5, 1] }
theorem doeToy_serves : Serves doeToy := toy_serves doeToy rfl rfl rfl rfl rfl rfl fun _ _ => rfl

/-- negotiation and key exchange over PCI DOE. -/
def doePackets : List Bytes := [Toy.version, Toy.capabilities, Toy.algorithms, Toy.keyExchange].map fun p => doeFrame false (p.drop 1)

/-- a record of `n` zero bytes in the session opened by these packets. -/
def doeRecord (n : Nat) : Bytes :=
  match afterAll doeToy toyChain doePackets with
  | some c => doeFrame true ((Toy.sealIn 0 c (List.replicate n 0)).drop 1)
  | none => []

/-- VIOLATION: concretely, an unauthenticated requester (KEY_EXCHANGE only, no FINISH) aborts the responder with a record of 4097 bytes. -/
theorem C75_doe_record_violated : Serves doeToy ∧ Aborts doeToy toyChain doePackets (doeRecord 4097) := ⟨doeToy_serves, by decide +kernel⟩

end Props
end Verif
