/-
C57: no message is larger than what the other side can take.
-/
import Verif.Responder.SizesInv
import Verif.Requester.Sizes
import Verif.Props.Transcript
import Verif.Spec.ToyReq

namespace Verif.Props
open Rsp

variable {e : Env}

/-- **C57** (responder): whatever packet arrives, in whatever state, and however its processing ends, at most two packets are sent,
and each carries a message no larger than the data transfer size the requester has declared. -/
theorem C57_responses (rx : Bytes) (c : Ctx) : (processMessage e rx).wp c
    (fun _ c' => ∃ l, c'.sent = c.sent ++ l ∧ l.length ≤ 2 ∧ ∀ p ∈ l, Within e c'.neg.reqDts p)
    (fun _ c' => ∃ l, c'.sent = c.sent ++ l ∧ l.length ≤ 2 ∧ ∀ p ∈ l, Within e c'.neg.reqDts p) := by
  refine (sends_processMessage rx c).mono (fun _ c' h => ?_) (fun _ c' h => ?_) <;>
  · obtain ⟨c1, h1, h2, l, h3, h4, h5⟩ := h
    exact ⟨l, by rw [h4, h1], h3, by rw [h2]; exact h5⟩

/-- **C57** (responder): a request in the clear other than CHALLENGE and GET_MEASUREMENTS is answered by at most one packet. -/
theorem C57_one_answer (rx : Bytes) (v k : UInt8) (t : Bytes) (h : Plain e rx (v :: k :: t)) (h1 : k ≠ 0x83) (h2 : k ≠ 0xE0) (c : Ctx) :
    (processMessage e rx).wp c (fun _ c' => c'.sent = c.sent ∨ ∃ p, c'.sent = c.sent ++ [p]) (fun _ c' => c'.sent = c.sent ∨ ∃ p, c'.sent = c.sent ++ [p]) := by
  have hq : ∃ j, quota j = 1 ∧ ∀ h r, Header.read (Reader.init (v :: k :: t)) = .ok h r → h.code = j := by
    cases hr : Header.read (Reader.init (v :: k :: t)) with
    | err a r => exact ⟨.reqGetVersion, rfl, fun h r hh => by cases hh⟩
    | panic => exact ⟨.reqGetVersion, rfl, fun h r hh => by cases hh⟩
    | ok hd r =>
      refine ⟨hd.code, ?_, fun h r hh => by cases hh; rfl⟩
      have hc : k = hd.code.get := by
        have := (Header.read_ok.1 hr).2
        have := this.1
        simp [Reader.init, Header.wire] at this
        exact this.2.1
      unfold quota
      rw [if_neg]
      intro hh
      rcases hh with hh | hh
      · rw [hh] at hc; exact h1 hc
      · rw [hh] at hc; exact h2 hc
  obtain ⟨j, hj, hk⟩ := hq
  refine (sends_plain h j hk c).mono (fun _ c' g => ?_) (fun _ c' g => ?_) <;>
  · obtain ⟨c1, g1, _, l, g3, g4, _⟩ := g
    rw [hj] at g3
    rw [g1] at g4
    match l, g3 with
    | [], _ => exact .inl (by simpa using g4)
    | [p], _ => exact .inr ⟨p, g4⟩

/-- the response is the 4-byte ERROR message with code ResponseTooLarge. -/
def tooLargeError (v : SpdmVersion) : Bytes := [v.get, 0x7F, 0x0D, 0]

/-- **C57** (responder): after any history the declared data transfer size is 0 (none declared yet) or at least 42. -/
theorem C57_limit (n : Nat) (c : Ctx) (h : Reachable n c) : c.neg.reqDts = 0 ∨ 42 ≤ c.neg.reqDts.toNat := by
  obtain ⟨cfg, prov, hh, hr, hl⟩ := h
  exact Run.dts (.inl rfl) hr hl

theorem C57_limit_error (n : Nat) (c : Ctx) (h : Reachable n c) : tooLarge c (tooLargeError c.neg.version) = false := by
  unfold tooLarge
  rcases C57_limit n c h with h | h
  · simp [h]
  · simp [tooLargeError]; intro _; omega

/-- **C57** (responder): after any history, a response in the clear that is larger than the declared size is replaced by ERROR
ResponseTooLarge, and leaves the state of the connection and everything else as it is. -/
theorem C57_replaced (n : Nat) (c : Ctx) (h : Reachable n c) (b pkt : Bytes) (h0 : c.neg.reqDts ≠ 0) (hb : c.neg.reqDts.toNat < b.length)
    (he : Ctx.encap e (tooLargeError c.neg.version) = .ok pkt) (hs : e.send c.sent.length pkt = none) :
    sendMessage e b c = .ok () { c with sent := c.sent ++ [pkt] } := by
  have ht : tooLarge c b = true := by unfold tooLarge; simp [h0, hb]
  have ht' := C57_limit_error n c h
  unfold sendMessage
  rw [M.bind_apply, M.get_apply]
  simp only [ht, if_true]
  rw [writeError_nil c { code := .responseTooLarge } rfl, M.bind_apply]
  dsimp only [M.unwrap]
  rw [show errorBytes c.neg.version .responseTooLarge 0 = tooLargeError c.neg.version from rfl]
  simp only [ht', Bool.false_eq_true, if_false]
  unfold sendPlain
  rw [M.bind_apply, he]
  simp only [Res.lift]
  rw [M.bind_apply]
  unfold Ctx.devSend
  simp only [M.bind_apply, M.get_apply, M.set_apply, hs, M.pure_apply]
  rfl

/-- **C57** (responder): the same inside a session: the ERROR is sealed like any message of the session, only its sending
sequence number moves, and the session stays as it is. -/
theorem C57_replaced_secured (n : Nat) (c c' : Ctx) (h : Reachable n c) (sid : UInt32) (b : Bytes) (u : Unit) (h0 : c.neg.reqDts ≠ 0) (hb : c.neg.reqDts.toNat < b.length)
    (hs : sendSecured e sid b false c = .ok u c') :
    ∃ s pkt, c.session? sid = some s ∧ SealedBy e s (tooLargeError c.neg.version) pkt ∧ c'.sent = c.sent ++ [pkt] ∧
      c' = { c.updSession sid (fun _ => s.bump false) with sent := c.sent ++ [pkt] } := by
  have ht : tooLarge c b = true := by unfold tooLarge; simp [h0, hb]
  have ht' := C57_limit_error n c h
  have hs' : sendSecured e sid (tooLargeError c.neg.version) false c = .ok u c' := by
    unfold sendSecured at hs ⊢
    rw [M.bind_apply, M.get_apply] at hs ⊢
    simp only [ht, if_true, and_self] at hs
    rw [writeError_nil c { code := .responseTooLarge } rfl, M.bind_apply] at hs
    dsimp only [M.unwrap] at hs
    rw [show errorBytes c.neg.version .responseTooLarge 0 = tooLargeError c.neg.version from rfl] at hs
    simp only [ht', Bool.false_eq_true, if_false, and_false] at hs ⊢
    exact hs
  obtain ⟨s, pkt, h1, h2, h3, h4⟩ := sendSecured_exact (code := 0x7F) ⟨_, _, rfl⟩ (by decide) (by decide) (by decide) hs'
  have ho : outgoing c (tooLargeError c.neg.version) = tooLargeError c.neg.version := by unfold outgoing; simp [ht']
  have h3 : SealedBy e s (outgoing c (tooLargeError c.neg.version)) pkt := h3
  rw [ho] at h3
  exact ⟨s, pkt, h1, h3, by rw [h4]; rfl, h4⟩

/-- **C57** (requester): whatever operation is called, other than connecting and vendor-defined requests, and however it ends, every
packet it sends carries a message no larger than the data transfer size the responder declared. -/
theorem C57_requests (e : REnv) (op : Req.Op) (h1 : op ≠ .connect) (h2 : ∀ sid m, op ≠ .vendor sid m) (c : Ctx) : (op.run e).wp c
    (fun _ c' => c'.neg.rspDts = c.neg.rspDts ∧ ∃ l, c'.sent = c.sent ++ l ∧ ∀ p ∈ l, Within e.toEnv c.neg.rspDts p)
    (fun _ c' => c'.neg.rspDts = c.neg.rspDts ∧ ∃ l, c'.sent = c.sent ++ l ∧ ∀ p ∈ l, Within e.toEnv c.neg.rspDts p) := by
  refine Req.fit_op op ?_ c
  cases op <;> first | trivial | exact absurd rfl h1 | exact absurd rfl (h2 _ _)

/-- **C57** (requester): connecting sends packets within the size declared earlier or the size declared now. -/
theorem C57_requests_connect (e : REnv) (c : Ctx) : (Req.initConnection e).wp c
    (fun _ c' => ∃ l, c'.sent = c.sent ++ l ∧ ∀ p ∈ l, Within e.toEnv c.neg.rspDts p ∨ Within e.toEnv c'.neg.rspDts p)
    (fun _ c' => ∃ l, c'.sent = c.sent ++ l ∧ ∀ p ∈ l, Within e.toEnv c.neg.rspDts p ∨ Within e.toEnv c'.neg.rspDts p) := Req.bounded_connect c

end Verif.Props

namespace Verif.Props
open Rsp

/-- GET_CAPABILITIES of a requester that takes at most 60 bytes. -/
def capabilities60 : Bytes := [5, 0x12, 0xE1, 0, 0, 0, 20, 0, 0, 0xC6, 0x77, 0, 0, 60, 0, 0, 0, 60, 0, 0, 0]
/-- a responder with a certificate chain of 40 bytes, after packets `l`. -/
def toyLong (l : List Bytes) : Ctx :=
  (Toy.runAll Toy.env (Ctx.new Toy.cfg { chainData := fun i => if i = 0 then some (List.replicate 40 1) else none } 2) l).getD Toy.ctx0
/-- … connected to the requester that takes 60 bytes and has asked for digests. -/
def toy60 : Ctx := toyLong [Toy.version, capabilities60, Toy.algorithms, digestsPacket]

theorem toy60_reachable : Reachable 2 toy60 := by
  unfold toy60 toyLong
  have : (Toy.runAll Toy.env (Ctx.new Toy.cfg { chainData := fun i => if i = 0 then some (List.replicate 40 1) else none } 2) [Toy.version, capabilities60, Toy.algorithms, digestsPacket]).isSome = true := by
    decide +kernel
  obtain ⟨c, hc⟩ := Option.isSome_iff_exists.1 this
  rw [hc]
  exact ⟨_, _, _, runAll_run _ Run.nil hc, by simp; exact toy_hashLaw⟩

/-- the hypotheses of `C57_replaced` are met by a connection with a limit of 60 bytes. -/
example : Reachable 2 toy60 ∧ toy60.neg.reqDts = 60 ∧ (toy60.neg.reqDts.toNat < 61) ∧ Ctx.encap Toy.env (tooLargeError toy60.neg.version) = .ok [5, 0x12, 0x7F, 0x0D, 0] ∧
    Toy.env.send toy60.sent.length [5, 0x12, 0x7F, 0x0D, 0] = none := ⟨toy60_reachable, by decide +kernel, by decide +kernel, by decide +kernel, rfl⟩

/-- what processing a packet leaves, on success. -/
def toyAfter (rx : Bytes) : Option Ctx :=
  match processMessage Toy.env rx toy60 with
  | .ok _ c => some c
  | _ => none

/-- **C57**, finding: a CERTIFICATE response that is replaced by ERROR is recorded in the authentication transcript (the 8 bytes of the request
and the 84 bytes of the response the requester never sees), so every later signature over it will be wrong. -/
theorem C57_undelivered_certificate_violated : ∃ (c c' : Ctx) (rx : Bytes), Reachable 2 c ∧ processMessage Toy.env rx c = .ok true c' ∧
    c'.sent = c.sent ++ [[5, 0x12, 0x7F, 0x0D, 0]] ∧ c'.rt.m1m2.map (fun h => h.data.length) = c.rt.m1m2.map (fun h => h.data.length + 8 + 84) := by
  have h : (match processMessage Toy.env (certificatePacket 0) toy60 with
      | .ok true c' => decide (c'.sent = toy60.sent ++ [[5, 0x12, 0x7F, 0x0D, 0]] ∧ c'.rt.m1m2.map (fun h => h.data.length) = toy60.rt.m1m2.map (fun h => h.data.length + 8 + 84))
      | _ => false) = true := by decide +kernel
  split at h
  · rename_i c' hx
    exact ⟨toy60, c', _, toy60_reachable, hx, of_decide_eq_true h⟩
  · cases h

/-- **C57**, finding: a KEY_EXCHANGE_RSP that is replaced by ERROR leaves its session open: the slot is taken although the requester never learns the session id. -/
theorem C57_undelivered_session_violated : ∃ (c c' : Ctx) (rx : Bytes), Reachable 2 c ∧ processMessage Toy.env rx c = .ok true c' ∧
    c'.sent = c.sent ++ [[5, 0x12, 0x7F, 0x0D, 0]] ∧ c.sessions.map (·.state) = [.notStarted, .notStarted] ∧ c'.sessions.map (·.state) = [.handshaking, .notStarted] := by
  have h : (match processMessage Toy.env Toy.keyExchange toy60 with
      | .ok true c' => decide (c'.sent = toy60.sent ++ [[5, 0x12, 0x7F, 0x0D, 0]] ∧ toy60.sessions.map (·.state) = [.notStarted, .notStarted] ∧
          c'.sessions.map (·.state) = [.handshaking, .notStarted])
      | _ => false) = true := by decide +kernel
  split at h
  · rename_i c' hx
    exact ⟨toy60, c', _, toy60_reachable, hx, of_decide_eq_true h⟩
  · cases h

/-- a responder that takes at most 64 bytes, as a peer. -/
def renv64 : REnv := { Toy.menv with recv := Toy.answer Toy.menv (Ctx.new { Toy.cfg with rspCaps := 0x6AF6, dts := 64, mms := 64 } { chainData := fun i => if i = 0 then some [1, 2, 3, 4, 5, 6, 7, 8] else none } 2) }
/-- a vendor-defined request of 100 bytes of data. -/
def vendor100 : Vendor := ⟨.dmtf, [], 100, List.replicate 100 7⟩

/-- **C57**, finding: a vendor-defined request forgets the negotiated parameters before it is built: to a responder that takes 64 bytes it sends 109, and its version byte is 0. -/
theorem C57_vendor_violated : ∃ (c c' : Ctx) (m : Bytes), Req.Reachable 2 c ∧ c.neg.rspDts = 64 ∧ c.neg.version = .v12 ∧ Req.Left ((Req.Op.vendor none vendor100).run renv64) c c' ∧
    Ctx.encap renv64.toEnv m = .ok (5 :: m) ∧ c'.sent = c.sent ++ [5 :: m] ∧ m.length = 109 ∧ m.head? = some 0 := by
  have h : (match Req.initConnection renv64 Toy.req0 with
      | .ok _ c => (match (Req.Op.vendor none vendor100).run renv64 c with
        | .err _ c' => decide (c.neg.rspDts = 64 ∧ c.neg.version = .v12 ∧ Ctx.encap renv64.toEnv (c'.sent.getLast?.getD []).tail = .ok (5 :: (c'.sent.getLast?.getD []).tail) ∧
            c'.sent = c.sent ++ [5 :: (c'.sent.getLast?.getD []).tail] ∧ (c'.sent.getLast?.getD []).tail.length = 109 ∧ (c'.sent.getLast?.getD []).tail.head? = some 0)
        | _ => false)
      | _ => false) = true := by decide +kernel
  split at h
  · rename_i c hc
    split at h
    · rename_i st c' hv
      obtain ⟨h1, h2, h3⟩ := of_decide_eq_true h
      refine ⟨c, c', _, ⟨Toy.reqCfg, {}, [(renv64, .connect)], .cons (.inl hc) .nil⟩, h1, h2, .inr ⟨_, hv⟩, h3⟩
    · cases h
  · cases h

/-- the responder's limit counts: an operation whose request does not fit fails and sends nothing (CHALLENGE takes 36 bytes, KEY_EXCHANGE 156). -/
example : ((Toy.runOps renv64 Toy.req0 [.connect, .certificate 20 none 0, .keyExchange 0 .none]).map fun x => (x.1, x.2.neg.rspDts, x.2.sent.length)) =
    some ([none, none, some .sendFail], 64, 4) := by decide +kernel

end Verif.Props
