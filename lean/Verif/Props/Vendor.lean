/-
C60: vendor-defined messages: what the vendor's handler is given, what is answered, and what the requester makes of it.
-/
import Verif.Props.InSession
import Verif.Props.Sizes

namespace Verif.Props
open Verif Rsp

variable {e : Env}

/-- `rest` are the fields of a VENDOR_DEFINED_REQUEST for vendor `id` of registry `standard`, followed by `len` and the data a handler is given. -/
def IsVendor (rest : Bytes) (standard : UInt16) (id : Bytes) (len : UInt16) (data : Bytes) : Prop :=
  id.length ≤ 255 ∧ data.length = min len.toNat 4087 ∧
    ∃ p q t, rest = [p, q] ++ putU16 standard ++ [UInt8.ofNat id.length] ++ id ++ putU16 len ++ data ++ t

/-- **C60** (responder, outside a session): a vendor-defined request that is answered, by something other than ERROR: it is of the version in force, the handler was
given exactly its length and data, and the one answer names the same registry and vendor and carries what the handler returned.  Besides the sending and the drop of
the measurement transcript nothing has changed: no session, no negotiated parameter, no other transcript. -/
theorem C60_plain (hv : VendorLaw e) (c c' : Ctx) (rx : Bytes) (v : UInt8) (t : Bytes) (hp : Plain e rx (v :: 0xFE :: t))
    (h : processMessage e rx c = .ok true c') (ha : Answered e c c') :
    v = c.neg.version.get ∧ ∃ standard id len data rlen rdata, IsVendor t standard id len data ∧ e.vendor len data = some (rlen, rdata) ∧
      SentOne e ([v, 0x7E] ++ vendorFields standard id rlen rdata) c c' ∧ c' = { c with rt := { c.rt with l1l2 := none }, sent := c'.sent } := by
  obtain ⟨b, c1, pkt, ⟨rfl, v', k', p, q, standard, id, len, data, t', rlen, rdata, hb, hver, hid, hdata, hh, rfl⟩, -, hso, -, rfl⟩ :=
    plain_positive (x := vendorRsp e none (v :: 0xFE :: t)) hp rfl (codes_vendorRsp _ _) (by decide) (vendor_does hv none _ c)
      (wp_sent (sid := none) (k := true) (rel_vendorRsp _)) h ha
  injection hb with hb1 hb2
  injection hb2 with hb2 hb3
  subst hb1 hb2 hb3
  exact ⟨by rw [← hver, SpdmVersion.get_ofCode], standard, id, len, data, rlen, rdata, ⟨hid, hdata, p, q, t', rfl⟩, hh, hso, rfl⟩

theorem vendor_either {sid : UInt32} {v : UInt8} {t : Bytes} {s : Session} {d c' : Ctx} (hs : d.session? sid = some s)
    (h : dispatchSecured e sid (v :: 0xFE :: t) d = .ok () c') : (do let b ← reply (vendorRsp e (some sid) (v :: 0xFE :: t)); sendSecured e sid b false) d = .ok () c' := by
  cases hst : s.state with
  | handshaking => exact (Req.dispatch_handshake hs hst h).2
  | established =>
    unfold dispatchSecured at h
    simp only [M.bind_apply, M.get_apply, hs, hst] at h
    rwa [vendor_in_place] at h
  | notStarted =>
    unfold dispatchSecured at h
    simp only [M.bind_apply, M.get_apply, hs, hst] at h
    cases h

theorem upd_const {c : Ctx} {sid : UInt32} {f g : Session → Session} {x : Session} (hf : ∀ s, s.id = sid → (f s).id = sid) (hg : ∀ s, s.id = sid → (g s).id = sid) :
    ((c.updSession sid f).updSession sid g).updSession sid (fun _ => x) = c.updSession sid (fun _ => x) := by
  unfold Ctx.updSession
  dsimp only
  rw [updFirst_updFirst hg, updFirst_updFirst hf]

/-- **C60** (responder, inside a session, in either phase): the same, with the answer sealed for the session; the session has advanced by one message in each direction
and lost its measurement transcript, and nothing else has changed. -/
theorem C60_secured (hv : VendorLaw e) (c c0 c' : Ctx) (rx : Bytes) (sid : UInt32) (s : Session) (v : UInt8) (t : Bytes)
    (ho : Opens e rx c sid (v :: 0xFE :: t) false c0) (hs : c.session? sid = some s)
    (h : processMessage e rx c = .ok true c') (ha : AnsweredIn e s c c') :
    v = c.neg.version.get ∧ ∃ standard id len data rlen rdata, IsVendor t standard id len data ∧ e.vendor len data = some (rlen, rdata) ∧
      SealedOne e s ([v, 0x7E] ++ vendorFields standard id rlen rdata) c c' ∧
      c' = { c.updSession sid (fun _ => { (s.bump true).bump false with l1l2 := none }) with sent := c'.sent } := by
  have hs1 : (c.updSession sid (·.bump true)).session? sid = some (s.bump true) := session?_upd hs (by rw [Session.bump_id]; exact session?_id hs)
  obtain ⟨b, c1, pkt, y, ⟨rfl, v', k', p, q, standard, id, len, data, t', rlen, rdata, hb, hver, hid, hdata, hh, rfl⟩, -, h1, h2, h3, rfl⟩ :=
    secured_positive_of ho hs (fun _ => vendor_either hs1) (codes_vendorRsp _ _) (by decide) (om_vendorRsp _) (vendor_does hv (some sid) _ _)
      (wp_sent (sid := some sid) (k := true) (rel_vendorRsp _)) h ha
  injection hb with hb1 hb2
  injection hb2 with hb2 hb3
  subst hb1 hb2 hb3
  have hver : SpdmVersion.ofCode v = c.neg.version := hver
  have hid1 : (s.bump true).id = sid := by rw [Session.bump_id]; exact session?_id hs
  have hreset : (Ctx.resetBuffers .reqVendorDefinedRequest (some sid) (c.updSession sid (·.bump true))).session? sid = some { s.bump true with l1l2 := none } :=
    session?_upd (f := fun s => { s with l1l2 := none }) hs1 hid1
  rw [hreset] at h3
  cases h3
  refine ⟨by rw [← hver, SpdmVersion.get_ofCode], standard, id, len, data, rlen, rdata, ⟨hid, hdata, p, q, t', rfl⟩, hh,
    ⟨pkt, h1, rfl⟩, ?_⟩
  have := upd_const (c := c) (sid := sid) (f := (·.bump true)) (g := fun s => { s with l1l2 := none }) (x := { (s.bump true).bump false with l1l2 := none })
    (fun s h => by rw [Session.bump_id]; exact h) (fun s h => h)
  rw [← this]
  rfl

/-! ### availability -/

theorem writeError_full {c : Ctx} {r : Reply} (h : r.pre.length = msgSize) : writeError c r = some r.pre := by
  have hw := error_writes c r.code r.data ⟨msgSize, r.pre⟩ (by simp [Writer.WF]; omega)
  obtain ⟨p, -, h2, h3⟩ := hw.2 (by simp [errorBytes]; omega)
  have : p = [] := by
    have h2 : r.pre.length + p.length ≤ msgSize := h2
    apply List.length_eq_zero_iff.1
    omega
  subst this
  unfold writeError
  rw [h3]
  simp

theorem small {c : Ctx} {b : Bytes} {n : Nat} (hb : b.length ≤ n) (h : c.neg.reqDts = 0 ∨ n ≤ c.neg.reqDts.toNat) :
    tooLarge (Ctx.resetBuffers .reqVendorDefinedRequest none c) b = false := by
  show (c.neg.reqDts != 0 && decide (c.neg.reqDts.toNat < b.length)) = false
  rcases h with h | h
  · simp [h]
  · simp; intro _; omega

/-- **C60** (responder), availability: a well-formed vendor-defined request of the version in force, for which the handler returns an answer that fits into a message and
into what the requester takes, is answered with it. -/
theorem C60_served (c : Ctx) (rx : Bytes) (v : UInt8) (standard : UInt16) (id : Bytes) (len : UInt16) (data t : Bytes) (rlen : UInt16) (rdata pkt : Bytes)
    (hp : Plain e rx (v :: 0xFE :: (vendorFields standard id len data ++ t))) (hv : SpdmVersion.ofCode v = c.neg.version) (hid : id.length ≤ 255) (hl : data.length = len.toNat)
    (hd : data.length ≤ 4087) (hh : e.vendor len data = some (rlen, rdata)) (hrl : rlen.toNat = rdata.length) (hfit : id.length + rdata.length ≤ 4087)
    (hdts : c.neg.reqDts = 0 ∨ 9 + id.length + rdata.length ≤ c.neg.reqDts.toNat)
    (he : Ctx.encap e ([v, 0x7E] ++ vendorFields standard id rlen rdata) = .ok pkt) (hs : e.send c.sent.length pkt = none) :
    ∃ c', processMessage e rx c = .ok true c' ∧ c'.sent = c.sent ++ [pkt] := by
  have hx := vendorRsp_eq (e := e) none (c := c) (t := t) (standard := standard) hv hid hl hd hh hrl (by omega)
  rw [if_pos hfit] at hx
  exact ⟨_, plain_delivers (r := 0x7E) hp rfl hx ⟨_, _, rfl⟩ (by decide) (small (by simp [vendorFields, putU16]; omega) hdts) he hs, rfl⟩

/-- **C60** (responder), finding: when what the handler returns does not fit into a message together with the vendor id, the answer is not ERROR but a
VENDOR_DEFINED_RESPONSE cut off at 4096 bytes, in the middle of its data. -/
theorem C60_truncated_violated (c : Ctx) (rx : Bytes) (v : UInt8) (standard : UInt16) (id : Bytes) (len : UInt16) (data t : Bytes) (rlen : UInt16) (rdata pkt : Bytes)
    (hp : Plain e rx (v :: 0xFE :: (vendorFields standard id len data ++ t))) (hv : SpdmVersion.ofCode v = c.neg.version) (hid : id.length ≤ 255)
    (hl : data.length = len.toNat) (hd : data.length ≤ 4087) (hh : e.vendor len data = some (rlen, rdata)) (hrl : rlen.toNat = rdata.length)
    (hrd : rdata.length ≤ 4087) (hbig : 4087 < id.length + rdata.length) (hdts : c.neg.reqDts = 0 ∨ 4096 ≤ c.neg.reqDts.toNat)
    (he : Ctx.encap e ([v, 0x7E, 0, 0] ++ putU16 standard ++ [UInt8.ofNat id.length] ++ id ++ putU16 rlen ++ rdata.take (4087 - id.length)) = .ok pkt)
    (hs : e.send c.sent.length pkt = none) :
    ∃ c', processMessage e rx c = .ok true c' ∧ c'.sent = c.sent ++ [pkt] := by
  have hx := vendorRsp_eq (e := e) none (c := c) (t := t) (standard := standard) hv hid hl hd hh hrl hrd
  rw [if_neg (Nat.not_le.2 hbig)] at hx
  have hcut : ([v, 0x7E] ++ vendorFields standard id rlen rdata).take msgSize =
      [v, 0x7E, 0, 0] ++ putU16 standard ++ [UInt8.ofNat id.length] ++ id ++ putU16 rlen ++ rdata.take (4087 - id.length) := by
    have h1 : [v, 0x7E] ++ vendorFields standard id rlen rdata = ([v, 0x7E, 0, 0] ++ putU16 standard ++ [UInt8.ofNat id.length] ++ id ++ putU16 rlen) ++ rdata := by
      simp [vendorFields]
    have h2 : ([v, 0x7E, 0, 0] ++ putU16 standard ++ [UInt8.ofNat id.length] ++ id ++ putU16 rlen).length = 9 + id.length := by simp [putU16]; omega
    rw [h1, List.take_append, h2, List.take_of_length_le (by rw [h2]; show _ ≤ 4096; omega)]
    congr 2
    show 4096 - _ = _
    omega
  rw [hcut] at hx
  have hlen : ([v, 0x7E, 0, 0] ++ putU16 standard ++ [UInt8.ofNat id.length] ++ id ++ putU16 rlen ++ rdata.take (4087 - id.length)).length = msgSize := by
    simp [putU16, msgSize]; omega
  generalize hb : [v, 0x7E, 0, 0] ++ putU16 standard ++ [UInt8.ofNat id.length] ++ id ++ putU16 rlen ++ rdata.take (4087 - id.length) = b at *
  have hst : Starts 0x7E b := by rw [← hb]; exact ⟨_, _, rfl⟩
  have hdone := sendMessage_delivers (c := Ctx.resetBuffers .reqVendorDefinedRequest none c) hst (by decide) (small (Nat.le_of_eq hlen) hdts) he hs
  refine ⟨withState (afterState 0x7E (Ctx.resetBuffers .reqVendorDefinedRequest none c).rt.state) (withSent pkt (Ctx.resetBuffers .reqVendorDefinedRequest none c)), ?_, rfl⟩
  · rw [process_plain rx hp, isOk_true, dispatch_cons]
    show (do let b ← reply (vendorRsp e none _); sendMessage e b) c = _
    simp only [M.bind_apply, reply, hx]
    rw [writeError_full hlen]
    exact hdone

/-! ### the requester -/

/-- **C60** (requester), finding: a vendor-defined request inside a session never succeeds, whatever the session, the peer and the request: the requester forgets
all sessions before it sends. -/
theorem C60_session_violated (e : REnv) (sid : UInt32) (m : Vendor) (c c' : Ctx) (r : UInt16 × Bytes) : Req.vendorRequest e (some sid) m c ≠ .ok r c' := by
  intro h
  unfold Req.vendorRequest at h
  obtain ⟨_, c1, h1, h⟩ := M.bind_ok.1 h
  cases h1
  obtain ⟨_, c2, h2, h⟩ := M.bind_ok.1 h
  cases h2
  obtain ⟨req, c3, h3, h⟩ := M.bind_ok.1 h
  have := Req.encodeReq_ctx h3
  subst this
  obtain ⟨rsp, c4, h4, h⟩ := M.bind_ok.1 h
  obtain ⟨pkt, p, -, s, hs, hst, -⟩ := Req.transact_ok h4
  have hm := List.mem_of_find?_eq_some hs
  unfold Ctx.reset at hm
  dsimp only at hm
  obtain ⟨t, -, rfl⟩ := List.mem_map.1 hm
  exact hst rfl

theorem vendor_tail (e : REnv) (sid : Option UInt32) (m : Vendor) : M.Rel (Req.Kept sid) (do
    let req ← Req.encodeReq .reqVendorDefinedRequest (.vendorReq m)
    let rsp ← Req.transact e sid req
    Req.handleVendor sid rsp) := by
  refine .bind (Req.rel_of_frame (Req.rel_encodeReq (sid := sid) _ _)) fun _ => .bind (Req.rel_of_frame (Req.rel_transact _)) fun _ => ?_
  unfold Req.handleVendor
  refine .bind (Req.rel_expect _ _) fun _ => .bind (Req.rel_of_frame (Req.rel_readMsg (sid := sid) _ _ _)) fun p => ?_
  obtain ⟨m, _⟩ := p
  exact .pure _

/-- nothing is left of a connection: no negotiated parameters, no chain of the peer and no session. -/
def Forgotten (c : Ctx) : Prop := c.neg = {} ∧ (∀ i, c.peer.chain i = none) ∧ ∀ s ∈ c.sessions, s.id = 0

/-- **C60** (requester), finding: however a vendor-defined request ends, the connection, the sessions and the peer's certificate chain are forgotten. -/
theorem C60_forgets_violated (e : REnv) (sid : Option UInt32) (m : Vendor) (c : Ctx) :
    (Req.vendorRequest e sid m).wp c (fun _ => Forgotten) (fun _ => Forgotten) := by
  have hk : ∀ c', Req.Kept sid (Ctx.reset (Ctx.resetBuffers .reqVendorDefinedRequest sid c)) c' → Forgotten c' := by
    intro c' h
    refine ⟨h.neg, fun i => congrFun h.chain i, ?_⟩
    have hz : ∀ s ∈ (Ctx.reset (Ctx.resetBuffers .reqVendorDefinedRequest sid c)).sessions, s.id = 0 := by
      intro s hs
      unfold Ctx.reset at hs
      dsimp only at hs
      obtain ⟨t, -, rfl⟩ := List.mem_map.1 hs
      rfl
    have ha := h.sessions
    generalize (Ctx.reset (Ctx.resetBuffers .reqVendorDefinedRequest sid c)).sessions = l at hz ha
    generalize c'.sessions = l' at ha
    induction ha with
    | nil => intro s hs; cases hs
    | cons hx _ ih =>
      rename_i a b l l' _
      have ha0 := hz a (by simp)
      intro s hs
      rcases List.mem_cons.1 hs with rfl | hs
      · rcases hx with rfl | ⟨-, h | h⟩
        · exact ha0
        · exact h.trans ha0
        · exact h
      · exact ih (fun s hs => hz s (by simp [hs])) s hs
  unfold Req.vendorRequest
  rw [M.wp_bind, M.wp_modify, M.wp_bind, M.wp_modify]
  exact (vendor_tail e sid m (Ctx.reset (Ctx.resetBuffers .reqVendorDefinedRequest sid c))).mono (fun _ _ h => hk _ h) (fun _ _ h => hk _ h)

/-- **C60** (requester, outside a session): a vendor-defined request that succeeds: the one packet sent carries the request with exactly the given registry, vendor and
data (and version byte 0, the connection being forgotten), and what is returned is exactly the length and data of the VENDOR_DEFINED_RESPONSE that came back. -/
theorem C60_request (e : REnv) (m : Vendor) (hm : m.WF) (c c' : Ctx) (len : UInt16) (data : Bytes) (h : Req.vendorRequest e none m c = .ok (len, data) c') :
    ∃ pkt p standard id t, Ctx.encap e.toEnv ([0, 0xFE] ++ vendorFields m.standard.get m.vendorId m.length m.data) = .ok pkt ∧ c'.sent = c.sent ++ [pkt] ∧
      e.recv c'.sent = some p ∧ Req.PlainIn e p ([0, 0x7E] ++ t) ∧ IsVendor t standard id len data := by
  unfold Req.vendorRequest at h
  obtain ⟨_, c1, h1, h⟩ := M.bind_ok.1 h
  cases h1
  obtain ⟨_, c2, h2, h⟩ := M.bind_ok.1 h
  cases h2
  obtain ⟨req, c3, h3, h⟩ := M.bind_ok.1 h
  obtain ⟨rfl, rfl⟩ := Req.encodeReq_ok (p := .vendorReq m) (Vendor.encode_writes hm) h3
  obtain ⟨rsp, c4, h4, h⟩ := M.bind_ok.1 h
  obtain ⟨pkt, p, k1, k2, -, k4, k5⟩ := Req.transact_none_ok h4
  unfold Req.handleVendor at h
  obtain ⟨r, c5, h5, h⟩ := M.bind_ok.1 h
  obtain ⟨rfl, v, t, rfl, hv, rfl⟩ := Req.expect_ok h5
  obtain ⟨⟨m', b⟩, c6, h6, h8⟩ := M.bind_ok.1 h
  obtain ⟨rfl, r', h7, -⟩ := readMsg_ok h6
  cases h8
  obtain ⟨g1, g2, -, p1, p2, g3⟩ := Vendor.read_exact h7
  subst k2
  have hv : SpdmVersion.ofCode v = .unknown 0 := hv
  have hv0 : v = 0 := by rw [← SpdmVersion.get_ofCode v, hv]; rfl
  subst hv0
  refine ⟨pkt, p, m'.standard.get, m'.vendorId, t, ?_, rfl, k4, k5, g1, g2, p1, p2, r'.rest, g3⟩
  rw [← k1]
  congr 1


/-! ### concrete cases -/

/-- a request for vendor 8086h of the PCI SIG with data [9]. -/
def vendorReq9 (v : UInt8) : Bytes := [v, 0xFE, 0, 0, 3, 0, 2, 0x86, 0x80, 1, 0, 9]

theorem toy_vendorLaw : VendorLaw Toy.env := by
  intro n d len data h
  have h : (if n.toNat = d.length ∧ d.length ≤ 3832 then some (n, d) else none) = some (len, data) := h
  split at h
  · rename_i hx; cases h; exact hx
  · cases h

/- the hypotheses of `C60_plain` are met, after negotiation and before it -/
example : VendorLaw Toy.env ∧ Reachable 2 Toy.negotiated ∧ Plain Toy.env (5 :: vendorReq9 0x12) (vendorReq9 0x12) ∧
    ∃ c', processMessage Toy.env (5 :: vendorReq9 0x12) Toy.negotiated = .ok true c' ∧ Answered Toy.env Toy.negotiated c' :=
  ⟨toy_vendorLaw, negotiated_reachable, by unfold Plain; decide +kernel, toy_answers (by decide +kernel)⟩
example : Plain Toy.env (5 :: vendorReq9 0) (vendorReq9 0) ∧ ∃ c', processMessage Toy.env (5 :: vendorReq9 0) Toy.ctx0 = .ok true c' ∧ Answered Toy.env Toy.ctx0 c' :=
  ⟨by unfold Plain; decide +kernel, toy_answers (by decide +kernel)⟩
/- those of `C60_secured`: in an established session, and in one whose handshake is still going on -/
example : toyTold (toyRun toyPackets) (Toy.sealIn 0 (toyRun toyPackets) (8 :: vendorReq9 0x12)) (0x12 :: 0x7E :: (vendorReq9 0x12).drop 2) := by decide +kernel
example : (toyRun (toyPackets.take 4)).sessions.map (·.state) = [.handshaking, .notStarted] ∧
    toyTold (toyRun (toyPackets.take 4)) (Toy.sealIn 0 (toyRun (toyPackets.take 4)) (8 :: vendorReq9 0x12)) (0x12 :: 0x7E :: (vendorReq9 0x12).drop 2) := by decide +kernel

/-- a peer that answers in the name of another vendor. -/
def otherVendor : REnv := { Toy.menv with recv := fun _ => some (5 :: [0, 0x7E, 0, 0, 1, 0, 2, 1, 1, 1, 0, 8]) }

/-- **C60** (requester), finding: the registry and the vendor named in the response are not compared with those of the request. -/
theorem C60_vendor_violated : ∃ (c c' : Ctx) (m : Vendor), m.WF ∧ m.standard.get = 3 ∧ m.vendorId = [0x86, 0x80] ∧ Req.vendorRequest otherVendor none m c = .ok (1, [8]) c' ∧
    ∃ p t, otherVendor.recv c'.sent = some p ∧ Req.PlainIn otherVendor p ([0, 0x7E] ++ t) ∧ IsVendor t 1 [1, 1] 1 [8] := by
  have h : (match Req.vendorRequest otherVendor none ⟨.pcisig, [0x86, 0x80], 1, [9]⟩ Toy.req0 with
    | .ok r _ => decide (r = (1, [8]))
    | _ => false) = true := by decide +kernel
  split at h
  · rename_i r c' hx
    cases of_decide_eq_true h
    exact ⟨Toy.req0, c', ⟨.pcisig, [0x86, 0x80], 1, [9]⟩, ⟨by decide, by decide, by decide, by decide⟩, rfl, rfl, hx, _, [0, 0, 1, 0, 2, 1, 1, 1, 0, 8], rfl,
      by unfold Req.PlainIn; decide +kernel, by decide, by decide, 0, 0, [], by decide⟩
  · cases h

theorem plain_congr {e e' : Env} {rx b : Bytes} (h : e'.tr = e.tr) (hp : Plain e rx b) : Plain e' rx b := by
  unfold Plain at hp ⊢
  rw [← hp]
  unfold received
  rw [h]
theorem toy_plain9 : Plain Toy.env (5 :: vendorReq9 0x12) (vendorReq9 0x12) := by unfold Plain; decide +kernel

/- the hypotheses of `C60_truncated_violated` are met by a handler that returns as much as its result can hold -/
example (rdata : Bytes) (hr : rdata.length = 4087) : ∃ (e : Env) (c : Ctx) (rx pkt : Bytes), Reachable 2 c ∧
    SpdmVersion.ofCode 0x12 = c.neg.version ∧ Plain e rx (0x12 :: 0xFE :: (vendorFields 3 [0x86, 0x80] 1 [9] ++ [])) ∧ (c.neg.reqDts = 0 ∨ 4096 ≤ c.neg.reqDts.toNat) ∧
    e.vendor 1 [9] = some (4087, rdata) ∧ 4087 < [0x86, 0x80].length + rdata.length ∧
    Ctx.encap e ([0x12, 0x7E, 0, 0] ++ putU16 3 ++ [UInt8.ofNat 2] ++ [0x86, 0x80] ++ putU16 4087 ++ rdata.take (4087 - 2)) = .ok pkt ∧ e.send c.sent.length pkt = none := by
  refine ⟨{ Toy.env with vendor := fun _ _ => some (4087, rdata) }, Toy.negotiated, 5 :: vendorReq9 0x12,
    5 :: ([0x12, 0x7E, 0, 0] ++ putU16 3 ++ [UInt8.ofNat 2] ++ [0x86, 0x80] ++ putU16 4087 ++ rdata.take (4087 - 2)), negotiated_reachable, by decide +kernel, ?_,
    by decide +kernel, rfl, by simp [hr], ?_, rfl⟩
  · have h9 : (0x12 :: 0xFE :: (vendorFields 3 [0x86, 0x80] 1 [9] ++ []) : Bytes) = vendorReq9 0x12 := by decide +kernel
    rw [h9]
    exact plain_congr (e := Toy.env) rfl toy_plain9
  have := intoBuf_put (5 :: ([0x12, 0x7E, 0, 0] ++ putU16 3 ++ [UInt8.ofNat 2] ++ [0x86, 0x80] ++ putU16 4087 ++ rdata.take (4087 - 2))) 4160
  rw [if_pos (by simp [putU16])] at this
  exact this

end Verif.Props
