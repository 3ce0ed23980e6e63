/-
C69, C70, C71: encapsulated messages, and what a requester serves during mutual authentication (`mut-auth` feature).
-/
import Verif.Encap.Exchange
import Verif.Encap.Responder
import Verif.Props.Codec
import Verif.Spec.ToyMutual

namespace Verif.Props
open Verif.Encap Verif.Rsp

/-! ## C69 the four messages that carry encapsulated requests -/

/-- **C69**: what the four messages are on the wire, for every version byte and request number, and that encoding into any buffer writes exactly this or stops at the end of the
buffer.  ENCAPSULATED_RESPONSE_ACK has the acknowledged number and three reserved bytes from version 1.2 on. -/
theorem C69_layout (c : Cc) (v : SpdmVersion) (id ack : UInt8) (p : EncapAckPayload) :
    EncodesTo (Enc.seq [Header.encode ⟨v, .reqGetEncapsulatedRequest⟩, encGet]) [v.get, 0xEA, 0, 0] ∧
    EncodesTo (Enc.seq [Header.encode ⟨v, .rspEncapsulatedRequest⟩, encId id]) [v.get, 0x6A, id, 0] ∧
    EncodesTo (Enc.seq [Header.encode ⟨v, .reqDeliverEncapsulatedResponse⟩, encId id]) [v.get, 0xEB, id, 0] ∧
    EncodesTo (Enc.seq [Header.encode ⟨v, .rspEncapsulatedResponseAck⟩, (Ack.mk id p ack).encode c])
      ([v.get, 0x6B, id, p.get] ++ if 0x12 ≤ c.ver then [ack, 0, 0, 0] else []) := by
  refine ⟨EncodesTo_of_Writes ?_, EncodesTo_of_Writes ?_, EncodesTo_of_Writes ?_, EncodesTo_of_Writes ?_⟩
  · exact (Writes.seq_cons (Header.encode_writes _) (Writes.seq_cons encGet_writes Writes.seq_nil)).cast (by simp [Header.wire, ReqRespCode.get])
  · exact (Writes.seq_cons (Header.encode_writes _) (Writes.seq_cons (encId_writes id) Writes.seq_nil)).cast (by simp [Header.wire, ReqRespCode.get])
  · exact (Writes.seq_cons (Header.encode_writes _) (Writes.seq_cons (encId_writes id) Writes.seq_nil)).cast (by simp [Header.wire, ReqRespCode.get])
  · exact (Writes.seq_cons (Header.encode_writes _) (Writes.seq_cons (Ack.encode_writes c _) Writes.seq_nil)).cast
      (by simp [Header.wire, ReqRespCode.get, Ack.wire, Cc.ge12])

/-- **C69**: decoding after encoding gives the message back and leaves what follows, for every message a peer of the same version can encode. -/
theorem C69_round_trip (c : Cc) (id ack k : UInt8) (h : c.ver < 0x12 → ack = 0) (rest : Bytes) (used : Nat) :
    rdGet ⟨[0, 0] ++ rest, used⟩ = .ok () ⟨rest, used + 2⟩ ∧
    rdId ⟨[id, 0] ++ rest, used⟩ = .ok id ⟨rest, used + 2⟩ ∧
    Ack.read c ⟨([id, k] ++ if 0x12 ≤ c.ver then [ack, 0, 0, 0] else []) ++ rest, used⟩ =
      .ok ⟨id, EncapAckPayload.ofCode k, ack⟩ ⟨rest, used + if 0x12 ≤ c.ver then 6 else 2⟩ := by
  refine ⟨by simp [rdGet], by simp [rdId], ?_⟩
  by_cases hv : 0x12 ≤ c.ver
  · have hg : c.ge12 = true := by simp [Cc.ge12]; exact hv
    simp only [hv, if_true, List.cons_append, List.nil_append]
    simp only [Ack.read, M.bind_apply, rdU8_cons, EncapAckPayload.read_cons, hg, if_true, rdU24_cons]
    rfl
  · have hg : ¬ c.ge12 = true := by simp [Cc.ge12]; exact UInt8.not_le.1 hv
    have := h (UInt8.not_le.1 hv)
    subst this
    simp only [hv, if_false, List.cons_append, List.nil_append]
    simp only [Ack.read, M.bind_apply, rdU8_cons, EncapAckPayload.read_cons, hg]
    rfl

/-- **C69**: no bytes make the decoders panic or read past the end. -/
theorem C69_decoders_total (c : Cc) (buf : Bytes) :
    rdGet (Reader.init buf) ≠ .panic ∧ rdId (Reader.init buf) ≠ .panic ∧ Ack.read c (Reader.init buf) ≠ .panic ∧
    (∀ r', rdGet (Reader.init buf) = .ok () r' → r'.used ≤ buf.length ∧ r'.rest = buf.drop r'.used) ∧
    (∀ a r', rdId (Reader.init buf) = .ok a r' → r'.used ≤ buf.length ∧ r'.rest = buf.drop r'.used) ∧
    (∀ a r', Ack.read c (Reader.init buf) = .ok a r' → r'.used ≤ buf.length ∧ r'.rest = buf.drop r'.used) := by
  have h1 := C01_good_decoder _ rdGet_good buf
  have h2 := C01_good_decoder _ rdId_good buf
  have h3 := C01_good_decoder _ (Ack.read_good c) buf
  exact ⟨h1.1, h2.1, h3.1, h1.2 (), h2.2, h3.2⟩

/- an acknowledgement of version 1.2 and one of version 1.1 -/
example : Ack.read { neg := { version := .v12 }, needSummary := false, needSig := false } (Reader.init [7, 1, 7, 0, 0, 0, 0x12, 0x82]) =
    .ok ⟨7, .present, 7⟩ ⟨[0x12, 0x82], 6⟩ := by decide
example : Ack.read { neg := { version := .v11 }, needSummary := false, needSig := false } (Reader.init [7, 1, 0x11, 0x82]) =
    .ok ⟨7, .present, 0⟩ ⟨[0x11, 0x82], 2⟩ := by decide

/-! ## C70 what a requester answers to an encapsulated request -/

/-- **C70**: every answer a requester gives to an encapsulated request.  It is DELIVER_ENCAPSULATED_RESPONSE with the number of the request, then, in the requester's version,
the response: DIGESTS of its own chains, or at most 512 bytes of its chain in slot 0 at the offset asked for, provided it announced CERT_CAP and the request carries the negotiated version;
otherwise an ERROR that says why (`Answers`).  Nothing else is ever disclosed. -/
theorem C70_answers (e : Env) (hl : HashLaw e) (c : Ctx) (hsz : ∀ ch, c.prov.chain 0 = some ch → ch.length < 65536) (id : UInt8) (req b : Bytes) (h : delivery e c id req = .ok b) :
    ∃ v k t rsp, req = v :: k :: t ∧ b = [c.neg.version.get, 0xEB, id, 0] ++ rsp ∧ Answers e c v k t rsp :=
  delivery_ok hl hsz h

/-- **C70**: there always is an answer: if the hash algorithm is negotiated and supported, no request of at least two bytes makes the requester fail or panic, and a shorter one is refused. -/
theorem C70_total (e : Env) (c : Ctx) (hsz : ∀ ch, c.prov.chain 0 = some ch → ch.length < 65536) (hs : Nat) (hh : BaseHash.size? c.neg.baseHash = some hs)
    (hd : ∀ i ch, c.prov.chain i = some ch → ∃ d, e.crypto.hash c.neg.baseHash ch = some d ∧ d.length = hs) (id : UInt8) (req : Bytes) :
    (2 ≤ req.length → ∃ b, delivery e c id req = .ok b) ∧ (req.length < 2 → delivery e c id req = .err .invalidMsgField) := by
  constructor
  · intro hr
    match req, hr with
    | v :: k :: t, _ =>
      obtain ⟨w, hw⟩ := serve_total (e := e) (c := c) hsz hh hd (v := v) (k := k) (t := t) (w := ⟨4096, [c.neg.version.get, 0xEB, id, 0]⟩) ⟨rfl, rfl⟩
      refine ⟨w.out, ?_⟩
      unfold delivery
      rw [deliver_header]
      dsimp only
      rw [header_read]
      dsimp only
      rw [hw]
  · intro hr
    unfold delivery
    rw [deliver_header]
    dsimp only
    obtain ⟨r, h⟩ := header_read_short hr
    rw [h]

/- the hypotheses of C70 are met by the requester of `ToyMutual`: GET_CERTIFICATE of its chain -/
def toyMutual : Ctx := ((Toy.beforeMutual .v12).bind fun x => match Ctx.constructChains Toy.menv x.2 with | .ok _ c => some c | _ => none).getD (Toy.mutualReq .v12)

example : delivery Toy.menv toyMutual 3 [0x12, 0x82, 0, 0, 36, 0, 0, 2] = .ok [0x12, 0xEB, 3, 0, 0x12, 0x02, 0, 0, 9, 0, 0, 0, 9, 8, 7, 6, 5, 4, 3, 2, 1] := by decide +kernel
example : (toyMutual.prov.chain 0).map List.length = some 45 ∧ BaseHash.size? toyMutual.neg.baseHash = some 32 := by decide +kernel

/-- the requester of `ToyMutual` with chains in two slots. -/
def twoOwn : Ctx :=
  { toyMutual with prov := { toyMutual.prov with chain := fun i => if i = 0 then some [1, 2, 3] else if i = 1 then some [4, 5] else none } }

/-- **C70**, finding: as for DIGESTS outside sessions (C49), a requester with chains in two slots leaves 32 bytes 0xFF where the digest of the chain in slot 0 belongs. -/
theorem C70_several_violated : ∃ (c : Ctx) (ch d0 : Bytes) (b : Bytes), c.prov.chain 0 = some ch ∧ Toy.menv.crypto.hash c.neg.baseHash ch = some d0 ∧
    delivery Toy.menv c 0 [0x12, 0x81, 0, 0] = .ok b ∧ b.take 40 = [0x12, 0xEB, 0, 0, 0x12, 0x01, 0, 3] ++ List.replicate 32 0xFF ∧ d0 ≠ List.replicate 32 0xFF := by
  refine ⟨twoOwn, [1, 2, 3], (Toy.menv.crypto.hash toyMutual.neg.baseHash [1, 2, 3]).getD [],
    ([0x12, 0xEB, 0, 0, 0x12, 0x01, 0, 3] ++ List.replicate 32 0xFF) ++ (Toy.menv.crypto.hash toyMutual.neg.baseHash [4, 5]).getD [], rfl, ?_, ?_, ?_, ?_⟩ <;> decide +kernel

/-! ## C71 the requester's side of the exchange -/

/-- **C71**: without version 1.1 and ENCAP_CAP of both sides the requester does not take part: nothing is sent, nothing changes. -/
theorem C71_gate (e : REnv) (fuel : Nat) (sid : UInt32) (m : UInt8) (c : Ctx) (h : c.neg.version.get < 0x11 ∨ c.neg.reqCaps &&& 0x1000 = 0 ∨ c.neg.rspCaps &&& 0x1000 = 0) :
    exchange e fuel sid m c = .err .unsupportedCap c := by
  unfold exchange
  rw [M.bind_apply, M.get_apply]
  dsimp only
  by_cases hv : c.neg.version.get < 0x11
  · rw [if_pos hv]; rfl
  · rw [if_neg hv]
    have : Cap.has c.neg.reqCaps Cap.encap = false ∨ Cap.has c.neg.rspCaps Cap.encap = false := by
      rcases h with h | h | h
      · exact absurd h hv
      · left; simp [Cap.has, Cap.encap, h]
      · right; simp [Cap.has, Cap.encap, h]
    rw [if_pos this]; rfl

/-- **C71**: whatever a responder sends and however the exchange ends, it only advances the record counters of this session, sends records of this session that hold
GET_ENCAPSULATED_REQUEST or an answer `C70` describes, and sets the slot the requester will use (`Serving`).  Negotiation, provisioned and received certificates, transcripts and all other
sessions are as before. -/
theorem C71_only_serves (e : REnv) (hl : HashLaw e.toEnv) (fuel : Nat) (sid : UInt32) (m : UInt8) (c c' : Ctx) (hsz : Small c)
    (h : (∃ u, exchange e fuel sid m c = .ok u c') ∨ ∃ st, exchange e fuel sid m c = .err st c') :
    Serving e sid c c' ∧ c'.neg = c.neg ∧ c'.config = c.config ∧ c'.prov = c.prov ∧ c'.peer = c.peer ∧ c.sent <+: c'.sent ∧
    (∃ sl, c'.rt = { c.rt with localSlot := sl } ∧ (sl = c.rt.localSlot ∨ sl < 8)) ∧ ∀ i ≠ sid, c'.session? i = c.session? i := by
  have hs : Serving e sid c c' := by
    rcases h with ⟨u, h⟩ | ⟨st, h⟩
    · exact (exchange_serves hl fuel sid m c).ok h hsz
    · exact (exchange_serves hl fuel sid m c).err h hsz
  exact ⟨hs, hs.fields⟩

/-- **C71**: an exchange that succeeds.  Either the requester first answered the GET_DIGESTS that KEY_EXCHANGE_RSP stands for, or it asked for a request and answered it; then it answered
every request that came in an acknowledgement, until one with no request (8 bytes, type 0) or with the number of the slot to use, below 8 (9 bytes, type 2). -/
theorem C71_success (e : REnv) (hl : HashLaw e.toEnv) (fuel : Nat) (sid : UInt32) (m : UInt8) (c c' : Ctx) (u : Unit) (hsz : Small c) (h : exchange e fuel sid m c = .ok u c') :
    0x11 ≤ c.neg.version.get ∧ c.neg.reqCaps &&& 0x1000 ≠ 0 ∧ c.neg.rspCaps &&& 0x1000 ≠ 0 ∧
    ∃ c1, ((m = 4 ∧ ∃ msg, Replies e.toEnv c 0 [c.neg.version.get, 0x81, 0, 0] msg ∧ Tells e sid c msg c1) ∨
      (m ≠ 4 ∧ ∃ c0, Tells e sid c [c.neg.version.get, 0xEA, 0, 0] c0 ∧ Asked e sid c0 c1)) ∧ Acks e sid c1 c' := by
  have hgate := fun g => (C71_gate e fuel sid m c g).symm.trans h
  refine ⟨?_, ?_, ?_, ?_⟩
  · by_cases hv : c.neg.version.get < 0x11
    · cases hgate (.inl hv)
    · exact UInt8.not_lt.1 hv
  · intro g; cases hgate (.inr (.inl g))
  · intro g; cases hgate (.inr (.inr g))
  unfold exchange at h
  obtain ⟨c0, c00, h0, h⟩ := M.bind_ok.1 h
  cases h0
  by_cases hv : c.neg.version.get < 0x11
  · rw [if_pos hv] at h; cases h
  rw [if_neg hv] at h
  by_cases hc : Cap.has c.neg.reqCaps Cap.encap = false ∨ Cap.has c.neg.rspCaps Cap.encap = false
  · rw [if_pos hc] at h; cases h
  rw [if_neg hc] at h
  obtain ⟨u1, c1, h1, h2⟩ := M.bind_ok.1 h
  have hsv : Serving e sid c c1 := (opening_serves hl sid m c).ok h1 hsz
  exact ⟨c1, opening_ok hl hsz h1, ackLoop_ok hl (by unfold Small; rw [hsv.fields.2.2.1]; exact hsz) h2⟩

/- both ways to start succeed between the requester and the responder of `ToyMutual` -/
def toyServed (m : UInt8) : Option Ctx :=
  match exchange (Toy.mutualEnv .v12) 20 0xFFFDFFFD m toyMutual with
  | .ok _ c => some c
  | _ => none
example : (toyServed 4).map (fun c => (c.rt.localSlot, c.sent.length)) = some (0, 8) := by decide +kernel
example : (toyServed 2).map (fun c => (c.rt.localSlot, c.sent.length)) = some (0, 9) := by decide +kernel
/- and leave the responder with the requester's chain -/
example : (toyServed 4).map (fun c => (Toy.runMutual Toy.menv (Toy.mutualRsp .v12) c.sent).map fun p => p.c.peer.chain 0) = some (some (toyMutual.prov.chain 0)) := by decide +kernel

/-- **C71**, finding: in version 1.1 an acknowledgement is 4 bytes, 5 with a slot number (C69); the requester insists on the 8 and 9 bytes of version 1.2, so an exchange with a conforming
responder of version 1.1 always fails. -/
theorem C71_version11_violated (e : REnv) (sid : UInt32) (c c1 : Ctx) (id sl : UInt8) (hv : c1.neg.version = .v11) (b : Bytes)
    (hb : b = [0x11, 0x6B, id, 0] ∨ b = [0x11, 0x6B, id, 2, sl]) (h : Req.receiveSecured e sid c = .ok b c1) :
    receiveAck e sid c = .err .invalidMsgSize c1 := by
  unfold receiveAck
  rw [M.bind_apply, h]
  dsimp only
  have hcar : carrier .rspEncapsulatedResponseAck b c1 = .ok ⟨(padded b).drop 2, 2⟩ c1 := by
    unfold carrier
    rcases hb with rfl | rfl
    · unfold Res.read padded
      simp only [List.cons_append]
      rw [header_read]
      show (if c1.neg.version ≠ SpdmVersion.ofCode 0x11 ∨ ReqRespCode.ofCode 0x6B ≠ .rspEncapsulatedResponseAck then _ else _ : M Status Ctx Reader) c1 = _
      rw [if_neg (by rw [hv]; decide)]
      rfl
    · unfold Res.read padded
      simp only [List.cons_append]
      rw [header_read]
      show (if c1.neg.version ≠ SpdmVersion.ofCode 0x11 ∨ ReqRespCode.ofCode 0x6B ≠ .rspEncapsulatedResponseAck then _ else _ : M Status Ctx Reader) c1 = _
      rw [if_neg (by rw [hv]; decide)]
      rfl
  rw [M.bind_apply, hcar]
  dsimp only
  rw [M.bind_apply, M.get_apply]
  dsimp only
  have hg : ¬ c1.cc.ge12 = true := by
    show ¬ decide (c1.neg.version.get ≥ 0x12) = true
    rw [hv]; decide
  rcases hb with rfl | rfl
  · obtain ⟨a, ha⟩ := ack_read (cc := c1.cc) (id := id) (k := 0) (t := (padded [0x11, 0x6B, id, 0]).drop 4) (by have := padded_length [0x11, 0x6B, id, 0]; rw [List.length_drop]; omega)
    have hd : (padded [0x11, 0x6B, id, 0]).drop 2 = id :: 0 :: (padded [0x11, 0x6B, id, 0]).drop 4 := rfl
    rw [hd, M.bind_apply, ha]
    rfl
  · obtain ⟨a, ha⟩ := ack_read (cc := c1.cc) (id := id) (k := 2) (t := (padded [0x11, 0x6B, id, 2, sl]).drop 4) (by have := padded_length [0x11, 0x6B, id, 2, sl]; rw [List.length_drop]; omega)
    have hd : (padded [0x11, 0x6B, id, 2, sl]).drop 2 = id :: 2 :: (padded [0x11, 0x6B, id, 2, sl]).drop 4 := rfl
    rw [hd, M.bind_apply, ha]
    rfl

end Verif.Props
