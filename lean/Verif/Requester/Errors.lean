/-
What the requester does with responses that are no answer to its request.
-/
import Verif.Requester.FinishEx

namespace Verif
namespace Req
open Rsp

variable {e : REnv}

/-- the response a requester waits for, with what it remembers of its request. -/
inductive Awaiting
  | version (req : Bytes)
  | capabilities (req : Bytes)
  | algorithms (req : Bytes)
  | digests (sid : Option UInt32) (req : Bytes)
  | certificate (sid : Option UInt32) (slot : UInt8) (total offset length : UInt16) (req : Bytes)
  | challengeAuth (slot : UInt8) (t : SummaryHashType) (req : Bytes)
  | measurements (sid : Option UInt32) (slot attr : UInt8) (op : MeasOperation) (req : Bytes)
  | keyExchange (reqId : UInt16) (slot : UInt8) (t : SummaryHashType) (req : Bytes) (final : Bytes → Option Bytes)
  | finish (sid : UInt32)
  | pskExchange (reqId : UInt16) (t : SummaryHashType) (hint req : Bytes)
  | pskFinish (sid : UInt32)
  | heartbeat (sid : UInt32)
  | keyUpdate (sid : UInt32) (op : KeyUpdateOp)
  | endSession (sid : UInt32)
  | vendor (sid : Option UInt32)

/-- the handler of that response (requester/*_req.rs, `handle_spdm_*_response`). -/
def Awaiting.handle (e : REnv) : Awaiting → Bytes → M Status Ctx Unit
  | .version req, b => handleVersion 0 req b
  | .capabilities req, b => handleCapabilities 0 req b
  | .algorithms req, b => handleAlgorithms 0 req b
  | .digests sid req, b => handleDigests e sid req b
  | .certificate sid slot total offset length req, b => quiet (handleCertificate e sid slot total offset length req b)
  | .challengeAuth slot t req, b => handleChallengeAuth e 0 slot t req b
  | .measurements sid slot attr op req, b => quiet (handleMeasurements e sid slot attr op req b)
  | .keyExchange reqId slot t req final, b => quiet (handleKeyExchange e reqId slot req b t final)
  | .finish sid, b => handleFinish e sid b
  | .pskExchange reqId t hint req, b => quiet (handlePskExchange e reqId t hint req b)
  | .pskFinish sid, b => handlePskFinish e sid b
  | .heartbeat sid, b => handleHeartbeat sid b
  | .keyUpdate sid op, b => handleKeyUpdate sid (updatesReq op) (updatesRsp op) b
  | .endSession sid, b => handleEndSession sid b
  | .vendor sid, b => quiet (handleVendor sid b)

/-- the session an error is about; outside sessions the code names session 0 for some requests and none for others. -/
def Awaiting.session : Awaiting → Option UInt32
  | .version _ | .capabilities _ | .algorithms _ | .challengeAuth _ _ _ => some 0
  | .digests sid _ | .certificate sid _ _ _ _ _ | .measurements sid _ _ _ _ | .vendor sid => sid
  | .keyExchange _ _ _ _ _ | .pskExchange _ _ _ _ => none
  | .finish sid | .pskFinish sid | .heartbeat sid | .keyUpdate sid _ | .endSession sid => some sid

/-- its response code (DSP0274 table "SPDM response codes"). -/
def Awaiting.code : Awaiting → UInt8
  | .version _ => 0x04 | .capabilities _ => 0x61 | .algorithms _ => 0x63 | .digests _ _ => 0x01 | .certificate _ _ _ _ _ _ => 0x02
  | .challengeAuth _ _ _ => 0x03 | .measurements _ _ _ _ _ => 0x60 | .keyExchange _ _ _ _ _ => 0x64 | .finish _ => 0x65
  | .pskExchange _ _ _ _ => 0x66 | .pskFinish _ => 0x67 | .heartbeat _ => 0x68 | .keyUpdate _ _ => 0x69 | .endSession _ => 0x6C | .vendor _ => 0x7E

/-- responses whose version byte is not looked at. -/
def Awaiting.anyVersion : Awaiting → Bool
  | .version _ | .finish _ => true
  | _ => false

/-- the flags a handler sets before it looks at the response. -/
def Awaiting.pre : Awaiting → Ctx → Ctx
  | .challengeAuth _ t _, c | .keyExchange _ _ t _ _, c | .pskExchange _ t _ _, c => wantSummary t c
  | .measurements _ _ attr _ _, c => { c with rt := { c.rt with needSig := signatureRequested attr } }
  | _, c => c

/-- header, version and code of a response. -/
def expectAs (any : Bool) (sid : Option UInt32) (k : ReqRespCode) (bytes : Bytes) : M Status Ctx Reader :=
  if any then expectAnyVersion sid k bytes else expect sid k bytes

theorem quiet_bind {α β : Type} (x : M Status Ctx α) (f : α → M Status Ctx β) (c : Ctx) : quiet (x >>= f) c = (x >>= fun a => quiet (f a)) c := by
  unfold quiet
  simp only [M.bind_apply]
  cases x c <;> rfl

theorem quiet_modify {α : Type} (g : Ctx → Ctx) (f : M Status Ctx α) (c : Ctx) : quiet (M.modify g >>= fun _ => f) c = quiet f (g c) := by
  rw [quiet_bind, M.bind_apply, M.modify_apply]

theorem Awaiting.handle_eq (a : Awaiting) (bytes : Bytes) (c : Ctx) (hf : ∀ sid, a = .finish sid → (c.session? sid).isSome) :
    ∃ k : ReqRespCode, k.get = a.code ∧ ∃ rest : Reader → M Status Ctx Unit, a.handle e bytes c = (expectAs a.anyVersion a.session k bytes >>= rest) (a.pre c) := by
  cases a with
  | version req => exact ⟨.rspVersion, rfl, _, rfl⟩
  | capabilities req => exact ⟨.rspCapabilities, rfl, _, rfl⟩
  | algorithms req => exact ⟨.rspAlgorithms, rfl, _, rfl⟩
  | digests sid req => exact ⟨.rspDigests, rfl, _, rfl⟩
  | certificate sid slot total offset length req => exact ⟨.rspCertificate, rfl, _, quiet_bind _ _ _⟩
  | challengeAuth slot t req => exact ⟨.rspChallengeAuth, rfl, _, rfl⟩
  | measurements sid slot attr op req => exact ⟨.rspMeasurements, rfl, _, (quiet_modify _ _ _).trans (quiet_bind _ _ _)⟩
  | keyExchange reqId slot t req final => exact ⟨.rspKeyExchangeRsp, rfl, _, (quiet_modify _ _ _).trans (quiet_bind _ _ _)⟩
  | finish sid =>
    have h := hf sid rfl
    obtain ⟨s, hs⟩ := Option.isSome_iff_exists.1 h
    refine ⟨.rspFinishRsp, rfl, fun r => do
      let (mac, rsp) ← Rsp.readMsg rdFinishRsp bytes r
      let hs ← M.unwrap c.cc.hashSize?
      finishTranscript e c.cc.inClear hs sid mac rsp
      establish e sid
      M.modify fun c => { c with rt := { c.rt with lastSession := none } }, ?_⟩
    show handleFinish e sid bytes c = _
    unfold handleFinish
    rw [M.bind_apply, M.get_apply]
    dsimp only
    rw [M.bind_apply, hs, M.ofOption_some]
    rfl
  | pskExchange reqId t hint req => exact ⟨.rspPskExchangeRsp, rfl, _, (quiet_modify _ _ _).trans (quiet_bind _ _ _)⟩
  | pskFinish sid => exact ⟨.rspPskFinishRsp, rfl, _, rfl⟩
  | heartbeat sid => exact ⟨.rspHeartbeatAck, rfl, _, rfl⟩
  | keyUpdate sid op => exact ⟨.rspKeyUpdateAck, rfl, _, rfl⟩
  | endSession sid => exact ⟨.rspEndSessionAck, rfl, _, rfl⟩
  | vendor sid => exact ⟨.rspVendorDefinedResponse, rfl, _, quiet_bind _ _ _⟩

open Verif.Spec (errorStatus errorEffect)

theorem updSession_self {sid : UInt32} {c : Ctx} {s : Session} (hs : c.session? sid = some s) : c.updSession sid (fun _ => s) = c := by
  unfold Ctx.updSession
  rw [updFirst_same _ hs]

theorem errorPayload_none {α : Type} (p : UInt8) (c : Ctx) : (errorPayload none p : M Status Ctx α) c = .err (errorStatus p) c := by
  unfold errorPayload errorStatus simpleError
  by_cases h1 : p = 0x06
  · rw [if_pos h1, if_pos (by exact h1)]; rfl
  rw [if_neg h1, if_neg (by exact h1)]
  by_cases h2 : p = 0x42
  · rw [if_pos h2, if_pos (by exact h2)]; rfl
  rw [if_neg h2, if_neg (by exact h2)]
  by_cases h3 : p = 0x03
  · rw [if_pos h3, if_pos (by exact h3)]; rfl
  rw [if_neg h3, if_neg (by exact h3)]
  by_cases h4 : p = 0x43
  · rw [if_pos h4, if_pos (by exact h4)]; rfl
  rw [if_neg h4, if_neg (by exact h4)]; rfl

theorem errorPayload_some {α : Type} (p : UInt8) {sid : UInt32} {c : Ctx} {s : Session} (hs : c.session? sid = some s) :
    (errorPayload (some sid) p : M Status Ctx α) c = .err (errorStatus p) (c.updSession sid fun _ => errorEffect p s) := by
  unfold errorPayload errorStatus simpleError errorEffect
  by_cases h1 : p = 0x06
  · rw [if_pos h1, if_pos (by exact h1), if_pos h1]
    dsimp only
    rw [M.bind_apply, teardown_ok hs]; rfl
  rw [if_neg h1, if_neg (by exact h1), if_neg h1]
  by_cases h2 : p = 0x42
  · rw [if_pos h2, if_pos (by exact h2), if_neg (by rw [h2]; decide), updSession_self hs]; rfl
  rw [if_neg h2, if_neg (by exact h2)]
  by_cases h3 : p = 0x03
  · rw [if_pos h3, if_pos (by exact h3), if_neg (by rw [h3]; decide), updSession_self hs]; rfl
  rw [if_neg h3, if_neg (by exact h3)]
  by_cases h4 : p = 0x43
  · rw [if_pos h4, if_pos (by exact h4), if_pos h4]
    dsimp only
    rw [M.bind_apply]
    unfold Ctx.onSession
    simp only [M.bind_apply, M.get_apply, hs, M.modify_apply, M.set_apply, M.pure_apply]
    rfl
  rw [if_neg h4, if_neg (by exact h4), if_neg h4, updSession_self hs]; rfl

/-- the context after an ERROR response. -/
def afterError (sid : Option UInt32) (p : UInt8) (c : Ctx) : Ctx :=
  match sid with
  | none => c
  | some sid => match c.session? sid with
    | none => c
    | some s => c.updSession sid fun _ => errorEffect p s

theorem errorPayload_eq {α : Type} (p : UInt8) {sid : Option UInt32} {c : Ctx} (hs : ∀ i, sid = some i → (c.session? i).isSome) :
    (errorPayload sid p : M Status Ctx α) c = .err (errorStatus p) (afterError sid p c) := by
  cases sid with
  | none => exact errorPayload_none p c
  | some i =>
    obtain ⟨s, h⟩ := Option.isSome_iff_exists.1 (hs i rfl)
    unfold afterError
    dsimp only
    rw [h]
    exact errorPayload_some p h

theorem header_of (v k : UInt8) (t : Bytes) (c : Ctx) :
    ((Res.read .invalidMsgField Header.read (Reader.init (v :: k :: t))).lift : M Status Ctx _) c = .ok (⟨SpdmVersion.ofCode v, ReqRespCode.ofCode k⟩, ⟨t, 2⟩) c := by
  simp only [Res.read, Res.lift, header_read, M.pure_apply]

theorem header_short {b : Bytes} (h : b.length < 2) (c : Ctx) :
    ((Res.read .invalidMsgField Header.read (Reader.init b)).lift : M Status Ctx _) c = .err .invalidMsgField c := by
  obtain ⟨r, h1⟩ := header_read_short h
  simp [h1, Res.read, Res.lift]

theorem handleError_eq {α : Type} {v p q : UInt8} {t : Bytes} {sid : Option UInt32} {c : Ctx} (hv : SpdmVersion.ofCode v = c.neg.version) (hs : ∀ i, sid = some i → (c.session? i).isSome) :
    (handleError sid (v :: 0x7F :: p :: q :: t) : M Status Ctx α) c = .err (errorStatus p) (afterError sid p c) := by
  unfold handleError
  rw [M.bind_apply, header_of]
  dsimp only
  rw [M.bind_apply, M.get_apply]
  dsimp only
  rw [if_neg (by simpa using hv), if_neg (by decide)]
  simp only [M.bind_apply, Res.read, Res.lift, rdU8_cons, M.pure_apply]
  exact errorPayload_eq p hs

theorem expectAs_error {any : Bool} {k : ReqRespCode} (hk : k ≠ .rspError) {v p q : UInt8} {t : Bytes} {sid : Option UInt32} {c : Ctx} (hv : SpdmVersion.ofCode v = c.neg.version)
    (hs : ∀ i, sid = some i → (c.session? i).isSome) : expectAs any sid k (v :: 0x7F :: p :: q :: t) c = .err (errorStatus p) (afterError sid p c) := by
  have h7 : ReqRespCode.ofCode 0x7F = .rspError := by decide
  have hsort : ∀ r, sort sid k (v :: 0x7F :: p :: q :: t) ⟨SpdmVersion.ofCode v, ReqRespCode.ofCode 0x7F⟩ r c = .err (errorStatus p) (afterError sid p c) := by
    intro r
    unfold sort
    dsimp only
    rw [if_neg (by rw [h7]; exact fun h => hk h.symm), if_pos h7]
    exact handleError_eq hv hs
  unfold expectAs
  split
  · unfold expectAnyVersion
    rw [M.bind_apply, header_of]
    exact hsort _
  · unfold expect
    rw [M.bind_apply, header_of]
    dsimp only
    rw [M.bind_apply, M.get_apply]
    dsimp only
    rw [if_neg (by simpa using hv)]
    exact hsort _

theorem expectAs_short {any : Bool} {k : ReqRespCode} {b : Bytes} (h : b.length < 2) {sid : Option UInt32} {c : Ctx} : expectAs any sid k b c = .err .invalidMsgField c := by
  unfold expectAs
  split
  · unfold expectAnyVersion
    rw [M.bind_apply, header_short h]
  · unfold expect
    rw [M.bind_apply, header_short h]

theorem expect_version {k : ReqRespCode} {v k' : UInt8} {t : Bytes} {sid : Option UInt32} {c : Ctx} (hv : SpdmVersion.ofCode v ≠ c.neg.version) :
    expectAs false sid k (v :: k' :: t) c = .err .invalidMsgField c := by
  unfold expectAs
  rw [if_neg (by decide)]
  unfold expect
  rw [M.bind_apply, header_of]
  dsimp only
  rw [M.bind_apply, M.get_apply]
  dsimp only
  rw [if_pos (by simpa using hv)]
  rfl

theorem expectAs_code {any : Bool} {k : ReqRespCode} {v k' : UInt8} {t : Bytes} {sid : Option UInt32} {c : Ctx} (hv : SpdmVersion.ofCode v = c.neg.version ∨ any = true)
    (hk : k' ≠ k.get) (he : k' ≠ 0x7F) : expectAs any sid k (v :: k' :: t) c = .err .errorPeer c := by
  have hsort : ∀ r, sort sid k (v :: k' :: t) ⟨SpdmVersion.ofCode v, ReqRespCode.ofCode k'⟩ r c = .err .errorPeer c := by
    intro r
    unfold sort
    dsimp only
    rw [if_neg, if_neg]
    · rfl
    · intro h; exact he (by rw [← ReqRespCode.get_ofCode k', h]; rfl)
    · intro h; exact hk (by rw [← ReqRespCode.get_ofCode k', h])
  unfold expectAs
  split
  · unfold expectAnyVersion
    rw [M.bind_apply, header_of]
    exact hsort _
  · rename_i ha
    unfold expect
    rw [M.bind_apply, header_of]
    dsimp only
    rw [M.bind_apply, M.get_apply]
    dsimp only
    rw [if_neg (by simpa using hv.resolve_right ha)]
    exact hsort _

theorem expectAs_ok {any : Bool} {k : ReqRespCode} {b : Bytes} {r : Reader} {sid : Option UInt32} {c c' : Ctx} (h : expectAs any sid k b c = .ok r c') :
    ∃ v t, b = v :: k.get :: t ∧ (any = false → SpdmVersion.ofCode v = c.neg.version) := by
  unfold expectAs at h
  cases any with
  | true =>
    obtain ⟨-, v, t, h1, -⟩ := expectAny_ok h
    exact ⟨v, t, h1, fun h => by cases h⟩
  | false =>
    obtain ⟨-, v, t, h1, h2, -⟩ := expect_ok h
    exact ⟨v, t, h1, fun _ => h2⟩

end Req
end Verif
