/-
`SpdmSession` (spdmlib/src/common/session.rs).
-/
import Verif.Session.KeySchedule

namespace Verif

/-- `SpdmSessionState` (session.rs:23-36); only these three values are ever stored. -/
inductive SessState where
  | notStarted | handshaking | established
  deriving Repr, DecidableEq

/-- `SpdmSessionSecretParam` (session.rs:58-62). -/
structure SecretParam where
  key : Bytes := []
  salt : Bytes := []
  seq : UInt64 := 0
  deriving Repr, DecidableEq

/-- `SpdmSessionHandshakeSecret` (session.rs:65-72). -/
structure HsSecret where
  reqSecret : Bytes := []
  rspSecret : Bytes := []
  reqFinished : Bytes := []
  rspFinished : Bytes := []
  req : SecretParam := {}
  rsp : SecretParam := {}
  deriving Repr, DecidableEq

/-- `SpdmSessionAppliationSecret` (session.rs:75-81). -/
structure AppSecret where
  reqSecret : Bytes := []
  rspSecret : Bytes := []
  req : SecretParam := {}
  rsp : SecretParam := {}
  exportMaster : Bytes := []
  deriving Repr, DecidableEq

/-- `SpdmSession` with `hashed-transcript-data` (session.rs:43-130); `key_schedule` is a unit struct and is omitted;
`sequence_number_count`/`max_random_count` are `transport_param`; the last block is `runtime_info`. -/
structure Session where
  id : UInt32 := 0
  usePsk : Bool := false
  mutAuth : UInt8 := 0
  state : SessState := .notStarted
  hash : BaseHash := 0
  dhe : Dhe := 0
  aead : Aead := 0
  keySchedule : KeySchedule := 0
  dheSecret : Bytes := []
  hsRoot : Bytes := []
  master : Bytes := []
  hs : HsSecret := {}
  app : AppSecret := {}
  backup : AppSecret := {}
  seqCount : UInt8 := 0
  maxRandom : UInt16 := 0
  slotId : UInt8 := 0
  heartbeat : UInt8 := 0
  secureVersion : UInt8 := 0x11
  pskHint : Option Bytes := none
  messageA : Bytes := []
  fInit : Bool := false
  rspCertHash : Option Bytes := none
  reqCertHash : Option Bytes := none
  th : Option HashCtx := none
  l1l2 : Option HashCtx := none
  deriving Repr, DecidableEq

namespace Session

/-- `SpdmSession::new` (session.rs:139-157). -/
def new : Session := {}

/-- `set_default` (session.rs:175-190): every field but `slot_id` gets its initial value. -/
def setDefault (s : Session) : Session := { new with slotId := s.slotId }

/-- `setup` (session.rs:196-204). -/
def setup (id : UInt32) : M Status Session Unit := do
  let s ← M.get
  if s.id = 0 then M.set { s.setDefault with id := id } else M.panic

/-- `teardown` (session.rs:206-213). -/
def teardown (id : UInt32) : M Status Session Unit := do
  let s ← M.get
  if s.id = id then M.set s.setDefault else M.panic

/-- `set_dhe_secret` (session.rs:231-272). -/
def setDheSecret (c : Crypto) (v : SpdmVersion) (dhe : Bytes) : M Status Session Unit := do
  M.modify fun s => { s with dheSecret := dhe }
  let s ← M.get
  let hs ← (KeySched.handshakeSecret c s.hash s.dheSecret).lift
  let ms ← (KeySched.masterSecret c v s.hash hs).lift
  M.modify fun s => { s with hsRoot := hs, master := ms }

/-- `generate_handshake_secret` (session.rs:312-447); the assignments happen one after the other. -/
def genHandshake (c : Crypto) (v : SpdmVersion) (th1 : Bytes) : M Status Session Unit := do
  let s ← M.get
  let a ← (KeySched.reqHandshake c v s.hash s.usePsk s.hsRoot s.pskHint th1).lift
  M.modify fun s => { s with hs := { s.hs with reqSecret := a } }
  let b ← (KeySched.rspHandshake c v s.hash s.usePsk s.hsRoot s.pskHint th1).lift
  M.modify fun s => { s with hs := { s.hs with rspSecret := b } }
  let fa ← (KeySched.finishedKey c v s.hash a).lift
  M.modify fun s => { s with hs := { s.hs with reqFinished := fa } }
  let fb ← (KeySched.finishedKey c v s.hash b).lift
  M.modify fun s => { s with hs := { s.hs with rspFinished := fb } }
  let ka ← (KeySched.aeadKeyIv c v s.hash s.aead a).lift
  M.modify fun s => { s with hs := { s.hs with req := { s.hs.req with key := ka.1, salt := ka.2 } } }
  let kb ← (KeySched.aeadKeyIv c v s.hash s.aead b).lift
  M.modify fun s => { s with hs := { s.hs with rsp := { s.hs.rsp with key := kb.1, salt := kb.2 } } }

/-- `generate_data_secret` (session.rs:449-570). -/
def genData (c : Crypto) (v : SpdmVersion) (th2 : Bytes) : M Status Session Unit := do
  let s ← M.get
  let a ← (KeySched.reqData c v s.hash s.usePsk s.master s.pskHint th2).lift
  M.modify fun s => { s with app := { s.app with reqSecret := a } }
  let b ← (KeySched.rspData c v s.hash s.usePsk s.master s.pskHint th2).lift
  M.modify fun s => { s with app := { s.app with rspSecret := b } }
  let ka ← (KeySched.aeadKeyIv c v s.hash s.aead a).lift
  M.modify fun s => { s with app := { s.app with req := { s.app.req with key := ka.1, salt := ka.2 } } }
  let kb ← (KeySched.aeadKeyIv c v s.hash s.aead b).lift
  M.modify fun s => { s with app := { s.app with rsp := { s.app.rsp with key := kb.1, salt := kb.2 } } }
  let e ← (KeySched.exportMaster c v s.hash s.usePsk s.master s.pskHint).lift
  M.modify fun s => { s with app := { s.app with exportMaster := e } }

/-- first half of `create_data_secret_update` (session.rs:584-631). -/
def createReq (c : Crypto) (v : SpdmVersion) : M Status Session Unit := do
  M.modify fun s => { s with backup := { s.backup with reqSecret := s.app.reqSecret, req := s.app.req } }
  let s ← M.get
  let a ← (KeySched.updateSecret c v s.hash s.app.reqSecret).lift
  M.modify fun s => { s with app := { s.app with reqSecret := a } }
  let k ← (KeySched.aeadKeyIv c v s.hash s.aead a).lift
  M.modify fun s => { s with app := { s.app with req := { key := k.1, salt := k.2, seq := 0 } } }

/-- second half of `create_data_secret_update` (session.rs:633-680). -/
def createRsp (c : Crypto) (v : SpdmVersion) : M Status Session Unit := do
  M.modify fun s => { s with backup := { s.backup with rspSecret := s.app.rspSecret, rsp := s.app.rsp } }
  let s ← M.get
  let a ← (KeySched.updateSecret c v s.hash s.app.rspSecret).lift
  M.modify fun s => { s with app := { s.app with rspSecret := a } }
  let k ← (KeySched.aeadKeyIv c v s.hash s.aead a).lift
  M.modify fun s => { s with app := { s.app with rsp := { key := k.1, salt := k.2, seq := 0 } } }

/-- `create_data_secret_update` (session.rs:572-683). -/
def createUpdate (c : Crypto) (v : SpdmVersion) (req rsp : Bool) : M Status Session Unit := do
  if req then createReq c v
  if rsp then createRsp c v

/-- `activate_data_secret_update` (session.rs:685-720). -/
def activateUpdate (req rsp useNew : Bool) (s : Session) : Session :=
  if useNew then
    let s := if req then { s with backup := { s.backup with reqSecret := [], req := {} } } else s
    if rsp then { s with backup := { s.backup with rspSecret := [], rsp := {} } } else s
  else
    let s := if req then { s with app := { s.app with reqSecret := s.backup.reqSecret, req := s.backup.req } } else s
    if rsp then { s with app := { s.app with rspSecret := s.backup.rspSecret, rsp := s.backup.rsp } } else s

/-- `generate_hmac_with_response_finished_key` (session.rs:722-732). -/
def hmacRsp (c : Crypto) (s : Session) (d : Bytes) : Res Bytes := Res.ofOption .cryptoError (c.hmac s.hash s.hs.rspFinished d)
/-- `generate_hmac_with_request_finished_key` (session.rs:734-744). -/
def hmacReq (c : Crypto) (s : Session) (d : Bytes) : Res Bytes := Res.ofOption .cryptoError (c.hmac s.hash s.hs.reqFinished d)
/-- `verify_hmac_with_response_finished_key` (session.rs:746-757). -/
def verifyRsp (c : Crypto) (s : Session) (d mac : Bytes) : Bool := c.hmacVerify s.hash s.hs.rspFinished d mac
/-- `verify_hmac_with_request_finished_key` (session.rs:759-770). -/
def verifyReq (c : Crypto) (s : Session) (d mac : Bytes) : Bool := c.hmacVerify s.hash s.hs.reqFinished d mac

/-! ### record layer -/

/-- the eight bytes of a sequence number, low byte first (`(sequence_number >> (8 * i)) & 0xFF`). -/
def seqByte (seq : UInt64) (i : Nat) : UInt8 := (seq >>> (UInt64.ofNat (8 * i))).toUInt8

/-- `salt.data[i] ^= (sequence_number >> 8*i) & 0xFF` for `i < 8` (session.rs:940-949, 1020-1029).  The salt is the
derived iv; for a salt shorter than eight bytes Rust also changes array bytes beyond `data_size`, which the AEAD rejects
by size and the model leaves out. -/
def nonce (salt : Bytes) (seq : UInt64) : Bytes :=
  salt.mapIdx fun i b => if i < 8 then b ^^^ seqByte seq i else b

/-- the carried sequence-number bytes: the `n` low bytes (session.rs:921-928). -/
def seqBytes (seq : UInt64) (n : Nat) : Bytes := (List.range n).map (seqByte seq)

/-- `config::SENDER_BUFFER_SIZE` = `config::RECEIVER_BUFFER_SIZE` (etc/config.json). -/
def bufSize : Nat := 4160

/-- `encode_msg` (session.rs:895-973) into a `secured_buffer` of `cap` bytes; returns the secured bytes. -/
def encodeMsg (c : Crypto) (s : Session) (app : Bytes) (cap : Nat) (p : SecretParam) : Res Bytes := do
  let tagSize ← Res.unwrap (Aead.tagSize? s.aead)
  let length : UInt16 := UInt16.ofNat (app.length + 2) + UInt16.ofNat tagSize
  if p.seq = 0xFFFFFFFFFFFFFFFF then .err .sequenceNumberOverflow else
  -- aad_buffer: [u8; 14]
  match Enc.seq [encU32 s.id, encBytes (seqBytes p.seq s.seqCount.toNat), encU16 length] (Writer.init 14) with
  | .panic => .panic
  | .err _ _ => .err .bufferTooSmall
  | .ok _ w =>
    let aad := w.out
    if app.length + 2 > bufSize then .panic else
    let pt := putU16 (UInt16.ofNat app.length) ++ app
    if aad.length + pt.length > cap then .panic else do
    let (ct, tag) ← Res.ofOption .cryptoError (c.seal s.aead p.key (nonce p.salt p.seq) aad pt)
    -- assert_eq! on the returned sizes
    if ct.length ≠ pt.length ∨ tag.length ≠ tagSize then .panic else
    if aad.length + pt.length + tagSize > cap then .panic else
    pure (aad ++ ct ++ tag)

/-- the loop comparing the carried sequence-number bytes (session.rs:997-1006). -/
def checkSeq (seq : UInt64) : Nat → Nat → Rd Bool
  | 0, _ => pure true
  | n + 1, i => do
    let b ← rdU8
    if b ≠ seqByte seq i then pure false else checkSeq seq n (i + 1)

/-- `decode_msg` (session.rs:975-1053) into an `app_buffer` of `cap` bytes; returns the application bytes. -/
def decodeMsg (c : Crypto) (s : Session) (sec : Bytes) (cap : Nat) (p : SecretParam) : Res Bytes := do
  let tagSize ← Res.unwrap (Aead.tagSize? s.aead)
  if p.seq = 0xFFFFFFFFFFFFFFFF then .err .sequenceNumberOverflow else do
  let (id, r) ← Res.read .decodeAeadFail rdU32 (Reader.init sec)
  if id ≠ s.id then .err .decodeAeadFail else do
  let (okSeq, r) ← Res.read .decodeAeadFail (checkSeq p.seq s.seqCount.toNat 0) r
  if okSeq = false then .err .decodeAeadFail else do
  let (length, r) ← Res.read .decodeAeadFail rdU16 r
  let aadSize := r.used
  if sec.length < length.toNat + aadSize then .err .decodeAeadFail else
  if length.toNat < tagSize then .err .decodeAeadFail else
  let ctSize := length.toNat - tagSize
  if ctSize > bufSize then .panic else do
  let pt ← Res.ofOption .cryptoError (c.open s.aead p.key (nonce p.salt p.seq) (sec.take aadSize)
    ((sec.drop aadSize).take ctSize) ((sec.drop (aadSize + ctSize)).take tagSize))
  -- the plaintext sits at the start of a zeroed buffer of RECEIVER_BUFFER_SIZE bytes
  let buf := pt ++ List.replicate (bufSize - pt.length) 0
  let (appLen, _) ← Res.read .decodeAeadFail rdU16 (Reader.init buf)
  if pt.length < appLen.toNat + 2 then .err .decodeAeadFail else
  if appLen.toNat > cap then .panic else
  pure ((buf.drop 2).take appLen.toNat)

/-- run `x` on one direction's parameters, then increment that sequence number, whatever `x` returned
(session.rs:803-838, 853-888). `sequence_number += 1` wraps in a release build. -/
def withDir (x : Session → SecretParam → Res Bytes) (get : Session → SecretParam)
    (upd : (SecretParam → SecretParam) → Session → Session) : M Status Session Bytes := fun s =>
  let s' := upd (fun p => { p with seq := p.seq + 1 }) s
  match x s (get s) with
  | .ok a => .ok a s'
  | .err e => .err e s'
  | .panic => .panic

/-- update of `handshake_secret.request_direction` -/
def updHsReq (f : SecretParam → SecretParam) (s : Session) : Session := { s with hs := { s.hs with req := f s.hs.req } }
/-- update of `handshake_secret.response_direction` -/
def updHsRsp (f : SecretParam → SecretParam) (s : Session) : Session := { s with hs := { s.hs with rsp := f s.hs.rsp } }
/-- update of `application_secret.request_direction` -/
def updAppReq (f : SecretParam → SecretParam) (s : Session) : Session := { s with app := { s.app with req := f s.app.req } }
/-- update of `application_secret.response_direction` -/
def updAppRsp (f : SecretParam → SecretParam) (s : Session) : Session := { s with app := { s.app with rsp := f s.app.rsp } }

/-- the `match self.session_state` common to encode and decode (session.rs:795-893). -/
def dispatchDir (x : Session → SecretParam → Res Bytes) (isReq : Bool) : M Status Session Bytes := do
  let s ← M.get
  match s.state with
  | .notStarted => M.fail .invalidStateLocal
  | .handshaking => if isReq then withDir x (·.hs.req) updHsReq else withDir x (·.hs.rsp) updHsRsp
  | .established => if isReq then withDir x (·.app.req) updAppReq else withDir x (·.app.rsp) updAppRsp

/-- `encode_spdm_secured_message` (session.rs:795-843). -/
def encodeSecured (c : Crypto) (app : Bytes) (cap : Nat) (isReq : Bool) : M Status Session Bytes :=
  dispatchDir (fun s p => encodeMsg c s app cap p) isReq

/-- `decode_spdm_secured_message` (session.rs:845-893). -/
def decodeSecured (c : Crypto) (sec : Bytes) (cap : Nat) (isReq : Bool) : M Status Session Bytes :=
  dispatchDir (fun s p => decodeMsg c s sec cap p) isReq

/-- `export_keys` (session.rs:772-793). -/
def exportKeys (s : Session) : SecretParam × SecretParam := (s.app.req, s.app.rsp)

end Session
end Verif
