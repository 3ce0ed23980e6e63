/-
Key schedule (spdmlib/src/common/key_schedule.rs).
`Option` results of the Rust functions are all turned into `SPDM_STATUS_CRYPTO_ERROR` by their only callers in
session.rs, so `None` is `.err .cryptoError` here.
-/
import Verif.Session.Crypto

namespace Verif
namespace KeySched

/-- `MAX_BIN_CONCAT_BUF_SIZE` (key_schedule.rs:12). -/
def maxBuf : Nat := 2 + 8 + 12 + 64

/-- ASCII bytes of a label. -/
def ascii (s : String) : Bytes := s.toList.map fun c => UInt8.ofNat c.toNat

/-- `BIN_STR0_LABEL` (key_schedule.rs:14) -/ def lDerived : Bytes := ascii "derived"
/-- `BIN_STR1_LABEL` (key_schedule.rs:15) -/ def lReqHs : Bytes := ascii "req hs data"
/-- `BIN_STR2_LABEL` (key_schedule.rs:16) -/ def lRspHs : Bytes := ascii "rsp hs data"
/-- `BIN_STR3_LABEL` (key_schedule.rs:17) -/ def lReqApp : Bytes := ascii "req app data"
/-- `BIN_STR4_LABEL` (key_schedule.rs:18) -/ def lRspApp : Bytes := ascii "rsp app data"
/-- `BIN_STR5_LABEL` (key_schedule.rs:19) -/ def lKey : Bytes := ascii "key"
/-- `BIN_STR6_LABEL` (key_schedule.rs:20) -/ def lIv : Bytes := ascii "iv"
/-- `BIN_STR7_LABEL` (key_schedule.rs:21) -/ def lFinished : Bytes := ascii "finished"
/-- `BIN_STR8_LABEL` (key_schedule.rs:22) -/ def lExpMaster : Bytes := ascii "exp master"
/-- `BIN_STR9_LABEL` (key_schedule.rs:23) -/ def lTraffic : Bytes := ascii "traffic upd"

/-- the 8-byte version string: `SPDM_VERSION_VALUE` with the major and minor digit patched in
(key_schedule.rs:24-26, 434-437). -/
def versionStr (v : SpdmVersion) : Bytes :=
  let b : UInt8 := v.get
  ((ascii "spdm .  ").set 4 ((b >>> 4) + 0x30)).set 6 ((b &&& 0x0F) + 0x30)

/-- `Writer::extend_from_slice` with its result ignored (key_schedule.rs:439-445). -/
def extendIgnore (bs : Bytes) (w : Writer) : Writer :=
  if w.left < bs.length then w else { w with out := w.out ++ bs }

/-- `binconcat` (key_schedule.rs:418-449) writing into a buffer of `MAX_BIN_CONCAT_BUF_SIZE` bytes. -/
def binconcat (length : UInt16) (v : SpdmVersion) (label : Bytes) (context : Option Bytes) : Res Bytes :=
  let len := label.length + (match context with | some c => c.length | none => 0)
  if len > maxBuf - 2 - 8 then .err .cryptoError else
  match encU16 length (Writer.init maxBuf) with
  | .panic => .panic
  | .err _ _ => .err .cryptoError
  | .ok _ w =>
    let w := extendIgnore (versionStr v) w
    let w := extendIgnore label w
    let w := match context with | some c => extendIgnore c w | none => w
    .ok w.out

/-- `from_input_keying_material`, `from_spdm_hkdf_okm`, `from_spdm_hkdf_prk` (protocol/algo.rs:1244-1530): refuse an empty
or over-long secret. `max` is `SPDM_MAX_HASH_SIZE` (64), `SPDM_MAX_AEAD_KEY_SIZE` (32) or `SPDM_MAX_AEAD_IV_SIZE` (12). -/
def sized (max : Nat) (b : Bytes) : Res Bytes :=
  if b.length = 0 ∨ b.length > max then .err .cryptoError else .ok b

/-- `hash_algo.get_size()`, panicking on a non-single algorithm. -/
def hashLen (h : BaseHash) : Res Nat := Res.unwrap (BaseHash.size? h)

/-- `hkdf_expand(hash, from_input_keying_material(key)?, info, out)?` followed by `from_spdm_hkdf_okm` with maximum `max`. -/
def expandSecret (c : Crypto) (h : BaseHash) (key info : Bytes) (out max : Nat) : Res Bytes := do
  let prk ← sized 64 key
  let okm ← Res.ofOption .cryptoError (c.expand h prk info out)
  sized max okm

/-- `derive_handshake_secret` (key_schedule.rs:42-54). -/
def handshakeSecret (c : Crypto) (h : BaseHash) (dhe : Bytes) : Res Bytes := do
  let n ← hashLen h
  let prk ← Res.ofOption .cryptoError (c.extract h (List.replicate n 0) dhe)
  sized 64 prk

/-- `derive_master_secret` (key_schedule.rs:56-90). -/
def masterSecret (c : Crypto) (v : SpdmVersion) (h : BaseHash) (hs : Bytes) : Res Bytes := do
  let n ← hashLen h
  let info ← binconcat (UInt16.ofNat n) v lDerived none
  let prk0 ← sized 64 hs
  let salt ← Res.ofOption .cryptoError (c.expand h prk0 info n)
  let prk ← Res.ofOption .cryptoError (c.extract h salt (List.replicate n 0))
  sized 64 prk

/-- The common shape of the four direction secrets (key_schedule.rs:92-174, 267-390): expand from the handshake or master
secret, or from the PSK via `psk` when `usePsk`, where a missing hint panics (`psk_hint.unwrap()`). -/
def directionSecret (c : Crypto) (v : SpdmVersion) (h : BaseHash) (usePsk : Bool) (key : Bytes) (hint : Option Bytes)
    (psk : SpdmVersion → BaseHash → Bytes → Bytes → Option Bytes) (label : Bytes) (th : Option Bytes) : Res Bytes := do
  let n ← hashLen h
  let info ← binconcat (UInt16.ofNat n) v label th
  if usePsk then do
    let hint ← Res.unwrap hint
    let okm ← Res.ofOption .cryptoError (psk v h hint info)
    sized 64 okm
  else expandSecret c h key info n 64

/-- `derive_request_handshake_secret` (key_schedule.rs:92-132). -/
def reqHandshake (c : Crypto) (v : SpdmVersion) (h : BaseHash) (usePsk : Bool) (hs : Bytes) (hint : Option Bytes)
    (th1 : Bytes) : Res Bytes := directionSecret c v h usePsk hs hint c.pskHandshake lReqHs (some th1)
/-- `derive_response_handshake_secret` (key_schedule.rs:134-174). -/
def rspHandshake (c : Crypto) (v : SpdmVersion) (h : BaseHash) (usePsk : Bool) (hs : Bytes) (hint : Option Bytes)
    (th1 : Bytes) : Res Bytes := directionSecret c v h usePsk hs hint c.pskHandshake lRspHs (some th1)
/-- `derive_request_data_secret` (key_schedule.rs:267-307). -/
def reqData (c : Crypto) (v : SpdmVersion) (h : BaseHash) (usePsk : Bool) (ms : Bytes) (hint : Option Bytes)
    (th2 : Bytes) : Res Bytes := directionSecret c v h usePsk ms hint c.pskMaster lReqApp (some th2)
/-- `derive_response_data_secret` (key_schedule.rs:309-349). -/
def rspData (c : Crypto) (v : SpdmVersion) (h : BaseHash) (usePsk : Bool) (ms : Bytes) (hint : Option Bytes)
    (th2 : Bytes) : Res Bytes := directionSecret c v h usePsk ms hint c.pskMaster lRspApp (some th2)
/-- `derive_export_master_secret` (key_schedule.rs:351-390). -/
def exportMaster (c : Crypto) (v : SpdmVersion) (h : BaseHash) (usePsk : Bool) (ms : Bytes) (hint : Option Bytes) :
    Res Bytes := directionSecret c v h usePsk ms hint c.pskMaster lExpMaster none

/-- `derive_finished_key` (key_schedule.rs:176-200). -/
def finishedKey (c : Crypto) (v : SpdmVersion) (h : BaseHash) (dir : Bytes) : Res Bytes := do
  let n ← hashLen h
  let info ← binconcat (UInt16.ofNat n) v lFinished none
  expandSecret c h dir info n 64

/-- `derive_aead_key_iv` (key_schedule.rs:202-265): the info strings carry the AEAD's key and iv size, but the requested
output sizes are the constants `SPDM_MAX_AEAD_KEY_SIZE` = 32 and `SPDM_MAX_AEAD_IV_SIZE` = 12. -/
def aeadKeyIv (c : Crypto) (v : SpdmVersion) (h : BaseHash) (a : Aead) (secret : Bytes) : Res (Bytes × Bytes) := do
  let ks ← Res.unwrap (Aead.keySize? a)
  let info5 ← binconcat (UInt16.ofNat ks) v lKey none
  let key ← expandSecret c h secret info5 32 32
  let is ← Res.unwrap (Aead.ivSize? a)
  let info6 ← binconcat (UInt16.ofNat is) v lIv none
  let iv ← expandSecret c h secret info6 12 12
  pure (key, iv)

/-- `derive_update_secret` (key_schedule.rs:392-416). -/
def updateSecret (c : Crypto) (v : SpdmVersion) (h : BaseHash) (secret : Bytes) : Res Bytes := do
  let n ← hashLen h
  let info ← binconcat (UInt16.ofNat n) v lTraffic none
  expandSecret c h secret info n 64

end KeySched
end Verif
