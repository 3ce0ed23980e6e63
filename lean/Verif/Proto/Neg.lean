/-
Capability flags, negotiated parameters, and the part of the context the message codecs look at.
-/
import Verif.Proto.Algo
import Verif.Codec.Combi

namespace Verif

/-! Capability bits (spdmlib/src/protocol/capability.rs:7-105).  The request and response flag sets agree on every bit
they share; `psk`/`pskRsvd` are the requester's reading of the two PSK bits, `pskNoCtx`/`pskCtx` the responder's. -/
namespace Cap
/-- `CACHE_CAP` (capability.rs:56) -/ def cache : UInt32 := 0x1
/-- `CERT_CAP` (capability.rs:10,57) -/ def cert : UInt32 := 0x2
/-- `CHAL_CAP` (capability.rs:11,58) -/ def chal : UInt32 := 0x4
/-- `MEAS_CAP_NO_SIG` (capability.rs:59) -/ def measNoSig : UInt32 := 0x8
/-- `MEAS_CAP_SIG` (capability.rs:60) -/ def measSig : UInt32 := 0x10
/-- `MEAS_FRESH_CAP` (capability.rs:61) -/ def measFresh : UInt32 := 0x20
/-- `ENCRYPT_CAP` (capability.rs:12,62) -/ def encrypt : UInt32 := 0x40
/-- `MAC_CAP` (capability.rs:13,63) -/ def mac : UInt32 := 0x80
/-- `MUT_AUTH_CAP` (capability.rs:14,64) -/ def mutAuth : UInt32 := 0x100
/-- `KEY_EX_CAP` (capability.rs:15,65) -/ def keyEx : UInt32 := 0x200
/-- `PSK_CAP` (capability.rs:16) -/ def psk : UInt32 := 0x400
/-- `PSK_CAP_WITHOUT_CONTEXT` (capability.rs:66) -/ def pskNoCtx : UInt32 := 0x400
/-- `PSK_RSVD` (capability.rs:17) -/ def pskRsvd : UInt32 := 0x800
/-- `PSK_CAP_WITH_CONTEXT` (capability.rs:67) -/ def pskCtx : UInt32 := 0x800
/-- `ENCAP_CAP` (capability.rs:18,68) -/ def encap : UInt32 := 0x1000
/-- `HBEAT_CAP` (capability.rs:19,69) -/ def hbeat : UInt32 := 0x2000
/-- `KEY_UPD_CAP` (capability.rs:20,70) -/ def keyUpd : UInt32 := 0x4000
/-- `HANDSHAKE_IN_THE_CLEAR_CAP` (capability.rs:21,71) -/ def inClear : UInt32 := 0x8000
/-- `PUB_KEY_ID_CAP` (capability.rs:22,72) -/ def pubKeyId : UInt32 := 0x10000
/-- `CHUNK_CAP` (capability.rs:23,73) -/ def chunk : UInt32 := 0x20000
/-- `ALIAS_CERT_CAP` (capability.rs:74) -/ def aliasCert : UInt32 := 0x40000
/-- `SET_CERT_CAP` (capability.rs:75) -/ def setCert : UInt32 := 0x80000
/-- `CSR_CAP` (capability.rs:76) -/ def csr : UInt32 := 0x100000
/-- `CERT_INSTALL_RESET_CAP` (capability.rs:77) -/ def installReset : UInt32 := 0x200000
/-- `SpdmRequestCapabilityFlags::VALID_MASK` (capability.rs:24-37). -/
def reqMask : UInt32 := 0x3FFC6
/-- `SpdmResponseCapabilityFlags::VALID_MASK` (capability.rs:78-99). -/
def rspMask : UInt32 := 0x3FFFFF
/-- bitflags `contains`: all bits of `b` are in `f`. -/
def has (f b : UInt32) : Bool := f &&& b == b

/-- `SpdmRequestCapabilityFlags::read` (capability.rs:46-50). -/
def readReq : Rd UInt32 := do
  let b ← rdU32
  pure (b &&& reqMask)
/-- `SpdmResponseCapabilityFlags::read` (capability.rs:108-112). -/
def readRsp : Rd UInt32 := do
  let b ← rdU32
  pure (b &&& rspMask)

theorem rtReq {f : UInt32} (h : f &&& reqMask = f) : RT readReq (putU32 f) f := by
  intro t u; simp [readReq, h]
theorem rtRsp {f : UInt32} (h : f &&& rspMask = f) : RT readRsp (putU32 f) f := by
  intro t u; simp [readRsp, h]
theorem goodReq : Rd.Good readReq := by unfold readReq; rd_good
theorem goodRsp : Rd.Good readRsp := by unfold readRsp; rd_good
end Cap

/-- `SpdmNegotiateInfo` (spdmlib/src/common/mod.rs:1061-1082). -/
structure Neg where
  version : SpdmVersion := .unknown 0
  reqCaps : UInt32 := 0
  rspCaps : UInt32 := 0
  reqCt : UInt8 := 0
  rspCt : UInt8 := 0
  measSpec : MeasSpec := 0
  measHash : MeasHash := 0
  baseHash : BaseHash := 0
  baseAsym : BaseAsym := 0
  dhe : Dhe := 0
  aead : Aead := 0
  reqAsym : ReqAsym := 0
  keySchedule : KeySchedule := 0
  opaqueSupport : UInt8 := 0
  terminationPolicy : Bool := false
  reqDts : UInt32 := 0
  reqMms : UInt32 := 0
  rspDts : UInt32 := 0
  rspMms : UInt32 := 0
  deriving Repr, DecidableEq

/-- The part of `SpdmContext` read by the message codecs: the negotiated parameters and the two `runtime_info` flags
`need_measurement_summary_hash` and `need_measurement_signature` (spdmlib/src/common/mod.rs). -/
structure Cc where
  neg : Neg
  needSummary : Bool := false
  needSig : Bool := false
  deriving Repr, DecidableEq

namespace Cc
/-- `spdm_version_sel.get_u8()` -/
def ver (c : Cc) : UInt8 := c.neg.version.get
/-- `spdm_version_sel.get_u8() >= SpdmVersion11.get_u8()` -/
def ge11 (c : Cc) : Bool := c.ver ≥ 0x11
/-- `spdm_version_sel.get_u8() >= SpdmVersion12.get_u8()` -/
def ge12 (c : Cc) : Bool := c.ver ≥ 0x12
/-- `get_hash_size` (common/mod.rs:167-169); `none` is the panic of `get_size`. -/
def hashSize? (c : Cc) : Option Nat := BaseHash.size? c.neg.baseHash
/-- `get_asym_key_size` (common/mod.rs:170-172). -/
def asymSize? (c : Cc) : Option Nat := BaseAsym.size? c.neg.baseAsym
/-- `get_dhe_key_size` (common/mod.rs:173-175). -/
def dheSize? (c : Cc) : Option Nat := Dhe.size? c.neg.dhe
/-- both sides have `HANDSHAKE_IN_THE_CLEAR_CAP` (e.g. message/key_exchange.rs:217-224). -/
def inClear (c : Cc) : Bool := Cap.has c.neg.reqCaps Cap.inClear && Cap.has c.neg.rspCaps Cap.inClear

theorem ge11_of_ge12 {c : Cc} (h : c.ge12 = true) : c.ge11 = true := by
  simp only [ge11, ge12, ver, decide_eq_true_eq, ge_iff_le, UInt8.le_iff_toNat_le] at *
  exact Nat.le_trans (by decide) h
end Cc

end Verif
