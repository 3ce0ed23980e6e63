/-
Independent specification of the SPDM message layouts (DSP0274): each message is a table of little-endian integer fields
and raw byte strings.  Nothing here refers to the encoders or decoders of the model.
-/
import Verif.Msg.Message

namespace Verif.Spec
open Verif

/-- A field of a message: an integer of a given width in bytes, or raw bytes. -/
inductive Field where
  | le (width value : Nat)
  | raw (d : Bytes)

/-- The `w` low-order base-256 digits of `v`, least significant first. -/
def leBytes : Nat → Nat → Bytes
  | 0, _ => []
  | w + 1, v => UInt8.ofNat (v % 256) :: leBytes w (v / 256)

/-- Rendering of a field. -/
def Field.render : Field → Bytes
  | .le w v => leBytes w v
  | .raw d => d

/-- A layout is the concatenation of its fields. -/
def render (fs : List Field) : Bytes := fs.flatMap Field.render

open Field

/-- Negotiated version at least 1.1. -/
def atLeast11 (c : Cc) : Prop := 0x11 ≤ c.neg.version.get.toNat
/-- Negotiated version at least 1.2. -/
def atLeast12 (c : Cc) : Prop := 0x12 ≤ c.neg.version.get.toNat
instance (c : Cc) : Decidable (atLeast11 c) := inferInstanceAs (Decidable (_ ≤ _))
instance (c : Cc) : Decidable (atLeast12 c) := inferInstanceAs (Decidable (_ ≤ _))
/-- Both sides announced HANDSHAKE_IN_THE_CLEAR (bit 15). -/
def inTheClear (c : Cc) : Prop := c.neg.reqCaps.toNat.testBit 15 ∧ c.neg.rspCaps.toNat.testBit 15
instance (c : Cc) : Decidable (inTheClear c) := inferInstanceAs (Decidable (_ ∧ _))

/-- One algorithm structure: type, AlgCount (0x20: two bytes of fixed algorithms, no external ones), the bits. -/
def algStruct (a : AlgStruct) : List Field := [le 1 a.type.get.toNat, le 1 0x20, le 2 a.alg.bits.toNat]

/-- A message without parameters. -/
def bare : List Field := [le 1 0, le 1 0]

/-- Param1, Param2 and the rest of each message. -/
def layout (c : Cc) : Payload → List Field
  | .general _ _ | .getVersion | .getDigests | .pskFinishRsp | .heartbeat | .heartbeatAck | .endSessionAck => bare
  | .version m => [le 1 0, le 1 0, le 1 0, le 1 m.entries.length] ++
      m.entries.flatMap fun e => [le 1 e.update.toNat, le 1 e.version.get.toNat]
  | .getCaps m => bare ++
      (if atLeast11 c then [le 1 0, le 1 m.ct.toNat, le 2 0, le 4 m.flags.toNat] else []) ++
      (if atLeast12 c then [le 4 m.dts.toNat, le 4 m.mms.toNat] else [])
  | .caps m => bare ++ [le 1 0, le 1 m.ct.toNat, le 2 0, le 4 m.flags.toNat] ++
      (if atLeast12 c then [le 4 m.dts.toNat, le 4 m.mms.toNat] else [])
  | .negAlgs m =>
      -- Length counts the whole message including the two header bytes
      [le 1 m.algs.length, le 1 0, le 2 (32 + 4 * m.algs.length), le 1 m.measSpec.toNat, le 1 m.other.toNat,
       le 4 m.asym.toNat, le 4 m.hash.toNat, le 12 0, le 1 0, le 1 0, le 2 0] ++ m.algs.flatMap algStruct
  | .algs m =>
      [le 1 m.algs.length, le 1 0, le 2 (36 + 4 * m.algs.length), le 1 m.measSpec.toNat, le 1 m.other.toNat,
       le 4 m.measHash.toNat, le 4 m.asym.toNat, le 4 m.hash.toNat, le 12 0, le 1 0, le 1 0, le 2 0] ++ m.algs.flatMap algStruct
  | .digests m => [le 1 0, le 1 m.slotMask.toNat] ++ m.digests.map raw
  | .getCert m => [le 1 m.slot.toNat, le 1 0, le 2 m.offset.toNat, le 2 m.length.toNat]
  | .cert m => [le 1 m.slot.toNat, le 1 0, le 2 m.data.length, le 2 m.remainder.toNat, raw m.data]
  | .challenge m => [le 1 m.slot.toNat, le 1 m.summary.get.toNat, raw m.nonce]
  | .challengeAuth m => [le 1 (m.attr.toNat + m.slot.toNat), le 1 m.slotMask.toNat, raw m.certHash, raw m.nonce,
      raw m.summary, le 2 m.opaq.length, raw m.opaq, raw m.signature]
  | .getMeas m => [le 1 m.attr.toNat, le 1 m.op.get.toNat] ++
      (if m.attr.toNat.testBit 0 then raw m.nonce :: (if atLeast11 c then [le 1 m.slot.toNat] else []) else [])
  | .meas m => [le 1 m.number.toNat, le 1 (m.changed.toNat + m.slot.toNat), le 1 m.record.blocks.toNat,
      le 3 m.record.data.length, raw m.record.data, raw m.nonce, le 2 m.opaq.length, raw m.opaq, raw m.signature]
  | .keyEx m => [le 1 m.summary.get.toNat, le 1 m.slot.toNat, le 2 m.reqSession.toNat, le 1 m.policy.toNat, le 1 0,
      raw m.random, raw m.exchange, le 2 m.opaq.length, raw m.opaq]
  | .keyExRsp m => [le 1 m.heartbeat.toNat, le 1 0, le 2 m.rspSession.toNat, le 1 m.mutAuth.toNat, le 1 m.reqSlot.toNat,
      raw m.random, raw m.exchange, raw m.summary, le 2 m.opaq.length, raw m.opaq, raw m.signature, raw m.verify]
  | .finish m => [le 1 m.attr.toNat, le 1 m.reqSlot.toNat, raw m.signature, raw m.verify]
  | .finishRsp v => bare ++ [raw v]
  | .pskEx m => [le 1 m.summary.get.toNat, le 1 0, le 2 m.reqSession.toNat, le 2 m.hint.length, le 2 m.context.length,
      le 2 m.opaq.length, raw m.hint, raw m.context, raw m.opaq]
  | .pskExRsp m => [le 1 m.heartbeat.toNat, le 1 0, le 2 m.rspSession.toNat, le 2 0, le 2 m.context.length,
      le 2 m.opaq.length, raw m.summary, raw m.context, raw m.opaq, raw m.verify]
  | .pskFinish v => bare ++ [raw v]
  | .keyUpdate m | .keyUpdateAck m => [le 1 m.op.get.toNat, le 1 m.tag.toNat]
  | .endSession a => [le 1 a.toNat, le 1 0]
  | .error m => [le 1 m.code.get.toNat, le 1 m.data.toNat] ++ (match m.ext with
      | .none => []
      | .notReady a b c d => [le 1 a.toNat, le 1 b.toNat, le 1 c.toNat, le 1 d.toNat]
      | .vendor d => [raw d])
  | .vendorReq m | .vendorRsp m => bare ++ [le 2 m.standard.get.toNat, le 1 m.vendorId.length, raw m.vendorId,
      le 2 m.data.length, raw m.data]

/-- The whole message: version, code, then the payload. -/
def message (c : Cc) (m : Msg) : Bytes :=
  render ([le 1 m.header.version.get.toNat, le 1 m.header.code.get.toNat] ++ layout c m.payload)

/-- Fields that are present only under some negotiated options are empty when absent. -/
def optionalFields (c : Cc) : Payload → List (Prop × Bytes)
  | .challengeAuth m => [(c.needSummary = true, m.summary)]
  | .meas m => [(c.needSig = true, m.signature)]
  | .keyExRsp m => [(c.needSummary = true, m.summary), (¬ inTheClear c, m.verify)]
  | .finish m => [(m.attr.toNat.testBit 0 = true, m.signature)]
  | .finishRsp v => [(inTheClear c, v)]
  | .pskExRsp m => [(c.needSummary = true, m.summary)]
  | _ => []

end Verif.Spec
