/-
MCTP transport (mctp_transport/src/header.rs).
-/
import Verif.Transport.Basic

namespace Verif

/-- `MctpMessageType` (mctp_transport/src/header.rs:13-27). -/
inductive MctpType where
  | mctpControl | pldm | ncsi | ethernet | nvme | spdm | securedMctp | vendorDefinedPci | vendorDefinedIana
  | unknown (b : UInt8)
  deriving Repr, DecidableEq

namespace MctpType
/-- `get_u8` (header.rs:13-27, codec/src/macros.rs). -/
def get : MctpType → UInt8
  | .mctpControl => 0x00 | .pldm => 0x01 | .ncsi => 0x02 | .ethernet => 0x03 | .nvme => 0x04 | .spdm => 0x05
  | .securedMctp => 0x06 | .vendorDefinedPci => 0x7E | .vendorDefinedIana => 0x7F | .unknown b => b
/-- decoding (header.rs:13-27, codec/src/macros.rs). -/
def ofCode (b : UInt8) : MctpType :=
  match b with
  | 0x00 => .mctpControl | 0x01 => .pldm | 0x02 => .ncsi | 0x03 => .ethernet | 0x04 => .nvme | 0x05 => .spdm
  | 0x06 => .securedMctp | 0x7E => .vendorDefinedPci | 0x7F => .vendorDefinedIana | b => .unknown b
/-- `MctpMessageHeader::encode` (header.rs:39-42). -/
def encode (x : MctpType) : Enc Nat := encU8 x.get
/-- `MctpMessageHeader::read` (header.rs:44-47). -/
def read : Rd MctpType := do
  let b ← rdU8
  pure (ofCode b)
end MctpType

namespace Mctp

/-- `MctpTransportEncap::encap` (header.rs:54-79); the size check comes after the header was written. -/
def encap (spdm : Bytes) (secured : Bool) : M Status Bytes Nat := do
  let headerSize ← encodeInto .encapFail (MctpType.encode (if secured then .securedMctp else .spdm))
  let buf ← M.get
  if buf.length < headerSize + spdm.length then M.fail .encapFail else do
    copyAt headerSize spdm
    pure (headerSize + spdm.length)

/-- `MctpTransportEncap::decap` (header.rs:81-108). -/
def decap (tb : Bytes) : M Status Bytes (Nat × Bool) :=
  match MctpType.read (Reader.init tb) with
  | .ok t r =>
    match t with
    | .spdm => finish r false
    | .securedMctp => finish r true
    | _ => M.fail .decapFail
  | .err _ _ => M.fail .decapFail
  | .panic => M.panic
where
  /-- header.rs:99-107 -/
  finish (r : Reader) (flag : Bool) : M Status Bytes (Nat × Bool) := do
    let payloadSize := tb.length - r.used
    let buf ← M.get
    if buf.length < payloadSize then M.fail .decapFail else do
      copyAt 0 (tb.drop r.used)
      pure (payloadSize, flag)

/-- `MctpTransportEncap::encap_app` (header.rs:110-138). -/
def encapApp (spdm : Bytes) (isApp : Bool) : M Status Bytes Nat := do
  let headerSize ← encodeInto .encapAppFail (MctpType.encode (if isApp then .pldm else .spdm))
  let buf ← M.get
  if buf.length < headerSize + spdm.length then M.fail .encapAppFail else do
    copyAt headerSize spdm
    pure (headerSize + spdm.length)

/-- `MctpTransportEncap::decap_app` (header.rs:140-165). -/
def decapApp (ab : Bytes) : M Status Bytes (Nat × Bool) :=
  match MctpType.read (Reader.init ab) with
  | .ok t r =>
    match t with
    | .spdm => finish r false
    | .pldm => finish r true
    | _ => M.fail .decapAppFail
  | .err _ _ => M.fail .decapAppFail
  | .panic => M.panic
where
  /-- header.rs:156-164 -/
  finish (r : Reader) (flag : Bool) : M Status Bytes (Nat × Bool) := do
    let payloadSize := ab.length - r.used
    let buf ← M.get
    if buf.length < payloadSize then M.fail .decapAppFail else do
      copyAt 0 (ab.drop r.used)
      pure (payloadSize, flag)

/-- The MCTP transport; sequence number count and random count from header.rs:167-172. -/
def transport : Transport := ⟨encap, decap, encapApp, decapApp, 2, 32⟩

/-! ### what each function does, in terms of bytes -/

theorem encap_eq (p : Bytes) (s : Bool) (buf : Bytes) :
    encap p s buf =
      if 1 + p.length ≤ buf.length then
        .ok (1 + p.length) ((if s then 6 else 5) :: p ++ buf.drop (1 + p.length))
      else match buf with
        | [] => .err .encapFail []
        | _ :: t => .err .encapFail ((if s then 6 else 5) :: t) := by
  cases buf with
  | nil => cases s <;> simp [encap, encodeInto, MctpType.encode, encU8, Enc.push, Writer.left, Writer.init, Writer.used]
  | cons b t =>
    have h1 : encodeInto .encapFail (MctpType.encode (if s then .securedMctp else .spdm)) (b :: t) =
        .ok 1 ((if s then 6 else 5) :: t) := by
      cases s <;> simp [encodeInto, MctpType.encode, encU8, Enc.push, Writer.left, Writer.init, Writer.used, MctpType.get]
    simp only [encap, M.bind_apply, h1, M.get_apply, M.ite_apply, List.length_cons, M.fail_apply, M.pure_apply]
    by_cases h : 1 + p.length ≤ t.length + 1
    · rw [if_neg (by omega), copyAt_ok (by simpa using h), if_pos h]
      simp [Nat.add_comm 1 p.length]
    · rw [if_pos (by omega), if_neg h]

theorem encapApp_eq (p : Bytes) (s : Bool) (buf : Bytes) :
    encapApp p s buf =
      if 1 + p.length ≤ buf.length then
        .ok (1 + p.length) ((if s then 1 else 5) :: p ++ buf.drop (1 + p.length))
      else match buf with
        | [] => .err .encapAppFail []
        | _ :: t => .err .encapAppFail ((if s then 1 else 5) :: t) := by
  cases buf with
  | nil => cases s <;> simp [encapApp, encodeInto, MctpType.encode, encU8, Enc.push, Writer.left, Writer.init, Writer.used]
  | cons b t =>
    have h1 : encodeInto .encapAppFail (MctpType.encode (if s then .pldm else .spdm)) (b :: t) =
        .ok 1 ((if s then 1 else 5) :: t) := by
      cases s <;> simp [encodeInto, MctpType.encode, encU8, Enc.push, Writer.left, Writer.init, Writer.used, MctpType.get]
    simp only [encapApp, M.bind_apply, h1, M.get_apply, M.ite_apply, List.length_cons, M.fail_apply, M.pure_apply]
    by_cases h : 1 + p.length ≤ t.length + 1
    · rw [if_neg (by omega), copyAt_ok (by simpa using h), if_pos h]
      simp [Nat.add_comm 1 p.length]
    · rw [if_pos (by omega), if_neg h]

theorem read_cons (b : UInt8) (t : Bytes) : MctpType.read (Reader.init (b :: t)) = .ok (MctpType.ofCode b) ⟨t, 1⟩ := by
  simp [MctpType.read, Reader.init]

theorem read_nil : MctpType.read (Reader.init []) = .err () ⟨[], 0⟩ := by
  simp [MctpType.read, Reader.init]

theorem ofCode_spdm {b : UInt8} : MctpType.ofCode b = .spdm ↔ b = 5 := by
  unfold MctpType.ofCode; split <;> simp_all
theorem ofCode_secured {b : UInt8} : MctpType.ofCode b = .securedMctp ↔ b = 6 := by
  unfold MctpType.ofCode; split <;> simp_all
theorem ofCode_pldm {b : UInt8} : MctpType.ofCode b = .pldm ↔ b = 1 := by
  unfold MctpType.ofCode; split <;> simp_all

theorem decap_finish (b : UInt8) (t : Bytes) (f : Bool) (buf : Bytes) :
    decap.finish (b :: t) ⟨t, 1⟩ f buf =
      if t.length ≤ buf.length then .ok (t.length, f) (t ++ buf.drop t.length) else .err .decapFail buf := by
  simp only [decap.finish, M.bind_apply, M.get_apply, M.ite_apply, List.length_cons, Nat.add_sub_cancel, M.fail_apply,
    List.drop_succ_cons, List.drop_zero, M.pure_apply]
  by_cases h : t.length ≤ buf.length
  · rw [if_neg (by omega), copyAt_ok (by omega), if_pos h]; simp
  · rw [if_pos (by omega), if_neg h]

theorem decapApp_finish (b : UInt8) (t : Bytes) (f : Bool) (buf : Bytes) :
    decapApp.finish (b :: t) ⟨t, 1⟩ f buf =
      if t.length ≤ buf.length then .ok (t.length, f) (t ++ buf.drop t.length) else .err .decapAppFail buf := by
  simp only [decapApp.finish, M.bind_apply, M.get_apply, M.ite_apply, List.length_cons, Nat.add_sub_cancel, M.fail_apply,
    List.drop_succ_cons, List.drop_zero, M.pure_apply]
  by_cases h : t.length ≤ buf.length
  · rw [if_neg (by omega), copyAt_ok (by omega), if_pos h]; simp
  · rw [if_pos (by omega), if_neg h]

theorem decap_nil (buf : Bytes) : decap [] buf = .err .decapFail buf := by
  simp [decap, read_nil]

theorem decapApp_nil (buf : Bytes) : decapApp [] buf = .err .decapAppFail buf := by
  simp [decapApp, read_nil]

theorem decap_cons (b : UInt8) (t buf : Bytes) :
    decap (b :: t) buf =
      if (b = 5 ∨ b = 6) ∧ t.length ≤ buf.length then .ok (t.length, b == 6) (t ++ buf.drop t.length)
      else .err .decapFail buf := by
  unfold decap
  rw [read_cons]
  by_cases h5 : b = 5
  · subst h5
    rw [show MctpType.ofCode 5 = .spdm from rfl]
    simp only [decap_finish]; simp
  · by_cases h6 : b = 6
    · subst h6
      rw [show MctpType.ofCode 6 = .securedMctp from rfl]
      simp only [decap_finish]; simp
    · have a5 := mt ofCode_spdm.mp h5
      have a6 := mt ofCode_secured.mp h6
      rw [if_neg (by simp [h5, h6])]
      dsimp only
      cases hm : MctpType.ofCode b <;> simp_all

theorem decapApp_cons (b : UInt8) (t buf : Bytes) :
    decapApp (b :: t) buf =
      if (b = 5 ∨ b = 1) ∧ t.length ≤ buf.length then .ok (t.length, b == 1) (t ++ buf.drop t.length)
      else .err .decapAppFail buf := by
  unfold decapApp
  rw [read_cons]
  by_cases h5 : b = 5
  · subst h5
    rw [show MctpType.ofCode 5 = .spdm from rfl]
    simp only [decapApp_finish]; simp
  · by_cases h6 : b = 1
    · subst h6
      rw [show MctpType.ofCode 1 = .pldm from rfl]
      simp only [decapApp_finish]; simp
    · have a5 := mt ofCode_spdm.mp h5
      have a6 := mt ofCode_pldm.mp h6
      rw [if_neg (by simp [h5, h6])]
      dsimp only
      cases hm : MctpType.ofCode b <;> simp_all

end Mctp
end Verif
