/-
Every message encoder only appends to the writer, whether it succeeds or fails.
-/
import Verif.Codec.Wp
import Verif.Msg.Message

namespace Verif

/-- the writer after is the writer before with something appended, within its buffer. -/
def Ext (w w' : Writer) : Prop := (w'.cap = w.cap ∧ (w.out.length ≤ w.cap → w'.out.length ≤ w'.cap)) ∧ w.out <+: w'.out

instance : M.Pre Ext where
  refl _ := ⟨⟨rfl, fun h => h⟩, List.prefix_refl _⟩
  trans h h' := ⟨⟨h'.1.1.trans h.1.1, fun g => h'.1.2 (h.1.2 g)⟩, h.2.trans h'.2⟩

/-- an encoder that only appends. -/
abbrev Appends {α : Type} (e : Enc α) : Prop := M.Rel Ext e

namespace Appends

theorem push (b : UInt8) : Appends (Enc.push b) := by
  intro w
  unfold Enc.push M.wp
  by_cases h : w.left < 1
  · simp only [h, if_true]; exact M.Pre.refl w
  · simp only [h, if_false]; exact ⟨⟨rfl, fun _ => by simp [Writer.left] at h ⊢; omega⟩, List.prefix_append _ _⟩
theorem extend (bs : Bytes) : Appends (Enc.extend bs) := by
  intro w
  unfold Enc.extend M.wp
  by_cases h : w.left < bs.length
  · simp only [h, if_true]; exact M.Pre.refl w
  · simp only [h, if_false]; exact ⟨⟨rfl, fun _ => by simp [Writer.left] at h ⊢; omega⟩, List.prefix_append _ _⟩
theorem u8 (v : UInt8) : Appends (encU8 v) := push v
theorem u16 (v : UInt16) : Appends (encU16 v) := extend _
theorem u64 (v : UInt64) : Appends (encU64 v) := extend _
theorem u24 (v : UInt32) : Appends (encU24 v) := by
  unfold encU24
  exact M.Rel.bind (u8 _) fun _ => M.Rel.bind (u8 _) fun _ => M.Rel.bind (u8 _) fun _ => M.Rel.pure _
theorem u32 (v : UInt32) : Appends (encU32 v) := by
  unfold encU32
  exact M.Rel.bind (u8 _) fun _ => M.Rel.bind (u8 _) fun _ => M.Rel.bind (u8 _) fun _ => M.Rel.bind (u8 _) fun _ => M.Rel.pure _
theorem bytes (bs : Bytes) : Appends (encBytes bs) := by
  induction bs with
  | nil => exact M.Rel.pure _
  | cons b bs ih => exact M.Rel.bind (u8 _) fun _ => M.Rel.bind ih fun _ => M.Rel.pure _
theorem seq_nil : Appends (Enc.seq []) := M.Rel.pure _
theorem seq_cons {x : Enc Nat} {xs : List (Enc Nat)} (hx : Appends x) (hxs : Appends (Enc.seq xs)) : Appends (Enc.seq (x :: xs)) :=
  M.Rel.bind hx fun _ => M.Rel.bind hxs fun _ => M.Rel.pure _
theorem rep {α : Type} {e : α → Enc Nat} (as : List α) (h : ∀ a, Appends (e a)) : Appends (encN e as) := by
  unfold encN
  induction as with
  | nil => exact seq_nil
  | cons a as ih => exact seq_cons (h a) ih

end Appends

/-- prove `Appends` by following the structure of the encoder. -/
macro "app" : tactic => `(tactic|
  repeat' (first
    | assumption
    | exact Appends.seq_nil | exact M.Rel.pure _ | exact M.Rel.panic | exact M.Rel.fail _ | exact M.Rel.unwrap _
    | exact Appends.u8 _ | exact Appends.u16 _ | exact Appends.u24 _ | exact Appends.u32 _ | exact Appends.u64 _
    | exact Appends.bytes _
    | apply Appends.seq_cons
    | apply Appends.rep
    | apply M.Rel.ite
    | apply M.Rel.bind
    | intro _))

namespace Appends
theorem digest (c : Cc) (d : Bytes) : Appends (encDigest c d) := by unfold encDigest; app
theorem signature (c : Cc) (d : Bytes) : Appends (encSignature c d) := by unfold encSignature; app
theorem opt {b : Bool} {e : Enc Nat} (h : Appends e) : Appends (encOpt b e) := by unfold encOpt; app
theorem opaq (d : Bytes) : Appends (encOpaque d) := by unfold encOpaque; app
theorem record (m : MeasRecord) : Appends m.encode := by unfold MeasRecord.encode; app
theorem alg (a : Alg) : Appends a.encode := by
  cases a <;> first | exact u16 _ | exact u32 _ | exact M.Rel.panic | (unfold Alg.encode; app)
theorem algStruct (a : AlgStruct) : Appends a.encode := by
  unfold AlgStruct.encode
  exact seq_cons (u8 _) (seq_cons (u8 _) (seq_cons (alg _) seq_nil))
theorem errExt (x : ErrExt) : Appends x.encode := by
  cases x <;> unfold ErrExt.encode <;> app
theorem entry (v : VersionEntry) : Appends v.encode := seq_cons (u8 _) (seq_cons (u8 _) seq_nil)
end Appends

/-- `app` with the composite encoders. -/
macro "app2" : tactic => `(tactic|
  repeat' (first
    | with_reducible assumption
    | with_reducible first
      | exact Appends.seq_nil | exact M.Rel.pure _ | exact M.Rel.panic | exact M.Rel.fail _ | exact M.Rel.unwrap _
      | exact Appends.bytes _ | exact Appends.digest _ _ | exact Appends.signature _ _ | exact Appends.opaq _
      | exact Appends.record _ | exact Appends.alg _ | exact Appends.algStruct _ | exact Appends.errExt _ | exact Appends.entry _
      | exact Appends.u8 _ | exact Appends.u16 _ | exact Appends.u32 _
      | apply Appends.opt | apply Appends.seq_cons | apply Appends.rep | apply M.Rel.ite | apply M.Rel.bind
      | intro _
    | exact Appends.u8 _ | exact Appends.u16 _ | exact Appends.u32 _ | exact Appends.bytes _))

theorem Appends.header (h : Header) : Appends h.encode := seq_cons (u8 _) (seq_cons (u8 _) seq_nil)

theorem Appends.payload (c : Cc) (p : Payload) : Appends (p.encode c) := by
  cases p
  case general => unfold Payload.encode encGeneral; app2
  case getVersion => unfold Payload.encode encNoParams; app2
  case version => unfold Payload.encode VersionRsp.encode; app2
  case getCaps => unfold Payload.encode encGetCaps; app2
  case caps => unfold Payload.encode encCaps; app2
  case negAlgs => unfold Payload.encode encNegAlgs; app2
  case algs => unfold Payload.encode encAlgs; app2
  case getDigests => unfold Payload.encode encNoParams; app2
  case digests => unfold Payload.encode Digests.encode; app2
  case getCert => unfold Payload.encode GetCert.encode; app2
  case cert => unfold Payload.encode CertRsp.encode; app2
  case challenge => unfold Payload.encode Challenge.encode; app2
  case challengeAuth => unfold Payload.encode ChallengeAuth.encode; app2
  case getMeas => unfold Payload.encode GetMeas.encode; app2
  case meas => unfold Payload.encode Meas.encode; app2
  case keyEx => unfold Payload.encode KeyEx.encode; app2
  case keyExRsp => unfold Payload.encode KeyExRsp.encode; app2
  case finish => unfold Payload.encode Finish.encode; app2
  case finishRsp => unfold Payload.encode encFinishRsp; app2
  case pskEx => unfold Payload.encode PskEx.encode; app2
  case pskExRsp => unfold Payload.encode PskExRsp.encode; app2
  case pskFinish => unfold Payload.encode encPskFinish; app2
  case pskFinishRsp => unfold Payload.encode encNoParams; app2
  case heartbeat => unfold Payload.encode encNoParams; app2
  case heartbeatAck => unfold Payload.encode encNoParams; app2
  case keyUpdate => unfold Payload.encode KeyUpd.encode; app2
  case keyUpdateAck => unfold Payload.encode KeyUpd.encode; app2
  case endSession => unfold Payload.encode encEndSession; app2
  case endSessionAck => unfold Payload.encode encNoParams; app2
  case error => unfold Payload.encode ErrorRsp.encode; app2
  case vendorReq => unfold Payload.encode Vendor.encode; app2
  case vendorRsp => unfold Payload.encode Vendor.encode; app2

/-! ### What a successful encoder appended -/

/-- whenever the encoder succeeds it appended exactly `bs`. -/
def Emits {α : Type} (e : Enc α) (bs : Bytes) : Prop := ∀ w n w', e w = .ok n w' → w' = { w with out := w.out ++ bs }

namespace Emits
variable {α β : Type}

theorem pure (a : α) : Emits (Pure.pure a : Enc α) [] := by
  intro w n w' h
  simp only [M.pure_apply, Out.ok.injEq] at h
  simp [← h.2]
theorem bind {x : Enc α} {f : α → Enc β} {a b : Bytes} (hx : Emits x a) (hf : ∀ n, Emits (f n) b) : Emits (x >>= f) (a ++ b) := by
  intro w n w' h
  obtain ⟨m, t, h1, h2⟩ := M.bind_ok.1 h
  rw [hf m t n w' h2, hx w m t h1]
  simp
theorem cast {e : Enc α} {a b : Bytes} (h : Emits e a) (hab : a = b) : Emits e b := hab ▸ h
theorem push (b : UInt8) : Emits (Enc.push b) [b] := by
  intro w n w' h
  unfold Enc.push at h
  split at h
  · simp at h
  · simp only [Out.ok.injEq] at h; exact h.2.symm
theorem extend (bs : Bytes) : Emits (Enc.extend bs) bs := by
  intro w n w' h
  unfold Enc.extend at h
  split at h
  · simp at h
  · simp only [Out.ok.injEq] at h; exact h.2.symm
theorem u8 (v : UInt8) : Emits (encU8 v) [v] := push v
theorem u16 (v : UInt16) : Emits (encU16 v) (putU16 v) := extend _
theorem u24 (v : UInt32) : Emits (encU24 v) (putU24 v) := by
  unfold encU24
  exact (bind (u8 _) fun _ => bind (u8 _) fun _ => bind (u8 _) fun _ => pure _).cast rfl
theorem u32 (v : UInt32) : Emits (encU32 v) (putU32 v) := by
  unfold encU32
  exact (bind (u8 _) fun _ => bind (u8 _) fun _ => bind (u8 _) fun _ => bind (u8 _) fun _ => pure _).cast rfl
theorem bytes (bs : Bytes) : Emits (encBytes bs) bs := by
  induction bs with
  | nil => exact pure _
  | cons b bs ih => exact (bind (u8 _) fun _ => bind ih fun _ => pure _).cast (by simp)
theorem seq_nil : Emits (Enc.seq []) [] := pure _
theorem seq_cons {x : Enc Nat} {xs : List (Enc Nat)} {a b : Bytes} (hx : Emits x a) (hxs : Emits (Enc.seq xs) b) :
    Emits (Enc.seq (x :: xs)) (a ++ b) :=
  (bind hx fun _ => bind hxs fun _ => pure _).cast (by simp)
theorem panicIf {c : Prop} [Decidable c] {e : Enc α} {a : Bytes} (h : Emits e a) : Emits (if c then M.panic else e) a := by
  intro w n w' hh
  by_cases hc : c
  · simp [hc] at hh
  · simp only [hc, if_false] at hh; exact h w n w' hh
theorem unwrap {o : Option β} {f : β → Enc α} {a : Bytes} (h : ∀ b, Emits (f b) a) : Emits (M.unwrap o >>= f) a := by
  cases o with
  | none => intro w n w' hh; simp at hh
  | some b => intro w n w' hh; exact h b w n w' (by simpa using hh)
theorem digest (c : Cc) (d : Bytes) : Emits (encDigest c d) d := unwrap fun _ => panicIf (bytes d)
theorem signature (c : Cc) (d : Bytes) : Emits (encSignature c d) d := unwrap fun _ => panicIf (bytes d)
theorem opt {b : Bool} {e : Enc Nat} {a : Bytes} (h : Emits e a) : Emits (encOpt b e) (optWire b a) := by
  unfold encOpt optWire
  cases b
  · exact pure _
  · exact h
theorem opaq (d : Bytes) : Emits (encOpaque d) (opaqueWire d) :=
  (seq_cons (u16 _) (seq_cons (bytes d) seq_nil)).cast (by simp [opaqueWire])
theorem record (m : MeasRecord) : Emits m.encode m.wire :=
  (seq_cons (u8 _) (seq_cons (u24 _) (seq_cons (bytes _) seq_nil))).cast (by simp [MeasRecord.wire])

theorem header (h : Header) : Emits h.encode h.wire :=
  (seq_cons (u8 _) (seq_cons (u8 _) seq_nil)).cast (by simp [Header.wire])
theorem msg {c : Cc} {h : Header} {p : Payload} {a : Bytes} (hp : Emits (p.encode c) a) :
    Emits (Msg.encode c ⟨h, p⟩) (h.wire ++ a) :=
  (seq_cons (header h) (seq_cons hp seq_nil)).cast (by simp)

theorem challengeAuth (c : Cc) (m : ChallengeAuth) : Emits (m.encode c) (m.wire c) := by
  unfold ChallengeAuth.encode
  exact panicIf ((seq_cons (u8 _) (seq_cons (u8 _) (seq_cons (digest _ _) (seq_cons (bytes _) (seq_cons (opt (digest _ _))
    (seq_cons (opaq _) (seq_cons (signature _ _) seq_nil))))))).cast (by simp [ChallengeAuth.wire]))
theorem meas (c : Cc) (m : Meas) : Emits (m.encode c) (m.wire c) := by
  unfold Meas.encode
  exact (seq_cons (u8 _) (seq_cons (u8 _) (seq_cons (record _) (seq_cons (bytes _) (seq_cons (opaq _) (seq_cons
    (opt (signature _ _)) seq_nil)))))).cast (by simp [Meas.wire])
theorem keyExRsp (c : Cc) (m : KeyExRsp) : Emits (m.encode c) (m.wire c) := by
  unfold KeyExRsp.encode encDhe
  exact (seq_cons (u8 _) (seq_cons (u8 _) (seq_cons (u16 _) (seq_cons (u8 _) (seq_cons (u8 _) (seq_cons (bytes _) (seq_cons (bytes _)
    (seq_cons (opt (digest _ _)) (seq_cons (opaq _) (seq_cons (signature _ _) (seq_cons (opt (digest _ _)) seq_nil))))))))))).cast
    (by simp [KeyExRsp.wire])
theorem pskExRsp (c : Cc) (m : PskExRsp) : Emits (m.encode c) ([m.heartbeat] ++ [0] ++ putU16 m.rspSession ++ putU16 0 ++
    putU16 (if c.pskNoContext = true then 0 else m.context.length.toUInt16) ++ putU16 m.opaq.length.toUInt16 ++
    optWire c.needSummary m.summary ++ optWire (!c.pskNoContext) m.context ++ m.opaq ++ m.verify) := by
  unfold PskExRsp.encode
  exact (seq_cons (u8 _) (seq_cons (u8 _) (seq_cons (u16 _) (seq_cons (u16 _) (seq_cons (u16 _) (seq_cons (u16 _) (seq_cons
    (opt (digest _ _)) (seq_cons (opt (bytes _)) (seq_cons (bytes _) (seq_cons (digest _ _) seq_nil)))))))))).cast (by simp)
theorem finishRsp (c : Cc) (v : Bytes) : Emits (encFinishRsp c v) ([0] ++ [0] ++ optWire c.inClear v) := by
  unfold encFinishRsp
  exact (seq_cons (u8 _) (seq_cons (u8 _) (seq_cons (opt (digest _ _)) seq_nil))).cast (by simp)
theorem cert (m : CertRsp) : Emits m.encode ([m.slot] ++ [0] ++ putU16 m.portion ++ putU16 m.remainder ++ m.data.take (min m.portion.toNat 512)) := by
  unfold CertRsp.encode
  exact (seq_cons (u8 _) (seq_cons (u8 _) (seq_cons (u16 _) (seq_cons (u16 _) (seq_cons (bytes _) seq_nil))))).cast (by simp)
theorem rep {e : β → Enc Nat} {w : β → Bytes} (as : List β) (h : ∀ a, Emits (e a) (w a)) : Emits (encN e as) (as.flatMap w) := by
  unfold encN
  induction as with
  | nil => exact seq_nil
  | cons a as ih => exact (seq_cons (h a) ih).cast (by simp)
theorem digests (c : Cc) (m : Digests) : Emits (m.encode c) ([0] ++ [m.slotMask] ++ (m.digests.take (slotCount m.slotMask)).flatMap id) := by
  unfold Digests.encode
  exact (seq_cons (u8 _) (seq_cons (u8 _) (seq_cons (rep _ fun d => digest c d) seq_nil))).cast (by simp)
theorem noParams : Emits encNoParams [0, 0] := (bind (u8 _) fun _ => bind (u8 _) fun _ => pure _).cast rfl

end Emits
end Verif
