/-
C18–C20: key update, key-derivation inputs, agreement of both peers on all secrets.
-/
import Verif.Session.KeyLemmas
import Verif.Props.Record

namespace Verif.Props
open Verif Verif.Session

/-! ### C19: derivation inputs -/

/-- The HKDF info string of DSP0274: two-byte little-endian output length, "spdm", major digit, ".", minor digit, " ",
label, context. -/
def hkdfInfo (n : Nat) (v : SpdmVersion) (label context : Bytes) : Bytes :=
  putU16 (UInt16.ofNat n) ++ ([0x73, 0x70, 0x64, 0x6D, v.get / 16 + 0x30, 0x2E, v.get % 16 + 0x30, 0x20] ++ (label ++ context))

/-- What a secret is derived for; the transcript-dependent purposes carry the transcript hash. -/
inductive Purpose where
  | derived | reqHandshake (th : Bytes) | rspHandshake (th : Bytes) | reqData (th : Bytes) | rspData (th : Bytes)
  | key | iv | finished | exportMaster | update
  deriving DecidableEq

/-- The label of a purpose, DSP0274 "Key schedule". -/
def Purpose.label : Purpose → Bytes
  | .derived => "derived".toUTF8.data.toList
  | .reqHandshake _ => "req hs data".toUTF8.data.toList
  | .rspHandshake _ => "rsp hs data".toUTF8.data.toList
  | .reqData _ => "req app data".toUTF8.data.toList
  | .rspData _ => "rsp app data".toUTF8.data.toList
  | .key => "key".toUTF8.data.toList
  | .iv => "iv".toUTF8.data.toList
  | .finished => "finished".toUTF8.data.toList
  | .exportMaster => "exp master".toUTF8.data.toList
  | .update => "traffic upd".toUTF8.data.toList

/-- The ASCII codes of the labels. -/
theorem Purpose.label_bytes (p : Purpose) : p.label = match p with
    | .derived => [100, 101, 114, 105, 118, 101, 100]
    | .reqHandshake _ => [114, 101, 113, 32, 104, 115, 32, 100, 97, 116, 97]
    | .rspHandshake _ => [114, 115, 112, 32, 104, 115, 32, 100, 97, 116, 97]
    | .reqData _ => [114, 101, 113, 32, 97, 112, 112, 32, 100, 97, 116, 97]
    | .rspData _ => [114, 115, 112, 32, 97, 112, 112, 32, 100, 97, 116, 97]
    | .key => [107, 101, 121]
    | .iv => [105, 118]
    | .finished => [102, 105, 110, 105, 115, 104, 101, 100]
    | .exportMaster => [101, 120, 112, 32, 109, 97, 115, 116, 101, 114]
    | .update => [116, 114, 97, 102, 102, 105, 99, 32, 117, 112, 100] := by
  cases p <;> simp only [Purpose.label] <;> decide

/-- The context of a purpose. -/
def Purpose.context : Purpose → Bytes
  | .reqHandshake t | .rspHandshake t | .reqData t | .rspData t => t
  | _ => []

/-- The derivation input of a purpose for an output of `n` bytes. -/
def Purpose.info (p : Purpose) (n : Nat) (v : SpdmVersion) : Bytes := hkdfInfo n v p.label p.context

theorem versionStr_spec (v : SpdmVersion) :
    KeySched.versionStr v = [0x73, 0x70, 0x64, 0x6D, v.get / 16 + 0x30, 0x2E, v.get % 16 + 0x30, 0x20] := by
  have h : ∀ b : UInt8, ((KeySched.ascii "spdm .  ").set 4 ((b >>> 4) + 0x30)).set 6 ((b &&& 0x0F) + 0x30) =
      [0x73, 0x70, 0x64, 0x6D, b / 16 + 0x30, 0x2E, b % 16 + 0x30, 0x20] := by
    intro b
    have e1 : ∀ i : Fin 256, (UInt8.ofNat i.val) >>> 4 = (UInt8.ofNat i.val) / 16 := by
      set_option maxRecDepth 20000 in decide
    have e2 : ∀ i : Fin 256, (UInt8.ofNat i.val) &&& 0x0F = (UInt8.ofNat i.val) % 16 := by
      set_option maxRecDepth 20000 in decide
    have hb : b = UInt8.ofNat b.toNat := by simp
    have h1 := e1 ⟨b.toNat, b.toNat_lt⟩
    have h2 := e2 ⟨b.toNat, b.toNat_lt⟩
    simp only [← hb] at h1 h2
    rw [h1, h2]; rfl
  exact h _

theorem info_spec (n : Nat) (v : SpdmVersion) (label : Bytes) (ctx : Option Bytes) :
    KeySched.infoBytes (UInt16.ofNat n) v label ctx = hkdfInfo n v label (ctx.getD []) := by
  simp [KeySched.infoBytes, hkdfInfo, versionStr_spec]

/-- C19: the derivation input is exactly length, version prefix, label and context; when label and context do not fit in
76 bytes the derivation fails instead of being truncated; it never panics. -/
theorem C19_layout (n : Nat) (v : SpdmVersion) (label : Bytes) (ctx : Option Bytes) :
    (label.length + (ctx.getD []).length ≤ 76 → KeySched.binconcat (UInt16.ofNat n) v label ctx = .ok (hkdfInfo n v label (ctx.getD []))) ∧
    (76 < label.length + (ctx.getD []).length → KeySched.binconcat (UInt16.ofNat n) v label ctx = .err .cryptoError) := by
  rw [KeySched.binconcat_eq, info_spec]
  constructor
  · intro h; rw [if_neg (by omega)]
  · intro h; rw [if_pos h]

theorem nibbles_inj {a b : UInt8} (h1 : a / 16 + 0x30 = b / 16 + 0x30) (h2 : a % 16 + 0x30 = b % 16 + 0x30) : a = b := by
  have e1 : a / 16 = b / 16 := by simpa using h1
  have e2 : a % 16 = b % 16 := by simpa using h2
  have e1' := congrArg UInt8.toNat e1
  have e2' := congrArg UInt8.toNat e2
  simp only [UInt8.toNat_div, UInt8.toNat_mod, UInt8.reduceToNat] at e1' e2'
  apply UInt8.toNat_inj.mp
  omega

/-- C19: two derivations have the same input only if output length, version, purpose and transcript hash all agree. -/
theorem C19_unambiguous (p p' : Purpose) (n n' : Nat) (hn : n < 65536) (hn' : n' < 65536) (v v' : SpdmVersion)
    (h : p.info n v = p'.info n' v') : p = p' ∧ n = n' ∧ v.get = v'.get := by
  unfold Purpose.info hkdfInfo at h
  have h1 := putU16_inj (List.append_inj_left h rfl)
  have h2 := List.append_inj_right h rfl
  have h3 := List.append_inj_left h2 rfl
  have h4 := List.append_inj_right h2 rfl
  have hnn : n = n' := by
    have := congrArg UInt16.toNat h1
    rw [UInt16.toNat_ofNat', UInt16.toNat_ofNat'] at this
    omega
  have hv : v.get = v'.get := by
    simp only [List.cons.injEq, and_true, true_and] at h3
    exact nibbles_inj h3.1 h3.2
  refine ⟨?_, hnn, hv⟩
  rw [Purpose.label_bytes, Purpose.label_bytes] at h4
  cases p <;> cases p' <;> simp [Purpose.context] at h4 ⊢
  all_goals exact h4

/-- C19: in particular the request- and response-direction inputs always differ (also part of C20). -/
theorem C19_directions_differ (th th' : Bytes) (n n' : Nat) (v v' : SpdmVersion) :
    (Purpose.reqHandshake th).info n v ≠ (Purpose.rspHandshake th').info n' v' ∧
    (Purpose.reqData th).info n v ≠ (Purpose.rspData th').info n' v' := by
  constructor <;> intro h <;> unfold Purpose.info hkdfInfo at h <;>
    · have h2 := List.append_inj_right (List.append_inj_right h rfl) rfl
      rw [Purpose.label_bytes, Purpose.label_bytes] at h2
      simp [Purpose.context] at h2

/-- The four real derivations of every session have labels and hashes that fit. -/
example : (Purpose.reqData (List.replicate 64 1)).info 48 .v12 =
    [48, 0] ++ ([0x73, 0x70, 0x64, 0x6D, 0x31, 0x2E, 0x32, 0x20] ++ ([114, 101, 113, 32, 97, 112, 112, 32, 100, 97, 116, 97] ++
      List.replicate 64 1)) := by unfold Purpose.info; rw [Purpose.label_bytes]; rfl

/-! ### C20: the key schedule computed by a session -/

/-- One secret of a session: expanded from `root` for the purpose, or from the pre-shared key with the hint. -/
def Derived (c : Crypto) (s : Session) (psk : SpdmVersion → BaseHash → Bytes → Bytes → Option Bytes) (v : SpdmVersion)
    (n : Nat) (root : Bytes) (p : Purpose) (out : Bytes) : Prop :=
  if s.usePsk then ∃ hint, s.pskHint = some hint ∧ psk v s.hash hint (p.info n v) = some out
  else c.expand s.hash root (p.info n v) n = some out

/-- Key and salt of one direction, derived from its secret. -/
def TrafficKeys (c : Crypto) (s : Session) (v : SpdmVersion) (secret : Bytes) (k : SecretParam) : Prop :=
  ∃ ks is, Aead.keySize? s.aead = some ks ∧ Aead.ivSize? s.aead = some is ∧
    c.expand s.hash secret (Purpose.key.info ks v) 32 = some k.key ∧ c.expand s.hash secret (Purpose.iv.info is v) 12 = some k.salt

theorem directionSecret_spec {c : Crypto} {v : SpdmVersion} {s : Session} {root : Bytes}
    {psk : SpdmVersion → BaseHash → Bytes → Bytes → Option Bytes} {label : Bytes} {th : Option Bytes} {out : Bytes} {p : Purpose}
    (hp : p.label = label) (hc : p.context = th.getD [])
    (h : KeySched.directionSecret c v s.hash s.usePsk root s.pskHint psk label th = .ok out) :
    ∃ n, BaseHash.size? s.hash = some n ∧ Derived c s psk v n root p out := by
  unfold KeySched.directionSecret at h
  simp only [Res.bind_ok, KeySched.hashLen, Res.unwrap_ok, KeySched.binconcat_ok] at h
  obtain ⟨n, hn, _, ⟨_, rfl⟩, h⟩ := h
  refine ⟨n, hn, ?_⟩
  unfold Derived
  have hi : KeySched.infoBytes (UInt16.ofNat n) v label th = p.info n v := by
    rw [info_spec, Purpose.info, hp, hc]
  rw [hi] at h
  cases hu : s.usePsk with
  | true =>
    rw [hu, if_pos rfl] at h
    simp only [Res.bind_ok, Res.unwrap_ok, Res.ofOption_ok, KeySched.sized_ok] at h
    obtain ⟨hint, hh, okm, ho, _, _, rfl⟩ := h
    simp [hh, ho]
  | false =>
    rw [hu] at h
    simp only [Bool.false_eq_true, if_false, KeySched.expandSecret_ok] at h
    simp [h.2.1]

theorem aeadKeyIv_spec {c : Crypto} {v : SpdmVersion} {s : Session} {secret : Bytes} {k : Bytes × Bytes} (q : UInt64)
    (h : KeySched.aeadKeyIv c v s.hash s.aead secret = .ok k) : TrafficKeys c s v secret { key := k.1, salt := k.2, seq := q } := by
  unfold KeySched.aeadKeyIv at h
  simp only [Res.bind_ok, Res.unwrap_ok, KeySched.binconcat_ok, KeySched.expandSecret_ok, Res.pure_def, Res.ok.injEq] at h
  obtain ⟨ks, h1, _, ⟨_, rfl⟩, key, ⟨_, h2, _⟩, is, h3, _, ⟨_, rfl⟩, iv, ⟨_, h4, _⟩, rfl⟩ := h
  rw [info_spec] at h2 h4
  exact ⟨ks, is, h1, h3, h2, h4⟩

theorem finishedKey_spec {c : Crypto} {v : SpdmVersion} {s : Session} {secret out : Bytes}
    (h : KeySched.finishedKey c v s.hash secret = .ok out) :
    ∃ n, BaseHash.size? s.hash = some n ∧ c.expand s.hash secret (Purpose.finished.info n v) n = some out := by
  unfold KeySched.finishedKey at h
  simp only [Res.bind_ok, KeySched.hashLen, Res.unwrap_ok, KeySched.binconcat_ok, KeySched.expandSecret_ok] at h
  obtain ⟨n, hn, _, ⟨_, rfl⟩, _, h, _⟩ := h
  rw [info_spec] at h
  exact ⟨n, hn, h⟩

theorem updateSecret_spec {c : Crypto} {v : SpdmVersion} {s : Session} {secret out : Bytes}
    (h : KeySched.updateSecret c v s.hash secret = .ok out) :
    ∃ n, BaseHash.size? s.hash = some n ∧ c.expand s.hash secret (Purpose.update.info n v) n = some out := by
  unfold KeySched.updateSecret at h
  simp only [Res.bind_ok, KeySched.hashLen, Res.unwrap_ok, KeySched.binconcat_ok, KeySched.expandSecret_ok] at h
  obtain ⟨n, hn, _, ⟨_, rfl⟩, _, h, _⟩ := h
  rw [info_spec] at h
  exact ⟨n, hn, h⟩

/-- C20: the root secrets: handshake secret extracted from the DHE secret with a zero salt, master secret extracted from
zeros with the "derived" salt. -/
theorem C20_root_secrets (c : Crypto) (v : SpdmVersion) (dhe : Bytes) (s s' : Session)
    (h : setDheSecret c v dhe s = .ok () s') :
    ∃ n salt, BaseHash.size? s.hash = some n ∧ c.extract s.hash (List.replicate n 0) dhe = some s'.hsRoot ∧
      c.expand s.hash s'.hsRoot (Purpose.derived.info n v) n = some salt ∧
      c.extract s.hash salt (List.replicate n 0) = some s'.master ∧
      s' = { s with dheSecret := dhe, hsRoot := s'.hsRoot, master := s'.master } := by
  rw [setDheSecret_ok] at h
  obtain ⟨a, b, h1, h2, rfl⟩ := h
  unfold KeySched.handshakeSecret at h1
  unfold KeySched.masterSecret at h2
  simp only [Res.bind_ok, KeySched.hashLen, Res.unwrap_ok, KeySched.binconcat_ok, KeySched.sized_ok, Res.ofOption_ok] at h1 h2
  obtain ⟨n, hn, prk, hx, _, _, rfl⟩ := h1
  obtain ⟨n', hn', _, ⟨_, rfl⟩, _, ⟨_, _, rfl⟩, salt, he, prk', hx', _, _, rfl⟩ := h2
  rw [hn] at hn'; obtain rfl := Option.some.inj hn'
  rw [info_spec] at he
  exact ⟨n, salt, hn, hx, he, hx', rfl⟩

/-- C20: the handshake secrets, finished keys and record keys of both directions are those of the specification; the
sequence numbers and every other part of the session are untouched. -/
theorem C20_handshake_secrets (c : Crypto) (v : SpdmVersion) (th1 : Bytes) (s s' : Session)
    (h : genHandshake c v th1 s = .ok () s') :
    ∃ n, BaseHash.size? s.hash = some n ∧
      Derived c s c.pskHandshake v n s.hsRoot (.reqHandshake th1) s'.hs.reqSecret ∧
      Derived c s c.pskHandshake v n s.hsRoot (.rspHandshake th1) s'.hs.rspSecret ∧
      c.expand s.hash s'.hs.reqSecret (Purpose.finished.info n v) n = some s'.hs.reqFinished ∧
      c.expand s.hash s'.hs.rspSecret (Purpose.finished.info n v) n = some s'.hs.rspFinished ∧
      TrafficKeys c s v s'.hs.reqSecret s'.hs.req ∧ TrafficKeys c s v s'.hs.rspSecret s'.hs.rsp ∧
      s'.hs.req.seq = s.hs.req.seq ∧ s'.hs.rsp.seq = s.hs.rsp.seq ∧ s' = { s with hs := s'.hs } := by
  rw [genHandshake_ok] at h
  obtain ⟨a, b, fa, fb, ka, kb, h1, h2, h3, h4, h5, h6, rfl⟩ := h
  obtain ⟨n, hn, d1⟩ := directionSecret_spec (p := .reqHandshake th1) (by rw [Purpose.label_bytes]; rfl) rfl h1
  obtain ⟨n2, hn2, d2⟩ := directionSecret_spec (p := .rspHandshake th1) (by rw [Purpose.label_bytes]; rfl) rfl h2
  obtain ⟨n3, hn3, d3⟩ := finishedKey_spec h3
  obtain ⟨n4, hn4, d4⟩ := finishedKey_spec h4
  rw [hn] at hn2 hn3 hn4
  obtain rfl := Option.some.inj hn2; obtain rfl := Option.some.inj hn3; obtain rfl := Option.some.inj hn4
  exact ⟨n, hn, d1, d2, d3, d4, aeadKeyIv_spec _ h5, aeadKeyIv_spec _ h6, rfl, rfl, rfl⟩

/-- C20: the same for the application secrets and the export master secret. -/
theorem C20_data_secrets (c : Crypto) (v : SpdmVersion) (th2 : Bytes) (s s' : Session)
    (h : genData c v th2 s = .ok () s') :
    ∃ n, BaseHash.size? s.hash = some n ∧
      Derived c s c.pskMaster v n s.master (.reqData th2) s'.app.reqSecret ∧
      Derived c s c.pskMaster v n s.master (.rspData th2) s'.app.rspSecret ∧
      Derived c s c.pskMaster v n s.master .exportMaster s'.app.exportMaster ∧
      TrafficKeys c s v s'.app.reqSecret s'.app.req ∧ TrafficKeys c s v s'.app.rspSecret s'.app.rsp ∧
      s'.app.req.seq = s.app.req.seq ∧ s'.app.rsp.seq = s.app.rsp.seq ∧ s' = { s with app := s'.app } := by
  rw [genData_ok] at h
  obtain ⟨a, b, ka, kb, e, h1, h2, h3, h4, h5, rfl⟩ := h
  obtain ⟨n, hn, d1⟩ := directionSecret_spec (p := .reqData th2) (by rw [Purpose.label_bytes]; rfl) rfl h1
  obtain ⟨n2, hn2, d2⟩ := directionSecret_spec (p := .rspData th2) (by rw [Purpose.label_bytes]; rfl) rfl h2
  obtain ⟨n3, hn3, d3⟩ := directionSecret_spec (p := .exportMaster) (by rw [Purpose.label_bytes]; rfl) rfl h5
  rw [hn] at hn2 hn3
  obtain rfl := Option.some.inj hn2; obtain rfl := Option.some.inj hn3
  exact ⟨n, hn, d1, d2, d3, aeadKeyIv_spec _ h3, aeadKeyIv_spec _ h4, rfl, rfl, rfl⟩

/-- What two peers must have agreed on before deriving keys. -/
structure SameSetup (s t : Session) : Prop where
  hash : s.hash = t.hash
  aead : s.aead = t.aead
  usePsk : s.usePsk = t.usePsk
  hint : s.pskHint = t.pskHint
  id : s.id = t.id
  seqCount : s.seqCount = t.seqCount

/-- the steps of a handshake on one side, starting from a session as set up: the DHE secret (none for a pre-shared key),
the handshake secrets from TH1 -/
def handshakeKeys (c : Crypto) (v : SpdmVersion) (dhe : Option Bytes) (th1 : Bytes) : M Status Session Unit := do
  match dhe with
  | some d => setDheSecret c v d
  | none => pure ()
  genHandshake c v th1

theorem handshakeKeys_congr {c : Crypto} {v : SpdmVersion} {dhe : Option Bytes} {th1 : Bytes} {s s' t t' : Session}
    (h : SameSetup s t) (hroot : s.hsRoot = t.hsRoot) (hm : s.master = t.master) (hs : s.hs = t.hs)
    (hs' : handshakeKeys c v dhe th1 s = .ok () s') (ht' : handshakeKeys c v dhe th1 t = .ok () t') :
    s'.hs = t'.hs ∧ s'.master = t'.master ∧ SameSetup s' t' ∧ s'.app = s.app ∧ t'.app = t.app ∧
      s'.hs.req.seq = s.hs.req.seq ∧ s'.hs.rsp.seq = s.hs.rsp.seq := by
  have key : ∀ {s s' t t' : Session}, SameSetup s t → s.hsRoot = t.hsRoot → s.master = t.master → s.hs = t.hs →
      genHandshake c v th1 s = .ok () s' → genHandshake c v th1 t = .ok () t' →
      s'.hs = t'.hs ∧ s'.master = t'.master ∧ SameSetup s' t' ∧ s'.app = s.app ∧ t'.app = t.app ∧
      s'.hs.req.seq = s.hs.req.seq ∧ s'.hs.rsp.seq = s.hs.rsp.seq := by
    intro s s' t t' h hroot hm hs hs' ht'
    rw [genHandshake_ok] at hs' ht'
    obtain ⟨a, b, fa, fb, ka, kb, h1, h2, h3, h4, h5, h6, rfl⟩ := hs'
    obtain ⟨a', b', fa', fb', ka', kb', h1', h2', h3', h4', h5', h6', rfl⟩ := ht'
    rw [← h.hash, ← h.usePsk, ← hroot, ← h.hint] at h1' h2'
    rw [← h.hash] at h3' h4'
    rw [← h.hash, ← h.aead] at h5' h6'
    rw [h1] at h1'; obtain rfl := Res.ok.inj h1'
    rw [h2] at h2'; obtain rfl := Res.ok.inj h2'
    rw [h3] at h3'; obtain rfl := Res.ok.inj h3'
    rw [h4] at h4'; obtain rfl := Res.ok.inj h4'
    rw [h5] at h5'; obtain rfl := Res.ok.inj h5'
    rw [h6] at h6'; obtain rfl := Res.ok.inj h6'
    refine ⟨by simp [hs], hm, ⟨h.hash, h.aead, h.usePsk, h.hint, h.id, h.seqCount⟩, rfl, rfl, rfl, rfl⟩
  unfold handshakeKeys at hs' ht'
  cases dhe with
  | none =>
    simp only [M.bind_apply, M.pure_apply] at hs' ht'
    exact key h hroot hm hs hs' ht'
  | some d =>
    obtain ⟨_, s1, hs1, hs'⟩ := M.bind_ok.mp hs'
    obtain ⟨_, t1, ht1, ht'⟩ := M.bind_ok.mp ht'
    obtain ⟨a, b, h1, h2, rfl⟩ := setDheSecret_ok.mp hs1
    obtain ⟨a', b', h1', h2', rfl⟩ := setDheSecret_ok.mp ht1
    rw [← h.hash] at h1' h2'
    rw [h1] at h1'; obtain rfl := Res.ok.inj h1'
    rw [h2] at h2'; obtain rfl := Res.ok.inj h2'
    have := key (s := { s with dheSecret := d, hsRoot := a, master := b }) (t := { t with dheSecret := d, hsRoot := a, master := b })
      ⟨h.hash, h.aead, h.usePsk, h.hint, h.id, h.seqCount⟩ rfl rfl hs hs' ht'
    exact this

/-- C20: two freshly set-up sessions with the same parameters, the same shared secret (or pre-shared key hint) and the same
transcript hash end up with identical handshake secrets, and once both move to the handshake state each direction's keys on
one side are that direction's keys on the other, starting at sequence number zero. -/
theorem C20_peers_agree_handshake (c : Crypto) (v : SpdmVersion) (dhe : Option Bytes) (th1 : Bytes) (s s' t t' : Session)
    (h : SameSetup s t) (hfs : s.hs = {} ∧ s.hsRoot = [] ∧ s.master = []) (hft : t.hs = {} ∧ t.hsRoot = [] ∧ t.master = [])
    (hs : handshakeKeys c v dhe th1 s = .ok () s') (ht : handshakeKeys c v dhe th1 t = .ok () t') (d : Bool) :
    s'.hs = t'.hs ∧ s'.master = t'.master ∧
      SameChannel { s' with state := .handshaking } { t' with state := .handshaking } d ∧
      (({ s' with state := .handshaking } : Session).dir d).seq = 0 := by
  obtain ⟨h1, h2, h3, _, _, h6, h7⟩ := handshakeKeys_congr h (by rw [hfs.2.1, hft.2.1]) (by rw [hfs.2.2, hft.2.2])
    (by rw [hfs.1, hft.1]) hs ht
  refine ⟨h1, h2, ⟨rfl, by simp, h3.id, h3.aead, h3.seqCount, ?_⟩, ?_⟩
  · cases d <;> simp [dir, h1]
  · cases d
    · show s'.hs.rsp.seq = 0; rw [h7, hfs.1]
    · show s'.hs.req.seq = 0; rw [h6, hfs.1]

/-- C20: likewise for the application secrets. -/
theorem C20_peers_agree_data (c : Crypto) (v : SpdmVersion) (th2 : Bytes) (s s' t t' : Session)
    (h : SameSetup s t) (hm : s.master = t.master) (hfs : s.app = {}) (hft : t.app = {})
    (hs : genData c v th2 s = .ok () s') (ht : genData c v th2 t = .ok () t') (d : Bool) :
    s'.app = t'.app ∧ SameChannel { s' with state := .established } { t' with state := .established } d ∧
      (({ s' with state := .established } : Session).dir d).seq = 0 := by
  rw [genData_ok] at hs ht
  obtain ⟨a, b, ka, kb, e, h1, h2, h3, h4, h5, rfl⟩ := hs
  obtain ⟨a', b', ka', kb', e', h1', h2', h3', h4', h5', rfl⟩ := ht
  rw [← h.hash, ← h.usePsk, ← hm, ← h.hint] at h1' h2' h5'
  rw [← h.hash, ← h.aead] at h3' h4'
  rw [h1] at h1'; obtain rfl := Res.ok.inj h1'
  rw [h2] at h2'; obtain rfl := Res.ok.inj h2'
  rw [h3] at h3'; obtain rfl := Res.ok.inj h3'
  rw [h4] at h4'; obtain rfl := Res.ok.inj h4'
  rw [h5] at h5'; obtain rfl := Res.ok.inj h5'
  refine ⟨by simp [hfs, hft], ⟨rfl, by simp, h.id, h.aead, h.seqCount, ?_⟩, ?_⟩
  · cases d <;> simp [dir, hfs, hft]
  · cases d <;> simp [dir, hfs]

/-- C20, finding F25: record keys are always derived with 32 bytes, but AES-128-GCM takes 16.  With an HKDF that returns
what it is asked for and an AEAD that refuses keys of the wrong size (as `ring` does), every message of an AES-128-GCM
session fails. -/
theorem C20_aes128_unusable_violated (c : Crypto) (v : SpdmVersion) (th2 : Bytes) (s s' : Session)
    (hexp : ∀ h k i n o, c.expand h k i n = some o → o.length = n)
    (hkey : ∀ a k iv aad pt r, c.seal a k iv aad pt = some r → Aead.keySize? a = some k.length)
    (ha : s.aead = Aead.aes128) (hs : genData c v th2 s = .ok () s') (app : Bytes) (cap : Nat) (isReq : Bool)
    (out : Bytes) (s'' : Session) :
    encodeSecured c app cap isReq { s' with state := .established } ≠ .ok out s'' := by
  intro h
  obtain ⟨n, _, _, _, _, ⟨_, _, _, _, hk1, _⟩, ⟨_, _, _, _, hk2, _⟩, _, _, hs'⟩ := C20_data_secrets c v th2 s s' hs
  have ha' : s'.aead = Aead.aes128 := by rw [hs']; exact ha
  unfold encodeSecured at h
  rw [dispatchDir_ok] at h
  obtain ⟨_, h, _⟩ := h
  rw [encodeMsg_ok] at h
  obtain ⟨_, _, _, _, _, ct, tag, hseal, _⟩ := h
  have := hkey _ _ _ _ _ _ hseal
  have hlen : ((({ s' with state := .established } : Session).dir isReq).key).length = 32 := by
    cases isReq
    · exact hexp _ _ _ _ _ hk2
    · exact hexp _ _ _ _ _ hk1
  rw [hlen] at this
  simp only [ha'] at this
  revert this; decide

/-! ### C18: key update -/

/-- `new` is what an update turns the traffic secret `old` into, and `k` its record keys, restarted at zero. -/
def Updated (c : Crypto) (s : Session) (v : SpdmVersion) (old new : Bytes) (k : SecretParam) : Prop :=
  (∃ n, BaseHash.size? s.hash = some n ∧ c.expand s.hash old (Purpose.update.info n v) n = some new) ∧
    TrafficKeys c s v new k ∧ k.seq = 0

/-- C18: a key update replaces exactly the requested directions by the next secret, with fresh keys and sequence number
zero, and changes nothing else but the saved copy. -/
theorem C18_effect (c : Crypto) (v : SpdmVersion) (req rsp : Bool) (s s' : Session)
    (h : createUpdate c v req rsp s = .ok () s') :
    (if req then Updated c s v s.app.reqSecret s'.app.reqSecret s'.app.req
      else s'.app.reqSecret = s.app.reqSecret ∧ s'.app.req = s.app.req) ∧
    (if rsp then Updated c s v s.app.rspSecret s'.app.rspSecret s'.app.rsp
      else s'.app.rspSecret = s.app.rspSecret ∧ s'.app.rsp = s.app.rsp) ∧
    s'.app.exportMaster = s.app.exportMaster ∧ s' = { s with app := s'.app, backup := s'.backup } := by
  rw [createUpdate_ok] at h
  obtain ⟨s1, h1, h2⟩ := h
  cases req <;> cases rsp <;> simp only [if_true, if_false, Bool.false_eq_true, createReq_ok, createRsp_ok] at h1 h2 ⊢
  · subst h1; subst h2; simp
  · subst h1
    obtain ⟨a, k, h3, h4, rfl⟩ := h2
    exact ⟨⟨rfl, rfl⟩, ⟨updateSecret_spec h3, aeadKeyIv_spec _ h4, rfl⟩, rfl, rfl⟩
  · obtain ⟨a, k, h3, h4, rfl⟩ := h1
    subst h2
    exact ⟨⟨updateSecret_spec h3, aeadKeyIv_spec _ h4, rfl⟩, ⟨rfl, rfl⟩, rfl, rfl⟩
  · obtain ⟨a, k, h3, h4, rfl⟩ := h1
    obtain ⟨a', k', h3', h4', rfl⟩ := h2
    exact ⟨⟨updateSecret_spec h3, aeadKeyIv_spec _ h4, rfl⟩, ⟨updateSecret_spec h3', aeadKeyIv_spec _ h4', rfl⟩, rfl, rfl⟩

/-- C18: discarding an update restores secrets, keys and sequence numbers exactly. -/
theorem C18_rollback (c : Crypto) (v : SpdmVersion) (req rsp : Bool) (s s' : Session)
    (h : createUpdate c v req rsp s = .ok () s') : (activateUpdate req rsp false s').app = s.app := by
  rw [createUpdate_ok] at h
  obtain ⟨s1, h1, h2⟩ := h
  cases req <;> cases rsp <;> simp only [if_true, if_false, Bool.false_eq_true, createReq_ok, createRsp_ok] at h1 h2
  · subst h1; subst h2; rfl
  · subst h1; obtain ⟨a, k, _, _, rfl⟩ := h2; rfl
  · obtain ⟨a, k, _, _, rfl⟩ := h1; subst h2; rfl
  · obtain ⟨a, k, _, _, rfl⟩ := h1; obtain ⟨a', k', _, _, rfl⟩ := h2; rfl

/-- C18: confirming an update keeps the new keys and erases the saved old ones of the updated directions; everything else
is unchanged. -/
theorem C18_commit (req rsp : Bool) (s : Session) :
    (activateUpdate req rsp true s).app = s.app ∧
    (req = true → (activateUpdate req rsp true s).backup.reqSecret = [] ∧ (activateUpdate req rsp true s).backup.req = {}) ∧
    (rsp = true → (activateUpdate req rsp true s).backup.rspSecret = [] ∧ (activateUpdate req rsp true s).backup.rsp = {}) ∧
    activateUpdate req rsp true s = { s with backup := (activateUpdate req rsp true s).backup } := by
  cases req <;> cases rsp <;> simp [activateUpdate]

/-- One complete update: which directions, and whether it is confirmed or discarded. -/
structure UpdateOp where
  req : Bool
  rsp : Bool
  commit : Bool

/-- Any number of updates. -/
def runUpdates (c : Crypto) (v : SpdmVersion) : List UpdateOp → M Status Session Unit
  | [] => pure ()
  | op :: ops => do
    createUpdate c v op.req op.rsp
    M.modify (activateUpdate op.req op.rsp op.commit)
    runUpdates c v ops

theorem runUpdates_cons {c : Crypto} {v : SpdmVersion} {op : UpdateOp} {ops : List UpdateOp} {s s' : Session} :
    runUpdates c v (op :: ops) s = .ok () s' ↔ ∃ s1, createUpdate c v op.req op.rsp s = .ok () s1 ∧
      runUpdates c v ops (activateUpdate op.req op.rsp op.commit s1) = .ok () s' := by
  rw [runUpdates]
  simp only [M.bind_apply, M.modify_apply]
  cases h : createUpdate c v op.req op.rsp s <;> simp

theorem activate_frame (req rsp useNew : Bool) (s : Session) :
    (activateUpdate req rsp useNew s).hash = s.hash ∧ (activateUpdate req rsp useNew s).aead = s.aead ∧
    (activateUpdate req rsp useNew s).id = s.id ∧ (activateUpdate req rsp useNew s).seqCount = s.seqCount ∧
    (activateUpdate req rsp useNew s).state = s.state := by
  cases req <;> cases rsp <;> cases useNew <;> exact ⟨rfl, rfl, rfl, rfl, rfl⟩

theorem createUpdate_frame {c : Crypto} {v : SpdmVersion} {req rsp : Bool} {s s' : Session}
    (h : createUpdate c v req rsp s = .ok () s') :
    s'.hash = s.hash ∧ s'.aead = s.aead ∧ s'.id = s.id ∧ s'.seqCount = s.seqCount ∧ s'.state = s.state := by
  have := (C18_effect c v req rsp s s' h).2.2.2
  rw [this]; exact ⟨rfl, rfl, rfl, rfl, rfl⟩

theorem createUpdate_congr {c : Crypto} {v : SpdmVersion} {req rsp : Bool} {s s' t t' : Session}
    (hh : s.hash = t.hash) (ha : s.aead = t.aead) (happ : s.app = t.app)
    (hs : createUpdate c v req rsp s = .ok () s') (ht : createUpdate c v req rsp t = .ok () t') : s'.app = t'.app := by
  rw [createUpdate_ok] at hs ht
  obtain ⟨s1, h1, h2⟩ := hs
  obtain ⟨t1, h1', h2'⟩ := ht
  cases req <;> cases rsp <;> simp only [if_true, if_false, Bool.false_eq_true, createReq_ok, createRsp_ok] at h1 h2 h1' h2'
  · subst h1; subst h2; subst h1'; subst h2'; exact happ
  · subst h1; subst h1'
    obtain ⟨a, k, h3, h4, rfl⟩ := h2
    obtain ⟨a', k', h3', h4', rfl⟩ := h2'
    rw [← hh, ← happ, h3] at h3'; obtain rfl := Res.ok.inj h3'
    rw [← hh, ← ha, h4] at h4'; obtain rfl := Res.ok.inj h4'
    simp [happ]
  · subst h2; subst h2'
    obtain ⟨a, k, h3, h4, rfl⟩ := h1
    obtain ⟨a', k', h3', h4', rfl⟩ := h1'
    rw [← hh, ← happ, h3] at h3'; obtain rfl := Res.ok.inj h3'
    rw [← hh, ← ha, h4] at h4'; obtain rfl := Res.ok.inj h4'
    simp [happ]
  · obtain ⟨a, k, h3, h4, rfl⟩ := h1
    obtain ⟨a', k', h3', h4', rfl⟩ := h1'
    obtain ⟨b, l, h5, h6, rfl⟩ := h2
    obtain ⟨b', l', h5', h6', rfl⟩ := h2'
    simp only at h5 h6 h5' h6'
    rw [← hh, ← happ, h3] at h3'; obtain rfl := Res.ok.inj h3'
    rw [← hh, ← ha, h4] at h4'; obtain rfl := Res.ok.inj h4'
    rw [← hh, ← happ, h5] at h5'; obtain rfl := Res.ok.inj h5'
    rw [← hh, ← ha, h6] at h6'; obtain rfl := Res.ok.inj h6'
    simp [happ]

/-- C18: two peers whose traffic keys agree still agree after any number of updates, confirmed or discarded, and remain on
the same channel in both directions. -/
theorem C18_peers_stay_in_step (c : Crypto) (v : SpdmVersion) (ops : List UpdateOp) (s s' t t' : Session)
    (hch : ∀ d, SameChannel s t d) (hest : s.state = .established) (hh : s.hash = t.hash) (happ : s.app = t.app)
    (hs : runUpdates c v ops s = .ok () s') (ht : runUpdates c v ops t = .ok () t') :
    s'.app = t'.app ∧ ∀ d, SameChannel s' t' d := by
  induction ops generalizing s t with
  | nil =>
    simp only [runUpdates, M.pure_apply, Out.ok.injEq, true_and] at hs ht
    subst hs; subst ht; exact ⟨happ, hch⟩
  | cons op ops ih =>
    rw [runUpdates_cons] at hs ht
    obtain ⟨s1, h1, hs⟩ := hs
    obtain ⟨t1, h2, ht⟩ := ht
    have f1 := createUpdate_frame h1
    have f2 := createUpdate_frame h2
    have g1 := activate_frame op.req op.rsp op.commit s1
    have g2 := activate_frame op.req op.rsp op.commit t1
    have e : (activateUpdate op.req op.rsp op.commit s1).app = (activateUpdate op.req op.rsp op.commit t1).app := by
      cases hc : op.commit with
      | true => rw [(C18_commit _ _ s1).1, (C18_commit _ _ t1).1]; exact createUpdate_congr hh (hch true).aead happ h1 h2
      | false => rw [C18_rollback _ _ _ _ _ _ h1, C18_rollback _ _ _ _ _ _ h2]; exact happ
    have hst := (hch true).state
    refine ih _ _ ?_ (by rw [g1.2.2.2.2, f1.2.2.2.2, hest]) (by rw [g1.1, g2.1, f1.1, f2.1, hh]) e hs ht
    intro d
    refine ⟨?_, ?_, ?_, ?_, ?_, ?_⟩
    · rw [g1.2.2.2.2, g2.2.2.2.2, f1.2.2.2.2, f2.2.2.2.2, hst]
    · rw [g1.2.2.2.2, f1.2.2.2.2, hest]; simp
    · rw [g1.2.2.1, g2.2.2.1, f1.2.2.1, f2.2.2.1, (hch d).id]
    · rw [g1.2.1, g2.2.1, f1.2.1, f2.2.1, (hch d).aead]
    · rw [g1.2.2.2.1, g2.2.2.2.1, f1.2.2.2.1, f2.2.2.2.1, (hch d).seqCount]
    · unfold dir
      rw [g1.2.2.2.2, g2.2.2.2.2, f1.2.2.2.2, f2.2.2.2.2, ← hst, hest, e]
      cases d <;> rfl

/-- `k` successive update steps of a traffic secret. -/
inductive UpdateChain (c : Crypto) (h : BaseHash) (v : SpdmVersion) (n : Nat) : Nat → Bytes → Bytes → Prop
  | done (x : Bytes) : UpdateChain c h v n 0 x x
  | step {k : Nat} {x y z : Bytes} : c.expand h x (Purpose.update.info n v) n = some y → UpdateChain c h v n k y z →
      UpdateChain c h v n (k + 1) x z

/-- C18: after any history of updates the request-direction secret is the result of exactly as many update steps as there
were confirmed updates of that direction; discarded ones leave no trace (and likewise for the response direction). -/
theorem C18_iterated (c : Crypto) (v : SpdmVersion) (ops : List UpdateOp) (s s' : Session) (n : Nat)
    (hn : BaseHash.size? s.hash = some n) (hs : runUpdates c v ops s = .ok () s') :
    UpdateChain c s.hash v n (ops.countP fun o => o.req && o.commit) s.app.reqSecret s'.app.reqSecret ∧
    UpdateChain c s.hash v n (ops.countP fun o => o.rsp && o.commit) s.app.rspSecret s'.app.rspSecret := by
  induction ops generalizing s with
  | nil =>
    simp only [runUpdates, M.pure_apply, Out.ok.injEq, true_and] at hs
    subst hs; exact ⟨.done _, .done _⟩
  | cons op ops ih =>
    rw [runUpdates_cons] at hs
    obtain ⟨s1, h1, hs⟩ := hs
    have f1 := createUpdate_frame h1
    have g1 := activate_frame op.req op.rsp op.commit s1
    have hh : (activateUpdate op.req op.rsp op.commit s1).hash = s.hash := by rw [g1.1, f1.1]
    have := ih _ (by rw [hh]; exact hn) hs
    rw [hh] at this
    obtain ⟨i1, i2⟩ := this
    have eff := C18_effect c v _ _ s s1 h1
    cases hc : op.commit with
    | false =>
      rw [hc, C18_rollback _ _ _ _ _ _ h1] at i1 i2
      simp only [List.countP_cons, hc, Bool.and_false, Bool.false_eq_true, if_false, Nat.add_zero]
      exact ⟨i1, i2⟩
    | true =>
      rw [hc, (C18_commit _ _ s1).1] at i1 i2
      simp only [List.countP_cons, hc, Bool.and_true]
      constructor
      · cases hr : op.req with
        | false =>
          rw [hr] at eff
          simp only [Bool.false_eq_true, if_false, Nat.add_zero] at eff ⊢
          rw [eff.1.1] at i1; exact i1
        | true =>
          rw [hr] at eff
          simp only [if_true] at eff ⊢
          obtain ⟨⟨n', hn', hx⟩, _⟩ := eff.1
          rw [hn] at hn'; obtain rfl := Option.some.inj hn'
          exact .step hx i1
      · cases hr : op.rsp with
        | false =>
          rw [hr] at eff
          simp only [Bool.false_eq_true, if_false, Nat.add_zero] at eff ⊢
          rw [eff.2.1.1] at i2; exact i2
        | true =>
          rw [hr] at eff
          simp only [if_true] at eff ⊢
          obtain ⟨⟨n', hn', hx⟩, _⟩ := eff.2.1
          rw [hn] at hn'; obtain rfl := Option.some.inj hn'
          exact .step hx i2

/-! ### the hypotheses are met -/

/-- a session set up for SHA-256 and AES-256-GCM -/
def freshSess : Session := { Session.new with id := 0xFFFD0007, hash := BaseHash.sha256, aead := Aead.aes256, seqCount := 2 }

/-- A complete key schedule with the toy cryptography: handshake keys, data keys, then two updates, one discarded. -/
example : (match handshakeKeys Toy.crypto .v12 (some [1, 2, 3]) [4, 5] freshSess with
    | .ok _ s1 => match genData Toy.crypto .v12 [6, 7] { s1 with state := .established } with
      | .ok _ s2 => match runUpdates Toy.crypto .v12 [⟨true, false, true⟩, ⟨true, true, false⟩] s2 with
        | .ok _ s3 => decide (s3.app.rsp = s2.app.rsp ∧ s3.app.req ≠ s2.app.req ∧ s2.app.req.key ≠ s2.app.rsp.key ∧
            s2.app.req.key.length = 32)
        | _ => false
      | _ => false
    | _ => false) = true := by decide +kernel
example : SameSetup freshSess freshSess ∧ freshSess.hs = {} ∧ freshSess.app = {} := ⟨⟨rfl, rfl, rfl, rfl, rfl, rfl⟩, rfl, rfl⟩

/-- A session of the kind meant by F25. -/
example : (match genData Toy.crypto .v12 [6, 7] { freshSess with aead := Aead.aes128, master := [1] } with
    | .ok _ _ => true
    | _ => false) = true := by decide +kernel
example : (∀ h k i n o, Toy.crypto.expand h k i n = some o → o.length = n) ∧
    (∀ a k iv aad pt r, Toy.crypto.seal a k iv aad pt = some r → Aead.keySize? a = some k.length) := by
  constructor
  · intro h k i n o ho
    simp only [Toy.crypto, Option.some.injEq] at ho
    rw [← ho, Toy.digest_length]
  · intro a k iv aad pt r hr
    simp only [Toy.crypto] at hr
    split at hr
    · rename_i hc; exact hc.2.1
    · simp at hr

end Verif.Props
