/-
The requests outside sessions never panic: connecting, and what a connected requester asks.
-/
import Verif.Requester.Calm
import Verif.Requester.Tails

namespace Verif
open M Res
namespace Req

variable {e : REnv} {g : BaseHash}

/-! ### Connecting -/

/-- a condition on the stored chains only. -/
def ChainsOnly (I : Ctx → Prop) : Prop := ∀ c c', I c → c'.peer.chain = c.peer.chain → I c'

theorem ChainsOnly.stable {I : Ctx → Prop} (h : ChainsOnly I) : Stable g I := fun c c' hc _ h2 _ _ => h c c' hc h2

variable {I : Ctx → Prop}

theorem reset_chain (k : ReqRespCode) (c : Ctx) : (Ctx.resetBuffers k none c).peer.chain = c.peer.chain :=
  calm_reset (g := 0) (I := fun c' => c'.peer.chain = c.peer.chain) (fun _ _ h _ h2 _ _ => h2.trans h) k none c rfl

theorem calm_change (hI : ChainsOnly I) {f : Ctx → Ctx} (h : ∀ c, (f c).peer.chain = c.peer.chain) : Calm I (M.modify f : M Status Ctx Unit) (fun _ => True) :=
  Calm.modify fun c hc => hI c _ hc (h c)

theorem calm_put' (hI : ChainsOnly I) {c t : Ctx} (hc : I c) (h : t.peer.chain = c.peer.chain) : Calm I (M.set t : M Status Ctx Unit) (fun _ => True) :=
  Calm.set (hI c t hc h)

theorem calm_getVersion (hI : ChainsOnly I) (he : Carrier e) : Calm I (getVersion e) (fun _ => True) := by
  unfold getVersion
  refine (Calm.modify fun c hc => hI c _ hc (reset_chain _ c)).bind fun _ _ => (calm_encodeAs (p := .getVersion) _ fun c _ => ⟨[0, 0], encNoParams_writes⟩).bind fun req hq =>
    (calm_transact (hI.stable (g := 0)) he hq).bind fun rsp _ => ?_
  unfold handleVersion
  refine (calm_expectAny (hI.stable (g := 0)) _ _ _).bind fun r hr => (calm_readMsg (fun _ _ => VersionRsp.read_good) hr).bind fun p _ => ?_
  refine (calm_change hI fun _ => (by rfl)).bind fun _ _ => Calm.get fun c _ => Calm.ite (fun _ => Calm.fail) fun _ => ?_
  exact (calm_change hI fun _ => (by rfl)).bind fun _ _ => (calm_appendA (hI.stable (g := 0)) _).bind fun _ _ => calm_appendA (hI.stable (g := 0)) _

theorem calm_getCapabilities (hI : ChainsOnly I) (he : Carrier e) : Calm I (getCapabilities e) (fun _ => True) := by
  unfold getCapabilities
  refine (Calm.modify fun c hc => hI c _ hc (reset_chain _ c)).bind fun _ _ => Calm.get fun c0 _ => (calm_encodeReq (p := .getCaps (capsRequest c0.config)) fun c _ => ⟨_, encGetCaps_writes c.cc _⟩).bind fun req hq =>
    (calm_transact (hI.stable (g := 0)) he hq).bind fun rsp _ => ?_
  unfold handleCapabilities
  refine (calm_expect (hI.stable (g := 0)) _ _ _).bind fun r hr => (calm_readMsg (fun _ _ => rdCaps_good _) hr).bind fun p _ => ?_
  exact (calm_change hI fun _ => (by rfl)).bind fun _ _ => (calm_appendA (hI.stable (g := 0)) _).bind fun _ _ => calm_appendA (hI.stable (g := 0)) _

theorem calm_negotiateAlgorithms (hI : ChainsOnly I) (he : Carrier e) : Calm I (negotiateAlgorithms e) (fun _ => True) := by
  unfold negotiateAlgorithms
  refine (Calm.modify fun c hc => hI c _ hc (reset_chain _ c)).bind fun _ _ => Calm.get fun c0 _ => (calm_encodeReq (p := .negAlgs (algsRequest c0.config)) fun c _ => ⟨_, algsRequest_writes c.cc _⟩).bind fun req hq =>
    (calm_transact (hI.stable (g := 0)) he hq).bind fun rsp _ => ?_
  unfold handleAlgorithms
  refine (calm_expect (hI.stable (g := 0)) _ _ _).bind fun r hr => (calm_readMsg (fun _ _ => rdAlgsRsp_good _) hr).bind fun p _ => Calm.get fun c hc => ?_
  refine (calm_put' hI hc (by rfl)).bind fun _ _ => Calm.ite (fun _ => Calm.fail) fun _ => ?_
  exact (calm_appendA (hI.stable (g := 0)) _).bind fun _ _ => calm_appendA (hI.stable (g := 0)) _

theorem calm_initConnection (hI : ChainsOnly I) (he : Carrier e) : Calm I (initConnection e) (fun _ => True) := by
  unfold initConnection
  exact (calm_getVersion hI he).bind fun _ _ => (calm_getCapabilities hI he).bind fun _ _ => calm_negotiateAlgorithms hI he

/-! ### Connected -/

/-- a connected requester: sizes of hash and signature are known, stored chains hold more than their head. -/
structure Set (n : Neg) (c : Ctx) : Prop where
  neg : c.neg = n
  chains : ∀ i ch hs, c.peer.chain i = some ch → BaseHash.size? n.baseHash = some hs → 4 + hs ≤ ch.length

variable {n : Neg} {P : List Session → Prop}

theorem set_stable : Stable g (Set n) := fun c c' h h1 h2 _ _ => ⟨h1.trans h.neg, fun i ch hs hi => h.chains i ch hs (by rw [← h2]; exact hi)⟩

/-- a condition on sessions that survives requests. -/
def Lasts (g : BaseHash) (P : List Session → Prop) : Prop := ∀ l l', P l → Lasting g l l' → P l'

/-- connected, with sessions that meet `P`. -/
structure Base (n : Neg) (P : List Session → Prop) (c : Ctx) : Prop extends Set n c where
  sess : P c.sessions

theorem base_stable (hP : Lasts g P) : Stable g (Base n P) := fun c c' h h1 h2 h3 h4 => ⟨set_stable (g := g) c c' h.toSet h1 h2 h3 h4, hP _ _ h.sess h4⟩

/-- sending a request and receiving its answer does not panic. -/
abbrev Transacts (n : Neg) (P : List Session → Prop) (e : REnv) (sid : Option UInt32) : Prop :=
  ∀ msg, msg.length ≤ 4096 → Calm (Base n P) (transact e sid msg) (fun _ => True)

theorem transacts_none (hP : Lasts g P) (he : Carrier e) : Transacts n P e none := fun _ hm => calm_transact (base_stable hP) he hm

/-- the sizes a connected requester has. -/
structure Known (n : Neg) : Prop where
  hash : (BaseHash.size? n.baseHash).isSome = true
  asym : (BaseAsym.size? n.baseAsym).isSome = true

theorem Set.hash {c : Ctx} (h : Set n c) (hk : Known n) : c.cc.hashSize?.isSome = true := by
  have := hk.hash
  rw [← h.neg] at this
  exact this

theorem Set.asym {c : Ctx} (h : Set n c) (hk : Known n) : c.cc.asymSize?.isSome = true := by
  have := hk.asym
  rw [← h.neg] at this
  exact this

theorem calm_getDigests (hP : Lasts g P) (hk : Known n) {sid : Option UInt32} (he : Transacts n P e sid) : Calm (Base n P) (getDigests e sid) (fun _ => True) := by
  unfold getDigests
  refine (Calm.modify (calm_reset (base_stable hP) _ _)).bind fun _ _ => (calm_encodeReq (p := .getDigests) fun c _ => ⟨[0, 0], encNoParams_writes⟩).bind fun req hq =>
    (he _ hq).bind fun rsp _ => ?_
  unfold handleDigests
  exact (calm_expect (base_stable hP) _ _ _).bind fun r hr => (calm_readMsg (fun c hc => Digests.read_good (hc.hash hk)) hr).bind fun p _ =>
    calm_appendBBoth (base_stable hP) _ _ _

theorem calm_partial (hP : Lasts g P) {sid : Option UInt32} (he : Transacts n P e sid) (slot : UInt8) (total offset length : UInt16) :
    Calm (Base n P) (getCertificatePartial e sid slot total offset length) (fun _ => True) := by
  unfold getCertificatePartial
  refine (calm_encodeReq (p := .getCert ⟨slot, offset, length⟩) fun c _ => ⟨_, GetCert.encode_writes _⟩).bind fun req hq => (he _ hq).bind fun rsp _ => ?_
  unfold handleCertificate
  refine (calm_expect (base_stable hP) _ _ _).bind fun r hr => (calm_readMsg (fun c hc => CertRsp.read_good) hr).bind fun p _ => ?_
  refine Calm.ite (fun _ => Calm.fail) fun _ => Calm.ite (fun _ => Calm.fail) fun _ => Calm.get fun c hc => (Calm.ofOption _).bind fun temp _ => ?_
  exact (calm_put (base_stable hP) hc (by rfl) (by rfl) (by rfl) (by rfl)).bind fun _ _ => (calm_appendBBoth (base_stable hP) _ _ _).bind fun _ _ => Calm.pure trivial

/-- certificates are located inside the array that holds them. -/
def Located (e : REnv) : Prop := ∀ d b en, e.certFromChain d 0 = some (b, en) → b ≤ en ∧ en ≤ 4096

theorem safe_verifyChain (hk : Known n) (hl : Located e) {c : Ctx} (hc : Set n c) : Safe (verifyChain e c) := by
  unfold verifyChain
  refine (safe_ofOption _ _).bind fun chain _ => (safe_unwrap (hc.hash hk)).bind fun hs _ => safe_ite (fun _ => safe_err _) fun _ => safe_ite (fun _ => safe_err _) fun _ =>
    safe_ite (fun _ => safe_err _) fun _ => (safe_ofOption _ _).bind fun p hp => ?_
  obtain ⟨b, en⟩ := p
  have hp : e.certFromChain (chain.drop (4 + hs)) 0 = some (b, en) := by
    cases ho : e.certFromChain (chain.drop (4 + hs)) 0 with
    | none => rw [ho] at hp; cases hp
    | some q => rw [ho] at hp; cases hp; rfl
  refine Safe.bind ?_ fun root _ => (safe_ofOption _ _).bind fun h _ => safe_ite (fun _ => safe_err _) fun _ => safe_ite (fun _ => safe_err _) fun _ => safe_ok _
  unfold rootSlice
  rw [if_pos (hl _ _ _ hp)]
  exact safe_ok _

theorem verifyChain_long {c : Ctx} {u : Unit} {hs : Nat} (h : verifyChain e c = .ok u) (hh : c.cc.hashSize? = some hs) :
    ∀ ch, c.peer.temp = some ch → 4 + hs ≤ ch.length := by
  intro ch hch
  unfold verifyChain at h
  rw [hch, hh] at h
  change (if ch.length ≤ 4 + hs then _ else _) = _ at h
  by_cases hl : ch.length ≤ 4 + hs
  · rw [if_pos hl] at h; cases h
  · omega

theorem calm_storeChain (hP : Lasts g P) (hk : Known n) (hl : Located e) (slot : Fin 8) (total : UInt16) : Calm (Base n P) (storeChain e slot total) (fun _ => True) := by
  unfold storeChain
  refine Calm.get fun c hc => Calm.ite (fun _ => ?_) fun _ => ?_
  · exact (calm_put (base_stable hP) hc (by rfl) (by rfl) (by rfl) (by rfl)).bind fun _ _ => Calm.fail
  · have hs := safe_verifyChain hk hl hc.toSet
    cases hv : verifyChain e c with
    | panic => exact absurd hv hs
    | err st => exact (calm_put (base_stable hP) hc (by rfl) (by rfl) (by rfl) (by rfl)).bind fun _ _ => Calm.fail
    | ok u =>
      refine Calm.set ⟨⟨hc.neg, fun i ch k hi hh => ?_⟩, hc.sess⟩
      change (if i = slot then c.peer.temp else c.peer.chain i) = some ch at hi
      by_cases hii : i = slot
      · rw [if_pos hii] at hi
        refine verifyChain_long hv ?_ ch hi
        rw [← hc.neg] at hh
        exact hh
      · rw [if_neg hii] at hi
        exact hc.chains i ch k hi hh

theorem safe_peerCerts (hk : Known n) {c : Ctx} (hc : Set n c) {slot : UInt8} (hs : slot < 8) : Safe (peerCerts c slot) := by
  unfold peerCerts
  have h1 : (Ctx.slot? slot).isSome = true := by
    unfold Ctx.slot?
    rw [dif_pos (by simpa using UInt8.lt_iff_toNat_lt.1 hs)]
    rfl
  refine (safe_unwrap h1).bind fun i _ => (safe_ofOption _ _).bind fun ch hch => (safe_unwrap (hc.hash hk)).bind fun k hkk => ?_
  have hch : c.peer.chain i = some ch := by
    cases ho : c.peer.chain i with
    | none => rw [ho] at hch; cases hch
    | some q => rw [ho] at hch; cases hch; rfl
  have hkk : BaseHash.size? n.baseHash = some k := by
    rw [← hc.neg]
    change Res.unwrap (BaseHash.size? c.neg.baseHash) = .ok k at hkk
    cases ho : BaseHash.size? c.neg.baseHash with
    | none => rw [ho] at hkk; cases hkk
    | some q => rw [ho] at hkk; cases hkk; rfl
  have := hc.chains i ch k hch hkk
  rw [if_neg (by omega)]
  exact safe_ok _

theorem safe_verifyWith (c : Ctx) (certs m sig : Bytes) : Safe (verifyWith e c certs m sig) := by
  unfold verifyWith
  exact safe_ite (fun _ => safe_ok _) fun _ => safe_err _

theorem tail_short {bytes pre sig : Bytes} {r r' : Reader} {k : Nat} (hr : Past bytes r) (h : r.After (pre ++ sig) r') (hk : sig.length = k) :
    k ≤ (bytes.take r'.used).length := by
  obtain ⟨h1, h2⟩ := h
  have := congrArg List.length h1
  unfold Past at hr
  simp only [List.length_append, List.length_take] at *
  omega

theorem sig_size {c c' : Ctx} (h : Set n c) (h' : Set n c') {asym : Nat} {d : Bytes} (ha : c'.cc.asymSize? = some asym) (hd : c.cc.SigOk d) : d.length = asym := by
  unfold Cc.SigOk at hd
  have h1 : BaseAsym.size? c.neg.baseAsym = some d.length := hd
  have h2 : BaseAsym.size? c'.neg.baseAsym = some asym := ha
  rw [h.neg] at h1
  rw [h'.neg] at h2
  rw [h1] at h2
  exact Option.some.inj h2

theorem calm_challenge (hP : Lasts g P) (hk : Known n) (he : Carrier e) (slot : UInt8) (t : SummaryHashType) : Calm (Base n P) (challenge e slot t) (fun _ => True) := by
  unfold challenge
  refine Calm.ite (fun _ => Calm.fail) fun hs => (Calm.modify (calm_reset (base_stable hP) _ _)).bind fun _ _ => (Calm.ofOption _).bind fun nonce _ =>
    (calm_encodeReq (p := .challenge ⟨slot, t, nonce⟩) fun c _ => ⟨_, Challenge.encode_writes _⟩).bind fun req hq => (transacts_none hP he _ hq).bind fun rsp _ => ?_
  unfold handleChallengeAuth
  refine (Calm.modify (f := wantSummary t) fun c hc => (base_stable hP) c _ hc rfl rfl rfl (lasting_refl _)).bind fun _ _ => (calm_expect (base_stable hP) _ _ _).bind fun r hr =>
    (calm_readMsg (fun c hc => ChallengeAuth.read_good (hc.hash hk) (hc.asym hk)) hr).bind fun p hp => Calm.get fun c hc =>
    (Calm.unwrap (hc.asym hk)).bind fun asym ha => ?_
  obtain ⟨c1, r', hc1, hx, hp2⟩ := hp
  obtain ⟨g1, pre, g2⟩ := ChallengeAuth.read_tail hx
  refine (Calm.lift (Rsp.safe_dropTail (hp2 ▸ tail_short hr g2 (sig_size hc1.toSet hc.toSet ha g1)))).bind fun body _ => ?_
  refine (calm_appendM1M2 (base_stable hP) _ _).bind fun _ _ => (calm_appendM1M2 (base_stable hP) _ _).bind fun _ _ => ?_
  unfold challengeCheck
  refine Calm.get fun c hc => ?_
  have hv : Safe (challengeVerify e slot p.1.signature c) := by
    unfold challengeVerify
    exact (safe_ofOption _ _).bind fun _ _ => (safe_ofOption _ _).bind fun _ _ => (safe_peerCerts hk hc.toSet (UInt8.not_le.1 hs)).bind fun _ _ =>
      (Rsp.safe_challengeMsg _ _).bind fun _ _ => safe_verifyWith _ _ _ _
  cases hr : challengeVerify e slot p.1.signature c with
  | panic => exact absurd hr hv
  | err st => exact (Calm.modify (f := Ctx.resetM1M2) fun c hc => (base_stable hP) c _ hc rfl rfl rfl (lasting_refl _)).bind fun _ _ => Calm.fail
  | ok u => exact Calm.modify (f := Ctx.resetM1M2) fun c hc => (base_stable hP) c _ hc rfl rfl rfl (lasting_refl _)

/-! ### Measurements -/

/-- connected, and a signature is or is not expected. -/
def SetSig (n : Neg) (P : List Session → Prop) (b : Bool) (c : Ctx) : Prop := Base n P c ∧ c.rt.needSig = b

theorem setSig_stable (hP : Lasts g P) {b : Bool} : Stable g (SetSig n P b) := fun c c' h h1 h2 h3 h4 => ⟨base_stable hP c c' h.1 h1 h2 h3 h4, h3.trans h.2⟩

theorem safe_measurementVerify {sid : Option UInt32} (hk : Known n) {c : Ctx} (hc : Set n c) {slot : UInt8} (hs : slot < 8) (sig : Bytes) : Safe (measurementVerify e sid slot sig c) := by
  unfold measurementVerify
  have h1 : Safe (l1l2Of c sid) := by
    unfold l1l2Of
    cases sid with
    | none => exact safe_ofOption _ _
    | some i =>
      dsimp only
      cases c.session? i with
      | none => exact safe_err _
      | some s => exact safe_ofOption _ _
  exact h1.bind fun _ _ => (safe_ofOption _ _).bind fun _ _ => (safe_peerCerts hk hc hs).bind fun _ _ =>
      (Rsp.safe_measurementsMsg _ _).bind fun _ _ => safe_verifyWith _ _ _ _

theorem calm_handleMeasurements {sid : Option UInt32} (hP : Lasts g P) (hk : Known n) (hm : (MeasHash.size? n.measHash).isSome = true) {slot : UInt8} (hs : slot < 8) (attr : UInt8) (op : MeasOperation) (req bytes : Bytes) :
    Calm (Base n P) (handleMeasurements e sid slot attr op req bytes) (fun _ => True) := by
  unfold handleMeasurements
  intro c0 hc0
  refine tot_modify_bind ?_
  refine Tot.mono (Q := fun a c' => SetSig n P (signatureRequested attr) c' ∧ True) (E := fun _ c' => SetSig n P (signatureRequested attr) c') ?_
    (fun _ _ h => ⟨h.1.1, trivial⟩) fun _ _ h => h.1
  refine (?_ : Calm (SetSig n P (signatureRequested attr)) _ (fun _ => True)) _ ⟨set_stable' hc0, rfl⟩
  refine (calm_expect (setSig_stable hP) _ _ _).bind fun r hr =>
    (calm_readMsg (fun c hc => Meas.read_good (by have := hm; rw [← hc.1.neg] at this; exact this) fun _ => hc.1.asym hk) hr).bind fun p hp => ?_
  refine (Calm.modify fun c hc => ?_).bind fun _ _ => Calm.get fun c hc => (Calm.unwrap (hc.1.asym hk)).bind fun asym ha => ?_
  · unfold noteChanged
    split
    · exact setSig_stable hP c _ hc rfl rfl rfl (lasting_refl _)
    · exact hc
  obtain ⟨c1, r', hc1, hx, hp2⟩ := hp
  obtain ⟨g1, k, q, g2⟩ := Meas.read_tail hx
  have hb : Safe (measurementBody (signatureRequested attr) asym p.2) := by
    unfold measurementBody
    refine safe_ite (fun hsg => ?_) fun _ => safe_ok _
    unfold OptOk at g1
    rw [if_pos (show c1.cc.needSig = true from hc1.2.trans hsg)] at g1
    exact Rsp.safe_dropTail (hp2 ▸ tail_short hr g2 (sig_size hc1.1.toSet hc.1.toSet ha g1))
  refine (Calm.lift hb).bind fun body _ => (calm_appendM (setSig_stable hP) _ _).bind fun _ _ => (calm_appendM (setSig_stable hP) _ _).bind fun _ _ => ?_
  refine Calm.bind (P := fun _ => True) ?_ fun _ _ => Calm.pure trivial
  unfold measurementCheckIf
  refine Calm.ite (fun _ => ?_) fun _ => Calm.pure trivial
  unfold measurementCheck
  refine Calm.get fun c hc => ?_
  have hv : Safe (measurementVerify e sid slot p.1.signature c) := safe_measurementVerify hk hc.1.toSet hs _
  cases hr : measurementVerify e sid slot p.1.signature c with
  | panic => exact absurd hr hv
  | err st => exact (Calm.modify (calm_resetM (setSig_stable hP) _)).bind fun _ _ => Calm.fail
  | ok u => exact Calm.modify (calm_resetM (setSig_stable hP) _)
where
  set_stable' {c : Ctx} {b : Bool} (h : Base n P c) : Base n P { c with rt := { c.rt with needSig := b } } := ⟨⟨h.neg, h.chains⟩, h.sess⟩

theorem calm_getMeasurements (hP : Lasts g P) (hk : Known n) (hm : (MeasHash.size? n.measHash).isSome = true) {sid : Option UInt32} (he : Transacts n P e sid) (slot attr : UInt8) (op : MeasOperation) :
    Calm (Base n P) (getMeasurements e sid slot attr op) (fun _ => True) := by
  unfold getMeasurements
  refine Calm.ite (fun _ => Calm.fail) fun hs => (Calm.modify (calm_reset (base_stable hP) _ _)).bind fun _ _ => (Calm.ofOption _).bind fun nonce _ =>
    (calm_encodeReq (p := .getMeas ⟨attr, op, nonce, slot⟩) fun c _ => ⟨_, GetMeas.encode_writes c.cc _⟩).bind fun req hq => (he _ hq).bind fun rsp _ => ?_
  exact calm_handleMeasurements hP hk hm (UInt8.not_le.1 hs) attr op req rsp

end Req
end Verif
