/-
C14–C17: the secured-message record layer.
-/
import Mathlib.Data.Nat.ModEq
import Verif.Session.DirLemmas
import Verif.Spec.Toy

namespace Verif.Props
open Verif Verif.Session

/-! ### Specification vocabulary -/

/-- Byte `i` (little endian) of a sequence number. -/
def seqByteSpec (seq : UInt64) (i : Nat) : UInt8 := UInt8.ofNat (seq.toNat / 256 ^ i)

/-- The record header of DSP0277 as used here: session id, `n` low bytes of the sequence number, length of what follows
(ciphertext and tag). -/
def recordHeader (id : UInt32) (seq : UInt64) (n : Nat) (len : Nat) : Bytes :=
  putU32 id ++ (List.range n).map (seqByteSpec seq) ++ putU16 (UInt16.ofNat len)

/-- The nonce of message number `seq`: the salt with the eight little-endian bytes of `seq` xored into its first eight
bytes. -/
def nonceSpec (salt : Bytes) (seq : UInt64) : Bytes :=
  salt.mapIdx fun i b => if i < 8 then b ^^^ seqByteSpec seq i else b

/-- Two endpoints hold the same keys for the direction `isReq` (requester to responder iff `true`). -/
structure SameChannel (s t : Session) (isReq : Bool) : Prop where
  state : s.state = t.state
  started : s.state ≠ .notStarted
  id : s.id = t.id
  aead : s.aead = t.aead
  seqCount : s.seqCount = t.seqCount
  keys : s.dir isReq = t.dir isReq

theorem seqByteSpec_eq {seq : UInt64} {i : Nat} (h : i < 8) : seqByteSpec seq i = seqByte seq i := by
  apply UInt8.toNat_inj.mp
  rw [seqByte_eq _ _ h, seqByteSpec, UInt8.toNat_ofNat']

theorem recordHeader_eq {id : UInt32} {seq : UInt64} {n len : Nat} {l : UInt16} (hn : n ≤ 8) (hl : l.toNat = len) :
    recordHeader id seq n len = header id seq n l := by
  unfold recordHeader header seqBytes
  have : (List.range n).map (seqByteSpec seq) = (List.range n).map (seqByte seq) := by
    apply List.map_congr_left
    intro i hi
    exact seqByteSpec_eq (by have := List.mem_range.mp hi; omega)
  rw [this, ← hl]; simp

theorem nonceSpec_eq (salt : Bytes) (seq : UInt64) : nonceSpec salt seq = nonce salt seq := by
  unfold nonceSpec nonce
  congr 1; funext i b
  by_cases h : i < 8
  · simp [h, seqByteSpec_eq h]
  · simp [h]

theorem tag16 {c : Crypto} (hc : c.AeadLaws) {a : Aead} {k iv aad pt ct tag : Bytes} (h : c.seal a k iv aad pt = some (ct, tag)) :
    Aead.tagSize? a = some 16 ∧ ct.length = pt.length ∧ tag.length = 16 := by
  obtain ⟨h1, h2⟩ := hc.seal_size _ _ _ _ _ _ _ h
  have := tagSize_eq h2.symm
  rw [this] at h2
  exact ⟨h2.symm, h1, this⟩

/-! ### C14 -/

/-- C14: encoding succeeds for every payload up to 4158 bytes, given room in the caller's buffer, a sequence number that is
not exhausted, and an AEAD that seals; the result is the record header, the ciphertext and the tag, the plaintext being
the two-byte payload length and the payload; the sequence number of that direction advances by one and nothing else
changes. -/
theorem C14_encode (c : Crypto) (hc : c.AeadLaws) (s : Session) (app : Bytes) (cap : Nat) (isReq : Bool) (ct tag : Bytes)
    (hstart : s.state ≠ .notStarted) (hn : s.seqCount.toNat ≤ 8) (happ : app.length + 2 ≤ 4160)
    (hseq : (s.dir isReq).seq ≠ 0xFFFFFFFFFFFFFFFF)
    (hcap : 6 + s.seqCount.toNat + 2 + app.length + 16 ≤ cap)
    (hseal : c.seal s.aead (s.dir isReq).key (nonceSpec (s.dir isReq).salt (s.dir isReq).seq)
      (recordHeader s.id (s.dir isReq).seq s.seqCount.toNat (app.length + 18))
      (putU16 (UInt16.ofNat app.length) ++ app) = some (ct, tag)) :
    encodeSecured c app cap isReq s = .ok
      (recordHeader s.id (s.dir isReq).seq s.seqCount.toNat (app.length + 18) ++ ct ++ tag) (s.bump isReq) := by
  obtain ⟨ht, hct, htag⟩ := tag16 hc hseal
  have hrl := recLen_toNat (n := app.length) (by unfold bufSize; omega)
  rw [recordHeader_eq hn hrl, nonceSpec_eq] at hseal
  rw [recordHeader_eq hn hrl]
  unfold encodeSecured
  rw [dispatchDir_ok]
  refine ⟨hstart, ?_, rfl⟩
  rw [encodeMsg_ok]
  refine ⟨ht, hseq, hn, by unfold bufSize; omega, by omega, ct, tag, hseal, ?_, htag, rfl⟩
  rw [hct]; simp; omega

/-- C14: whatever one endpoint encodes, an endpoint with the same keys decodes to exactly the same bytes (also when the
transport appended padding after the record), and afterwards the two endpoints still hold the same keys, so the next
message works too. -/
theorem C14_round_trip (c : Crypto) (hc : c.AeadLaws) (s t s' : Session) (isReq : Bool) (app out pad : Bytes)
    (cap cap' : Nat) (hch : SameChannel s t isReq) (henc : encodeSecured c app cap isReq s = .ok out s')
    (hcap : app.length ≤ cap') :
    ∃ t', decodeSecured c (out ++ pad) cap' isReq t = .ok app t' ∧ SameChannel s' t' isReq := by
  unfold encodeSecured at henc
  rw [dispatchDir_ok] at henc
  obtain ⟨hst, henc, rfl⟩ := henc
  rw [encodeMsg_ok] at henc
  obtain ⟨ht, hseq, hn, hb, hcp, ct, tag, hseal, hct, htag, rfl⟩ := henc
  refine ⟨t.bump isReq, ?_, ?_⟩
  · unfold decodeSecured
    rw [dispatchDir_ok]
    refine ⟨hch.state ▸ hst, ?_, rfl⟩
    rw [decodeMsg_ok, ← hch.aead, ← hch.keys, ← hch.id, ← hch.seqCount]
    refine ⟨ht, hseq, ct, tag, pad, _, recLen app.length 16, rfl, htag, ?_, by omega, hc.open_seal _ _ _ _ _ _ _ hseal,
      UInt16.ofNat app.length, [], by simp, ?_, hcap⟩
    · rw [recLen_toNat hb]; omega
    · rw [UInt16.toNat_ofNat']; unfold bufSize at hb; omega
  · exact ⟨by simp [hch.state], by simpa using hst, by simp [hch.id], by simp [hch.aead], by simp [hch.seqCount],
      by rw [bump_dir_same s isReq hst, bump_dir_same t isReq (hch.state ▸ hst), hch.keys]⟩

/-- Encode a list of payloads one after the other. -/
def encodeAll (c : Crypto) (isReq : Bool) (cap : Nat) : List Bytes → M Status Session (List Bytes)
  | [] => pure []
  | a :: as => do
    let o ← encodeSecured c a cap isReq
    let os ← encodeAll c isReq cap as
    pure (o :: os)

/-- Decode a list of records one after the other. -/
def decodeAll (c : Crypto) (isReq : Bool) (cap : Nat) : List Bytes → M Status Session (List Bytes)
  | [] => pure []
  | m :: ms => do
    let o ← decodeSecured c m cap isReq
    let os ← decodeAll c isReq cap ms
    pure (o :: os)

/-- C14: a stream of any length arrives unchanged. -/
theorem C14_stream (c : Crypto) (hc : c.AeadLaws) (isReq : Bool) (cap cap' : Nat) (apps : List Bytes)
    (s t s' : Session) (outs : List Bytes) (hch : SameChannel s t isReq)
    (henc : encodeAll c isReq cap apps s = .ok outs s') (hcap : ∀ a ∈ apps, a.length ≤ cap') :
    ∃ t', decodeAll c isReq cap' outs t = .ok apps t' ∧ SameChannel s' t' isReq := by
  induction apps generalizing s t outs with
  | nil =>
    simp only [encodeAll, M.pure_apply, Out.ok.injEq] at henc
    obtain ⟨rfl, rfl⟩ := henc
    exact ⟨t, rfl, hch⟩
  | cons a as ih =>
    simp only [encodeAll, M.bind_ok, M.pure_ok] at henc
    obtain ⟨o, s1, h1, os, s2, h2, rfl, rfl⟩ := henc
    obtain ⟨t1, d1, ch1⟩ := C14_round_trip c hc s t s1 isReq a o [] cap cap' hch h1 (hcap a (by simp))
    rw [List.append_nil] at d1
    obtain ⟨t2, d2, ch2⟩ := ih s1 t1 os ch1 h2 (fun x hx => hcap x (by simp [hx]))
    exact ⟨t2, by simp [decodeAll, d1, d2], ch2⟩

/-- C14: before a session exists nothing can be encoded or decoded. -/
theorem C14_not_started (c : Crypto) (s : Session) (m : Bytes) (cap : Nat) (isReq : Bool) (h : s.state = .notStarted) :
    encodeSecured c m cap isReq s = .err .invalidStateLocal s ∧ decodeSecured c m cap isReq s = .err .invalidStateLocal s :=
  ⟨dispatchDir_notStarted _ _ _ h, dispatchDir_notStarted _ _ _ h⟩

/-! ### C15 -/

/-- C15: exactly what is accepted.  A record is accepted with payload `app` iff it is the header this session expects next
(its id, the bytes of its sequence number, the length of ciphertext and tag), followed by a ciphertext and a 16-byte tag
(and possibly padding) which the AEAD opens under the key and the nonce of the current sequence number with that header
as associated data, to a plaintext whose first two bytes are the length of `app` and whose next bytes are `app`. -/
theorem C15_accepted_iff (c : Crypto) (s : Session) (rec app : Bytes) (cap : Nat) (isReq : Bool)
    (hn : s.seqCount.toNat ≤ 8) :
    (∃ s', decodeSecured c rec cap isReq s = .ok app s') ↔
      s.state ≠ .notStarted ∧ Aead.tagSize? s.aead = some 16 ∧ (s.dir isReq).seq ≠ 0xFFFFFFFFFFFFFFFF ∧
      ∃ ct tag pad pt : Bytes,
        rec = recordHeader s.id (s.dir isReq).seq s.seqCount.toNat (ct.length + 16) ++ ct ++ tag ++ pad ∧
        tag.length = 16 ∧ ct.length ≤ 4160 ∧
        c.open s.aead (s.dir isReq).key (nonceSpec (s.dir isReq).salt (s.dir isReq).seq)
          (recordHeader s.id (s.dir isReq).seq s.seqCount.toNat (ct.length + 16)) ct tag = some pt ∧
        ∃ tail, pt = putU16 (UInt16.ofNat app.length) ++ app ++ tail ∧ app.length < 2 ^ 16 ∧ app.length ≤ cap := by
  unfold decodeSecured
  constructor
  · rintro ⟨s', h⟩
    rw [dispatchDir_ok] at h
    obtain ⟨hst, h, rfl⟩ := h
    rw [decodeMsg_ok] at h
    obtain ⟨ht, hseq, ct, tag, pad, pt, len, hrec, htag, hlen, hct, hopen, al, tail, hpt, hal, hcap⟩ := h
    rw [← recordHeader_eq hn hlen] at hrec hopen
    rw [← nonceSpec_eq] at hopen
    refine ⟨hst, ht, hseq, ct, tag, pad, pt, hrec, htag, hct, hopen, tail, ?_, ?_, hcap⟩
    · rw [hpt, ← hal]; simp
    · rw [← hal]; exact al.toNat_lt
  · rintro ⟨hst, ht, hseq, ct, tag, pad, pt, hrec, htag, hct, hopen, tail, hpt, h16, hcap⟩
    refine ⟨s.bump isReq, ?_⟩
    rw [dispatchDir_ok]
    refine ⟨hst, ?_, rfl⟩
    rw [decodeMsg_ok]
    have hlen : (UInt16.ofNat (ct.length + 16)).toNat = ct.length + 16 := by
      rw [UInt16.toNat_ofNat']; omega
    rw [recordHeader_eq hn hlen] at hrec hopen
    rw [nonceSpec_eq] at hopen
    refine ⟨ht, hseq, ct, tag, pad, pt, _, hrec, htag, hlen, hct, hopen, _, tail, hpt, ?_, hcap⟩
    rw [UInt16.toNat_ofNat']; omega

theorem prefix_of_accept {c : Crypto} {s s' : Session} {rec app : Bytes} {cap : Nat} {isReq : Bool}
    (h : decodeSecured c rec cap isReq s = .ok app s') :
    ∃ rest, rec = putU32 s.id ++ (seqBytes (s.dir isReq).seq s.seqCount.toNat ++ rest) := by
  unfold decodeSecured at h
  rw [dispatchDir_ok] at h
  obtain ⟨_, h, rfl⟩ := h
  rw [decodeMsg_ok] at h
  obtain ⟨_, _, ct, tag, pad, pt, len, hrec, _⟩ := h
  exact ⟨putU16 len ++ ct ++ tag ++ pad, by rw [hrec]; simp [header]⟩

/-- C15: a record for another session is refused. -/
theorem C15_other_session (c : Crypto) (s s' : Session) (id : UInt32) (tail app : Bytes) (cap : Nat) (isReq : Bool)
    (hid : id ≠ s.id) : decodeSecured c (putU32 id ++ tail) cap isReq s ≠ .ok app s' := by
  intro h
  obtain ⟨rest, hr⟩ := prefix_of_accept h
  exact hid (putU32_inj (List.append_inj_left hr rfl))

/-- C15: a record carrying other sequence-number bytes is refused. -/
theorem C15_other_sequence (c : Crypto) (s s' : Session) (id : UInt32) (sb tail app : Bytes) (cap : Nat) (isReq : Bool)
    (hn : s.seqCount.toNat ≤ 8) (hl : sb.length = s.seqCount.toNat)
    (hsb : sb ≠ (List.range s.seqCount.toNat).map (seqByteSpec (s.dir isReq).seq)) :
    decodeSecured c (putU32 id ++ sb ++ tail) cap isReq s ≠ .ok app s' := by
  intro h
  obtain ⟨rest, hr⟩ := prefix_of_accept h
  rw [List.append_assoc] at hr
  have := List.append_inj_right hr rfl
  have := List.append_inj_left this (by simp [hl])
  apply hsb
  rw [this]
  unfold seqBytes
  apply List.map_congr_left
  intro i hi
  exact (seqByteSpec_eq (by have := List.mem_range.mp hi; omega)).symm

/-- C15: a record whose length field exceeds what was received, or leaves no room for the tag, is refused. -/
theorem C15_bad_length (c : Crypto) (s s' : Session) (hdr tail app : Bytes) (len : UInt16) (cap : Nat) (isReq : Bool)
    (hl : hdr.length = 4 + s.seqCount.toNat) (hlen : tail.length < len.toNat ∨ len.toNat < 16) :
    decodeSecured c (hdr ++ putU16 len ++ tail) cap isReq s ≠ .ok app s' := by
  intro h
  unfold decodeSecured at h
  rw [dispatchDir_ok] at h
  obtain ⟨_, h, rfl⟩ := h
  rw [decodeMsg_ok] at h
  obtain ⟨_, _, ct, tag, pad, pt, len', hrec, htag, hl', _⟩ := h
  have hrec' : hdr ++ (putU16 len ++ tail) =
      (putU32 s.id ++ seqBytes (s.dir isReq).seq s.seqCount.toNat) ++ (putU16 len' ++ (ct ++ tag ++ pad)) := by
    simpa [header] using hrec
  have h1 := List.append_inj_right hrec' (by simp [hl])
  have h2 := putU16_inj (List.append_inj_left h1 rfl)
  have h3 := List.append_inj_right h1 rfl
  subst h2
  have := congrArg List.length h3
  simp at this
  omega

/-- C15: decoding never changes anything but the receiving counter of the direction, which advances by one. -/
theorem C15_effect (c : Crypto) (s s' : Session) (rec : Bytes) (cap : Nat) (isReq : Bool)
    (h : (∃ a, decodeSecured c rec cap isReq s = .ok a s') ∨ (∃ e, decodeSecured c rec cap isReq s = .err e s')) :
    s' = s ∨ s' = s.bump isReq := by
  rcases h with ⟨a, h⟩ | ⟨e, h⟩
  · exact .inr (dispatchDir_ok.mp h).2.2
  · rcases dispatchDir_err h with ⟨_, rfl⟩ | ⟨_, _, rfl⟩
    · exact .inl rfl
    · exact .inr rfl

/-! ### Histories of one endpoint -/

/-- What one endpoint of a channel does between two key changes. -/
inductive ChanOp where
  | send (app : Bytes) (cap : Nat)
  | recv (rec : Bytes) (cap : Nat)

/-- The endpoint `me` (`true`: requester) sends in its own direction and receives in the other. -/
def chanStep (c : Crypto) (me : Bool) : ChanOp → M Status Session Bytes
  | .send app cap => encodeSecured c app cap me
  | .recv rec cap => decodeSecured c rec cap (!me)

/-- Results of a history; a panic ends it. -/
def chanRun (c : Crypto) (me : Bool) : List ChanOp → Session → List (Except Status Bytes)
  | [], _ => []
  | op :: ops, s =>
    match chanStep c me op s with
    | .ok a s' => .ok a :: chanRun c me ops s'
    | .err e s' => .error e :: chanRun c me ops s'
    | .panic => []

/-- number of sends / receives among the first `i` operations -/
def sendsBefore (ops : List ChanOp) (i : Nat) : Nat := (ops.take i).countP fun | .send .. => true | _ => false
/-- number of receives among the first `i` operations -/
def recvsBefore (ops : List ChanOp) (i : Nat) : Nat := (ops.take i).countP fun | .recv .. => true | _ => false

/-- Everything of a session that stays fixed on a channel. -/
structure ChanInv (me : Bool) (s0 s : Session) (ns nr : Nat) : Prop where
  state : s.state = s0.state
  id : s.id = s0.id
  aead : s.aead = s0.aead
  seqCount : s.seqCount = s0.seqCount
  out : s.dir me = { s0.dir me with seq := (s0.dir me).seq + UInt64.ofNat ns }
  inn : s.dir (!me) = { s0.dir (!me) with seq := (s0.dir (!me)).seq + UInt64.ofNat nr }

/-- The direction an operation of endpoint `me` uses. -/
def opDir (me : Bool) : ChanOp → Bool
  | .send .. => me
  | .recv .. => !me

theorem chanStep_inv (c : Crypto) (me : Bool) (op : ChanOp) (s s' : Session) (hst : s.state ≠ .notStarted)
    (h : (∃ a, chanStep c me op s = .ok a s') ∨ ∃ e, chanStep c me op s = .err e s') :
    s' = s.bump (opDir me op) := by
  cases op with
  | send app cap =>
    rcases h with ⟨a, h⟩ | ⟨e, h⟩
    · exact (dispatchDir_ok.mp h).2.2
    · rcases dispatchDir_err h with ⟨h, _⟩ | ⟨_, _, rfl⟩
      · exact absurd h hst
      · rfl
  | recv rec cap =>
    rcases h with ⟨a, h⟩ | ⟨e, h⟩
    · exact (dispatchDir_ok.mp h).2.2
    · rcases dispatchDir_err h with ⟨h, _⟩ | ⟨_, _, rfl⟩
      · exact absurd h hst
      · rfl

/-- The state in which operation `i` of a history runs. -/
theorem chanRun_at (c : Crypto) (me : Bool) (ops : List ChanOp) (s : Session) (hst : s.state ≠ .notStarted)
    (i : Nat) (a : Bytes) (h : (chanRun c me ops s)[i]? = some (.ok a)) :
    ∃ (op : ChanOp) (s1 s2 : Session), ops[i]? = some op ∧ chanStep c me op s1 = .ok a s2 ∧
      ChanInv me s s1 (sendsBefore ops i) (recvsBefore ops i) := by
  induction ops generalizing s i with
  | nil => simp [chanRun] at h
  | cons op ops ih =>
    cases i with
    | zero =>
      refine ⟨op, s, ?_⟩
      unfold chanRun at h
      cases hs : chanStep c me op s with
      | ok b s' =>
        rw [hs] at h; simp at h; subst h
        exact ⟨s', rfl, rfl, ⟨rfl, rfl, rfl, rfl, by simp [sendsBefore], by simp [recvsBefore]⟩⟩
      | err e s' => rw [hs] at h; simp at h
      | panic => rw [hs] at h; simp at h
    | succ i =>
      have key : ∃ s', s' = s.bump (opDir me op) ∧ (chanRun c me ops s')[i]? = some (.ok a) := by
        unfold chanRun at h
        cases hs : chanStep c me op s with
        | ok b s' => rw [hs] at h; exact ⟨s', chanStep_inv c me op s s' hst (.inl ⟨_, hs⟩), by simpa using h⟩
        | err e s' => rw [hs] at h; exact ⟨s', chanStep_inv c me op s s' hst (.inr ⟨_, hs⟩), by simpa using h⟩
        | panic => rw [hs] at h; simp at h
      obtain ⟨s', hs', h'⟩ := key
      have hst' : s'.state ≠ .notStarted := by rw [hs']; simpa using hst
      obtain ⟨op', s1, s2, ho, hstep, hinv⟩ := ih s' hst' i h'
      refine ⟨op', s1, s2, by simpa using ho, hstep, ?_⟩
      have h1 := hinv.out
      have h2 := hinv.inn
      refine ⟨by rw [hinv.state, hs']; simp, by rw [hinv.id, hs']; simp, by rw [hinv.aead, hs']; simp,
        by rw [hinv.seqCount, hs']; simp, ?_, ?_⟩
      · rw [h1, hs']
        cases op with
        | send app cap =>
          simp only [opDir, bump_dir_same s me hst, sendsBefore, List.take_succ_cons, List.countP_cons, SecretParam.mk.injEq, true_and, if_true]
          rw [UInt64.ofNat_add, UInt64.add_assoc]; congr 1; exact UInt64.add_comm _ _
        | recv rec cap =>
          have := bump_dir_other s (!me)
          rw [Bool.not_not] at this
          simp only [opDir, this, sendsBefore, List.take_succ_cons, List.countP_cons]
          simp
      · rw [h2, hs']
        cases op with
        | send app cap =>
          simp only [opDir, bump_dir_other s me, recvsBefore, List.take_succ_cons, List.countP_cons]
          simp
        | recv rec cap =>
          simp only [opDir, bump_dir_same s (!me) hst, recvsBefore, List.take_succ_cons, List.countP_cons, SecretParam.mk.injEq, true_and, if_true]
          rw [UInt64.ofNat_add, UInt64.add_assoc]; congr 1; exact UInt64.add_comm _ _

theorem sendsBefore_le (ops : List ChanOp) (i : Nat) : sendsBefore ops i ≤ ops.length := by
  unfold sendsBefore
  exact Nat.le_trans List.countP_le_length (by simp)
theorem recvsBefore_le (ops : List ChanOp) (i : Nat) : recvsBefore ops i ≤ ops.length := by
  unfold recvsBefore
  exact Nat.le_trans List.countP_le_length (by simp)

theorem countP_take_lt {p : ChanOp → Bool} {ops : List ChanOp} {i j : Nat} (hij : i < j) {op : ChanOp} (ho : ops[i]? = some op)
    (hp : p op = true) : (ops.take i).countP p < (ops.take j).countP p := by
  have hi : i < ops.length := by
    rw [List.getElem?_eq_some_iff] at ho; exact ho.1
  have h1 : ops.take (i + 1) = ops.take i ++ [op] := by
    rw [List.take_add_one, ho]; rfl
  have h2 : (ops.take (i+1)).countP p ≤ (ops.take j).countP p := by
    have : ops.take (i+1) <+: ops.take j := by
      rw [List.prefix_take_iff]; exact ⟨List.take_prefix _ _, by simp; omega⟩
    exact this.sublist.countP_le
  rw [h1, List.countP_append] at h2
  simp [hp] at h2
  omega

theorem seq_add_inj {a : UInt64} {m n : Nat} (hm : m < 2 ^ 64) (hn : n < 2 ^ 64) (h : a + UInt64.ofNat m = a + UInt64.ofNat n) :
    m = n := by
  have h' : UInt64.ofNat m = UInt64.ofNat n := by simpa using h
  have := congrArg UInt64.toNat h'
  rw [UInt64.toNat_ofNat', UInt64.toNat_ofNat'] at this
  omega

/-! ### C16 -/

/-- C16: over any history of fewer than 2^64 operations of one endpoint, there are pairwise different nonces for the
messages it sends, and every record it emits was sealed under the nonce of its message.  (The salt is the 12-byte derived
iv; eight bytes are enough.) -/
theorem C16_nonces_never_repeat (c : Crypto) (me : Bool) (ops : List ChanOp) (s : Session) (hst : s.state ≠ .notStarted)
    (hsalt : 8 ≤ (s.dir me).salt.length) (hlen : ops.length < 2 ^ 64) :
    ∃ nonceOf : Nat → Bytes,
      (∀ i j app app' cap cap', i < j → ops[i]? = some (.send app cap) → ops[j]? = some (.send app' cap') →
        nonceOf i ≠ nonceOf j) ∧
      ∀ i app cap out, ops[i]? = some (.send app cap) → (chanRun c me ops s)[i]? = some (.ok out) →
        ∃ hdr ct tag, out = hdr ++ ct ++ tag ∧
          c.seal s.aead (s.dir me).key (nonceOf i) hdr (putU16 (UInt16.ofNat app.length) ++ app) = some (ct, tag) := by
  refine ⟨fun i => nonceSpec (s.dir me).salt ((s.dir me).seq + UInt64.ofNat (sendsBefore ops i)), ?_, ?_⟩
  · intro i j app app' cap cap' hij hi hj heq
    dsimp only at heq
    rw [nonceSpec_eq, nonceSpec_eq] at heq
    have := seq_add_inj (by have := sendsBefore_le ops i; omega) (by have := sendsBefore_le ops j; omega) (nonce_inj hsalt heq)
    have hlt := countP_take_lt (p := fun | .send .. => true | _ => false) hij hi rfl
    unfold sendsBefore at this
    omega
  · intro i app cap out hi hr
    obtain ⟨op, s1, s2, ho, hstep, hinv⟩ := chanRun_at c me ops s hst i out hr
    rw [hi] at ho
    obtain rfl := Option.some.inj ho
    simp only [chanStep, encodeSecured] at hstep
    rw [dispatchDir_ok] at hstep
    obtain ⟨_, hstep, _⟩ := hstep
    rw [encodeMsg_ok] at hstep
    obtain ⟨_, _, _, _, _, ct, tag, hseal, _, _, rfl⟩ := hstep
    refine ⟨_, ct, tag, rfl, ?_⟩
    dsimp only
    rw [nonceSpec_eq]
    rw [hinv.out, hinv.aead] at hseal
    rw [hinv.out]
    exact hseal

/-- C16: each message sent advances the counter of its direction by exactly one, and leaves the other alone. -/
theorem C16_counter_advances (c : Crypto) (s s' : Session) (app out : Bytes) (cap : Nat) (isReq : Bool)
    (h : encodeSecured c app cap isReq s = .ok out s') :
    (s'.dir isReq).seq.toNat = (s.dir isReq).seq.toNat + 1 ∧ s'.dir (!isReq) = s.dir (!isReq) := by
  unfold encodeSecured at h
  rw [dispatchDir_ok] at h
  obtain ⟨hst, henc, rfl⟩ := h
  rw [encodeMsg_ok] at henc
  refine ⟨?_, bump_dir_other s isReq⟩
  rw [bump_dir_same s isReq hst]
  have hne : (s.dir isReq).seq.toNat ≠ 2 ^ 64 - 1 := fun h => henc.2.1 (UInt64.toNat_inj.mp (by simpa using h))
  have := (s.dir isReq).seq.toNat_lt
  simp only [UInt64.toNat_add, UInt64.reduceToNat]
  omega

/-- C16: once the counter is at its maximum, encoding and decoding are refused. -/
theorem C16_exhausted_refused (c : Crypto) (s : Session) (m : Bytes) (cap : Nat) (isReq : Bool)
    (hst : s.state ≠ .notStarted) (ha : (Aead.tagSize? s.aead).isSome) (hseq : (s.dir isReq).seq = 0xFFFFFFFFFFFFFFFF) :
    (∃ s', encodeSecured c m cap isReq s = .err .sequenceNumberOverflow s') ∧
    (∃ s', decodeSecured c m cap isReq s = .err .sequenceNumberOverflow s') := by
  obtain ⟨t, ht⟩ := Option.isSome_iff_exists.mp ha
  unfold encodeSecured decodeSecured
  rw [dispatchDir_eq _ _ _ hst, dispatchDir_eq _ _ _ hst]
  simp [encodeMsg, decodeMsg, ht, hseq, Res.unwrap]

/-- C16, finding F1: the refused call still increments the counter, which (release build) wraps to zero; the very next
message is then sealed under the nonce of message number zero of the same key. -/
theorem C16_wrap_after_refusal_violated (c : Crypto) (s : Session) (m : Bytes) (cap : Nat) (isReq : Bool)
    (hst : s.state ≠ .notStarted) (ha : (Aead.tagSize? s.aead).isSome) (hseq : (s.dir isReq).seq = 0xFFFFFFFFFFFFFFFF) :
    ∃ s', encodeSecured c m cap isReq s = .err .sequenceNumberOverflow s' ∧
      s'.dir isReq = { s.dir isReq with seq := 0 } ∧
      ∀ app cap' out s'', encodeSecured c app cap' isReq s' = .ok out s'' →
        ∃ hdr ct tag, out = hdr ++ ct ++ tag ∧
          c.seal s.aead (s.dir isReq).key (nonceSpec (s.dir isReq).salt 0) hdr (putU16 (UInt16.ofNat app.length) ++ app) =
            some (ct, tag) := by
  obtain ⟨t, ht⟩ := Option.isSome_iff_exists.mp ha
  refine ⟨s.bump isReq, ?_, ?_, ?_⟩
  · unfold encodeSecured
    rw [dispatchDir_eq _ _ _ hst]
    simp [encodeMsg, ht, hseq, Res.unwrap]
  · rw [bump_dir_same s isReq hst, hseq]; rfl
  · intro app cap' out s'' h
    unfold encodeSecured at h
    rw [dispatchDir_ok] at h
    obtain ⟨_, h, _⟩ := h
    rw [encodeMsg_ok, bump_dir_same s isReq hst, hseq] at h
    obtain ⟨_, _, _, _, _, ct, tag, hseal, _, _, rfl⟩ := h
    exact ⟨_, ct, tag, rfl, by rw [nonceSpec_eq]; simpa using hseal⟩

/-! ### C17 -/

/-- A ciphertext and tag open under at most one nonce per key (idealised AEAD: no forgeries across nonces). -/
def NonceBinding (c : Crypto) : Prop :=
  ∀ a k iv iv' aad aad' ct tag pt pt', c.open a k iv aad ct tag = some pt → c.open a k iv' aad' ct tag = some pt' → iv = iv'

/-- The accepted record split at the fixed header length. -/
theorem accept_split {c : Crypto} {s s' : Session} {rec app : Bytes} {cap : Nat} {isReq : Bool}
    (h : decodeSecured c rec cap isReq s = .ok app s') :
    ∃ (len : UInt16) (ct tag pad pt : Bytes), rec = header s.id (s.dir isReq).seq s.seqCount.toNat len ++ (ct ++ (tag ++ pad)) ∧
      tag.length = 16 ∧ len.toNat = ct.length + 16 ∧
      c.open s.aead (s.dir isReq).key (nonce (s.dir isReq).salt (s.dir isReq).seq)
        (header s.id (s.dir isReq).seq s.seqCount.toNat len) ct tag = some pt ∧
      (∃ (al : UInt16) (tail : Bytes), pt = putU16 al ++ app ++ tail ∧ al.toNat = app.length) ∧
      (s.dir isReq).seq ≠ 0xFFFFFFFFFFFFFFFF := by
  unfold decodeSecured at h
  rw [dispatchDir_ok] at h
  obtain ⟨_, h, _⟩ := h
  rw [decodeMsg_ok] at h
  obtain ⟨_, hs, ct, tag, pad, pt, len, hrec, htag, hl, _, ho, al, tail, hpt, hal, _⟩ := h
  exact ⟨len, ct, tag, pad, pt, by rw [hrec]; simp, htag, hl, ho, ⟨al, tail, hpt, hal⟩, hs⟩

theorem header_split {id id' : UInt32} {q q' : UInt64} {n : Nat} {len len' : UInt16} {ct tag ct' tag' x y : Bytes}
    (h : header id q n len ++ (ct ++ (tag ++ x)) = header id' q' n len' ++ (ct' ++ (tag' ++ y)))
    (hl : len.toNat = ct.length + 16) (hl' : len'.toNat = ct'.length + 16) (ht : tag.length = 16) (ht' : tag'.length = 16) :
    id = id' ∧ seqBytes q n = seqBytes q' n ∧ len = len' ∧ ct = ct' ∧ tag = tag' := by
  have h1 := List.append_inj_left h (by simp)
  have h2 := List.append_inj_right h (by simp)
  unfold header at h1
  have e1 := List.append_inj_left h1 rfl
  have e2 := List.append_inj_right h1 rfl
  have e3 := List.append_inj_left e2 (by simp)
  have e4 := List.append_inj_right e2 (by simp)
  have el := putU16_inj e4
  subst el
  have e5 := List.append_inj_left h2 (by omega)
  have e6 := List.append_inj_right h2 (by omega)
  have e7 := List.append_inj_left e6 (by omega)
  exact ⟨putU32_inj e1, e3, rfl, e5, e7⟩

/-- C17: replay. Over any history of fewer than 2^64 operations of one endpoint, a record (however padded by the transport)
is accepted at most once. -/
theorem C17_replay_rejected (c : Crypto) (hb : NonceBinding c) (me : Bool) (ops : List ChanOp) (s : Session)
    (hst : s.state ≠ .notStarted) (hsalt : 8 ≤ (s.dir (!me)).salt.length) (hlen : ops.length < 2 ^ 64)
    (i j : Nat) (hij : i < j) (rec x y : Bytes) (cap cap' : Nat) (a b : Bytes)
    (hrec : 6 + s.seqCount.toNat ≤ rec.length)
    (hrecl : ∀ l : UInt16, (rec.drop (4 + s.seqCount.toNat)).take 2 = putU16 l → l.toNat + (6 + s.seqCount.toNat) ≤ rec.length)
    (hi : ops[i]? = some (.recv (rec ++ x) cap)) (hj : ops[j]? = some (.recv (rec ++ y) cap'))
    (hri : (chanRun c me ops s)[i]? = some (.ok a)) : (chanRun c me ops s)[j]? ≠ some (.ok b) := by
  intro hrj
  obtain ⟨op, s1, s1', ho, hstep, hinv⟩ := chanRun_at c me ops s hst i a hri
  rw [hi] at ho; obtain rfl := Option.some.inj ho
  obtain ⟨op, s2, s2', ho, hstep', hinv'⟩ := chanRun_at c me ops s hst j b hrj
  rw [hj] at ho; obtain rfl := Option.some.inj ho
  obtain ⟨len, ct, tag, pad, pt, hr, ht, hl, hop, _, _⟩ := accept_split hstep
  obtain ⟨len', ct', tag', pad', pt', hr', ht', hl', hop', _, _⟩ := accept_split hstep'
  rw [hinv.seqCount, hinv.id, hinv.inn] at hr
  rw [hinv'.seqCount, hinv'.id, hinv'.inn] at hr'
  -- both parse `rec` the same way
  have cut : ∀ (q : UInt64) (len : UInt16) (ct tag pad z : Bytes), rec ++ z = header s.id q s.seqCount.toNat len ++ (ct ++ (tag ++ pad)) →
      tag.length = 16 → len.toNat = ct.length + 16 →
      ∃ p, rec = header s.id q s.seqCount.toNat len ++ (ct ++ (tag ++ p)) := by
    intro q len ct tag pad z h ht hl
    have hd : (rec.drop (4 + s.seqCount.toNat)).take 2 = putU16 len := by
      have := congrArg (fun l => (l.drop (4 + s.seqCount.toNat)).take 2) h
      rw [List.drop_append_of_le_length (by omega), List.take_append_of_le_length (by simp; omega)] at this
      rw [this]
      have e : header s.id q s.seqCount.toNat len = (putU32 s.id ++ seqBytes q s.seqCount.toNat) ++ putU16 len := by
        simp [header]
      rw [e, List.append_assoc, List.drop_left' (by simp), List.take_left' (by simp)]
    have hle := hrecl len hd
    refine ⟨rec.drop (6 + s.seqCount.toNat + len.toNat), ?_⟩
    have := congrArg (List.take (6 + s.seqCount.toNat + len.toNat)) h
    rw [List.take_append_of_le_length (by omega)] at this
    have e2 : List.take (6 + s.seqCount.toNat + len.toNat) (header s.id q s.seqCount.toNat len ++ (ct ++ (tag ++ pad))) =
        header s.id q s.seqCount.toNat len ++ (ct ++ tag) := by
      rw [← List.append_assoc ct, ← List.append_assoc, List.take_left']
      simp; omega
    rw [e2] at this
    rw [← List.append_assoc ct, ← List.append_assoc, ← this, List.take_append_drop]
  obtain ⟨p1, c1⟩ := cut _ _ _ _ _ _ hr ht hl
  obtain ⟨p2, c2⟩ := cut _ _ _ _ _ _ hr' ht' hl'
  obtain ⟨_, _, rfl, rfl, rfl⟩ := header_split (c1.symm.trans c2) hl hl' ht ht'
  rw [hinv.aead, hinv.inn] at hop
  rw [hinv'.aead, hinv'.inn] at hop'
  have hn := nonce_inj hsalt (hb _ _ _ _ _ _ _ _ _ _ hop hop')
  have := seq_add_inj (by have := recvsBefore_le ops i; omega) (by have := recvsBefore_le ops j; omega) hn
  have hlt := countP_take_lt (p := fun | .recv .. => true | _ => false) hij hi rfl
  unfold recvsBefore at this
  omega

/-- C17 without any cryptographic assumption: when the transport carries `n` sequence-number bytes, a record accepted twice
implies that the number of records received in between is a multiple of 256^n. -/
theorem C17_carried_sequence (c : Crypto) (me : Bool) (ops : List ChanOp) (s : Session) (hst : s.state ≠ .notStarted)
    (i j : Nat) (rec x y : Bytes) (cap cap' : Nat) (a b : Bytes) (hn : s.seqCount.toNat ≤ 8)
    (hrec : 6 + s.seqCount.toNat ≤ rec.length)
    (hi : ops[i]? = some (.recv (rec ++ x) cap)) (hj : ops[j]? = some (.recv (rec ++ y) cap'))
    (hri : (chanRun c me ops s)[i]? = some (.ok a)) (hrj : (chanRun c me ops s)[j]? = some (.ok b)) :
    recvsBefore ops i % 256 ^ s.seqCount.toNat = recvsBefore ops j % 256 ^ s.seqCount.toNat := by
  obtain ⟨op, s1, s1', ho, hstep, hinv⟩ := chanRun_at c me ops s hst i a hri
  rw [hi] at ho; obtain rfl := Option.some.inj ho
  obtain ⟨op, s2, s2', ho, hstep', hinv'⟩ := chanRun_at c me ops s hst j b hrj
  rw [hj] at ho; obtain rfl := Option.some.inj ho
  obtain ⟨r1, h1⟩ := prefix_of_accept hstep
  obtain ⟨r2, h2⟩ := prefix_of_accept hstep'
  rw [hinv.seqCount, hinv.id, hinv.inn] at h1
  rw [hinv'.seqCount, hinv'.id, hinv'.inn] at h2
  have e1 := congrArg (fun l => (l.drop 4).take s.seqCount.toNat) h1
  have e2 := congrArg (fun l => (l.drop 4).take s.seqCount.toNat) h2
  dsimp only at e1 e2
  rw [List.drop_append_of_le_length (by omega), List.take_append_of_le_length (by simp; omega),
    List.drop_left' (by simp), List.take_left' (by simp)] at e1 e2
  rw [e1] at e2
  generalize (s.dir (!me)).seq = q at e2
  have hbytes : ∀ k, k < s.seqCount.toNat → seqByte (q + UInt64.ofNat (recvsBefore ops i)) k = seqByte (q + UInt64.ofNat (recvsBefore ops j)) k := by
    intro k hk
    have := congrArg (fun l => l[k]?) e2
    simpa [seqBytes, hk] using this
  have low : ∀ (u v : UInt64) (n : Nat), n ≤ 8 → (∀ k, k < n → seqByte u k = seqByte v k) → u.toNat % 256 ^ n = v.toNat % 256 ^ n := by
    intro u v n hn h
    induction n with
    | zero => simp [Nat.mod_one]
    | succ n ih =>
      have hi := ih (by omega) (fun k hk => h k (by omega))
      have hb := congrArg UInt8.toNat (h n (by omega))
      rw [seqByte_eq _ _ (by omega), seqByte_eq _ _ (by omega)] at hb
      rw [Nat.pow_succ, Nat.mod_mul, Nat.mod_mul, hi, hb]
  have hq := low _ _ _ hn hbytes
  have h264 : (2 : Nat) ^ 64 = 256 ^ (8 - s.seqCount.toNat) * 256 ^ s.seqCount.toNat := by
    rw [← Nat.pow_add, show 8 - s.seqCount.toNat + s.seqCount.toNat = 8 by omega]; rfl
  have hdvd : 256 ^ s.seqCount.toNat ∣ 2 ^ 64 := ⟨256 ^ (8 - s.seqCount.toNat), by rw [h264, Nat.mul_comm]⟩
  simp only [UInt64.toNat_add, UInt64.toNat_ofNat'] at hq
  rw [Nat.mod_mod_of_dvd _ hdvd, Nat.mod_mod_of_dvd _ hdvd] at hq
  have h3 : (q.toNat + recvsBefore ops i % 2 ^ 64) % 256 ^ s.seqCount.toNat = (q.toNat + recvsBefore ops i) % 256 ^ s.seqCount.toNat := by
    rw [Nat.add_mod, Nat.mod_mod_of_dvd _ hdvd, ← Nat.add_mod]
  have h4 : (q.toNat + recvsBefore ops j % 2 ^ 64) % 256 ^ s.seqCount.toNat = (q.toNat + recvsBefore ops j) % 256 ^ s.seqCount.toNat := by
    rw [Nat.add_mod, Nat.mod_mod_of_dvd _ hdvd, ← Nat.add_mod]
  rw [h3, h4] at hq
  exact Nat.ModEq.add_left_cancel' q.toNat hq

/-- C17: order. If the sender's `k`-th message is accepted as the receiver's `l`-th record (both counted from a common
state), then `k = l` and the payload delivered is the payload sent: messages are accepted only in the order produced. -/
theorem C17_in_order (c : Crypto) (hc : c.AeadLaws) (hb : NonceBinding c) (isReq : Bool) (s t : Session)
    (hch : SameChannel s t isReq) (hsalt : 8 ≤ (s.dir isReq).salt.length)
    (sops rops : List ChanOp) (hsl : sops.length < 2 ^ 64) (hrl : rops.length < 2 ^ 64)
    (i j : Nat) (app out pad got : Bytes) (cap cap' : Nat)
    (hi : sops[i]? = some (.send app cap)) (hsent : (chanRun c isReq sops s)[i]? = some (.ok out))
    (hj : rops[j]? = some (.recv (out ++ pad) cap')) (hgot : (chanRun c (!isReq) rops t)[j]? = some (.ok got)) :
    sendsBefore sops i = recvsBefore rops j ∧ got = app := by
  obtain ⟨op, s1, s1', ho, hstep, hinv⟩ := chanRun_at c isReq sops s hch.started i out hsent
  rw [hi] at ho; obtain rfl := Option.some.inj ho
  obtain ⟨op, t1, t1', ho, hstep', hinv'⟩ := chanRun_at c (!isReq) rops t (hch.state ▸ hch.started) j got hgot
  rw [hj] at ho; obtain rfl := Option.some.inj ho
  simp only [chanStep, encodeSecured] at hstep
  rw [dispatchDir_ok] at hstep
  obtain ⟨_, hstep, _⟩ := hstep
  rw [encodeMsg_ok] at hstep
  obtain ⟨_, _, _, hbuf, _, ct, tag, hseal, hct, htag, rfl⟩ := hstep
  simp only [chanStep, Bool.not_not] at hstep'
  obtain ⟨len, ct', tag', pad', pt, hr, ht', hl', hop, ⟨al, tail, hpt, hal⟩, _⟩ := accept_split hstep'
  have hinn := hinv'.inn
  rw [Bool.not_not] at hinn
  have hopen := hc.open_seal _ _ _ _ _ _ _ hseal
  rw [hinv'.seqCount, ← hch.seqCount, hinv'.id, ← hch.id] at hr hop
  rw [hinv.seqCount, hinv.id] at hr hopen
  simp only [List.append_assoc] at hr
  have hlen : (recLen app.length 16).toNat = ct.length + 16 := by rw [recLen_toNat hbuf]; omega
  obtain ⟨_, _, rfl, rfl, rfl⟩ := header_split hr hlen hl' htag ht'
  rw [hinv'.aead, ← hch.aead, hinn, ← hch.keys] at hop
  rw [hinv.aead, hinv.out] at hopen
  have hn := nonce_inj hsalt (hb _ _ _ _ _ _ _ _ _ _ hopen hop)
  have heq := seq_add_inj (by have := sendsBefore_le sops i; omega) (by have := recvsBefore_le rops j; omega) hn
  refine ⟨heq, ?_⟩
  simp only at hop hopen
  rw [heq] at hopen
  rw [hopen] at hop
  have hp := Option.some.inj hop
  rw [hpt] at hp
  simp only [List.append_assoc] at hp
  have hal2 := putU16_inj (List.append_inj_left hp rfl)
  have hrest := List.append_inj_right hp rfl
  have hlapp : app.length = got.length := by
    rw [← hal, ← hal2, UInt16.toNat_ofNat']; unfold bufSize at hbuf; omega
  have h0 := congrArg List.length hrest
  simp at h0
  have ht0 : tail = [] := List.eq_nil_of_length_eq_zero (by omega)
  rw [ht0] at hrest; simpa using hrest.symm

/-- C17, finding F1b: a record that is refused also advances the receiving counter, so one injected garbage record makes
the receiver refuse the genuine next message of the peer. -/
theorem C17_desync_after_garbage_violated (c : Crypto) (hc : c.AeadLaws) (hb : NonceBinding c) (isReq : Bool)
    (s t t' s' : Session) (hch : SameChannel s t isReq) (hsalt : 8 ≤ (s.dir isReq).salt.length)
    (garbage : Bytes) (cap : Nat) (e : Status) (hg : decodeSecured c garbage cap isReq t = .err e t')
    (app out : Bytes) (henc : encodeSecured c app cap isReq s = .ok out s') (got : Bytes) (t'' : Session) :
    decodeSecured c out cap isReq t' ≠ .ok got t'' := by
  intro hd
  have hst : t.state ≠ .notStarted := hch.state ▸ hch.started
  have ht' : t' = t.bump isReq := by
    rcases dispatchDir_err hg with ⟨h, _⟩ | ⟨_, _, h⟩
    · exact absurd h hst
    · exact h
  subst ht'
  obtain ⟨len, ct', tag', pad', pt, hr, ht', hl', hop, _, _⟩ := accept_split hd
  unfold encodeSecured at henc
  rw [dispatchDir_ok] at henc
  obtain ⟨_, henc, _⟩ := henc
  rw [encodeMsg_ok] at henc
  obtain ⟨_, _, _, hbuf, _, ct, tag, hseal, hct, htag, rfl⟩ := henc
  have hopen := hc.open_seal _ _ _ _ _ _ _ hseal
  simp only [bump_seqCount, bump_id, bump_aead] at hr hop
  rw [← hch.seqCount, ← hch.id] at hr
  have hlen : (recLen app.length 16).toNat = ct.length + 16 := by rw [recLen_toNat hbuf]; omega
  have hr0 : header s.id (s.dir isReq).seq s.seqCount.toNat (recLen app.length 16) ++ (ct ++ (tag ++ [])) =
      header s.id ((t.bump isReq).dir isReq).seq s.seqCount.toNat len ++ (ct' ++ (tag' ++ pad')) := by
    simpa using hr
  obtain ⟨_, _, rfl, rfl, rfl⟩ := header_split hr0 hlen hl' htag ht'
  rw [bump_dir_same t isReq hst, ← hch.aead, ← hch.keys] at hop
  have hn := nonce_inj hsalt (hb _ _ _ _ _ _ _ _ _ _ hopen hop)
  have := congrArg UInt64.toNat hn
  simp only [UInt64.toNat_add, UInt64.reduceToNat] at this
  have := (s.dir isReq).seq.toNat_lt
  omega

/-! ### the hypotheses are met -/

set_option maxRecDepth 200000 in
/-- A message encoded with the toy cryptography and decoded again by the peer. -/
example : ∃ out s', encodeSecured Toy.crypto [5, 0x84, 1, 2, 3] 4096 true (Toy.sess 3) = .ok out s' ∧
    out = [7, 0, 0xFD, 0xFF, 3, 0, 23, 0] ++ [5, 0, 5, 0x84, 1, 2, 3] ++ ([6, 5, 5, 5, 5, 5, 5, 5, 5, 5, 5, 5] ++ [0, 0, 0, 0]) ∧
    decodeSecured Toy.crypto out 4096 true (Toy.sess 3) = .ok [5, 0x84, 1, 2, 3] (Toy.sess 4) := ⟨_, _, rfl, rfl, rfl⟩
example : SameChannel (Toy.sess 3) (Toy.sess 3) true := ⟨rfl, by decide, rfl, rfl, rfl, rfl⟩
example : Toy.crypto.AeadLaws ∧ NonceBinding Toy.crypto := ⟨Toy.aeadLaws, Toy.nonceBinding⟩
set_option maxRecDepth 200000 in
/-- A history in which both a replayed record and a garbage record are refused while the first copy is accepted. -/
example : ∃ out s', encodeSecured Toy.crypto [5, 0x84] 4096 true (Toy.sess 3) = .ok out s' ∧
    chanRun Toy.crypto false [.recv out 4096, .recv out 4096, .recv [1] 4096] (Toy.sess 3) =
      [.ok [5, 0x84], .error .decodeAeadFail, .error .decodeAeadFail] := ⟨_, _, rfl, rfl⟩
/-- The exhausted counter of C16. -/
example : (Toy.sess 0xFFFFFFFFFFFFFFFF).state ≠ .notStarted ∧ ((Toy.sess 0xFFFFFFFFFFFFFFFF).dir true).seq = 0xFFFFFFFFFFFFFFFF ∧
    (Aead.tagSize? (Toy.sess 0xFFFFFFFFFFFFFFFF).aead).isSome := by decide
/-- F1b on concrete bytes: one garbage record, then the genuine message is refused. -/
example : ∃ out s', encodeSecured Toy.crypto [5, 0x84] 4096 true (Toy.sess 3) = .ok out s' ∧
    decodeSecured Toy.crypto [1] 4096 true (Toy.sess 3) = .err .decodeAeadFail (Toy.sess 4) ∧
    decodeSecured Toy.crypto out 4096 true (Toy.sess 4) = .err .decodeAeadFail (Toy.sess 5) := ⟨_, _, rfl, rfl, rfl⟩

end Verif.Props
