/-
Helper lemmas about the record layer of `Session`.
-/
import Verif.Session.Session
import Verif.Codec.Combi

namespace Verif
namespace Session

/-- Bytes of a record header. -/
def header (id : UInt32) (seq : UInt64) (n : Nat) (len : UInt16) : Bytes := putU32 id ++ (seqBytes seq n ++ putU16 len)

@[simp] theorem length_seqBytes (seq : UInt64) (n : Nat) : (seqBytes seq n).length = n := by simp [seqBytes]

@[simp] theorem length_header (id : UInt32) (seq : UInt64) (n : Nat) (len : UInt16) :
    (header id seq n len).length = 6 + n := by simp [header]; omega

theorem header_writes (id : UInt32) (seq : UInt64) (n : Nat) (len : UInt16) :
    Writes (Enc.seq [encU32 id, encBytes (seqBytes seq n), encU16 len]) (header id seq n len) := by
  refine Writes.cast (Writes.seq_cons (Writes.u32 _) (Writes.seq_cons (Writes.bytes _)
    (Writes.seq_cons (Writes.u16 _) Writes.seq_nil))) ?_
  simp [header]

theorem header_enc (id : UInt32) (seq : UInt64) (n : Nat) (len : UInt16) (hn : n ≤ 8) :
    Enc.seq [encU32 id, encBytes (seqBytes seq n), encU16 len] (Writer.init 14) =
      .ok (6 + n) ⟨14, header id seq n len⟩ := by
  have := (header_writes id seq n len (Writer.init 14) (by simp [Writer.WF, Writer.init])).1
    (by simp [Writer.init]; omega)
  simpa [Writer.init] using this

theorem header_enc_err (id : UInt32) (seq : UInt64) (n : Nat) (len : UInt16) (hn : 8 < n) :
    ∃ w, Enc.seq [encU32 id, encBytes (seqBytes seq n), encU16 len] (Writer.init 14) = .err .bufferFull w := by
  obtain ⟨p, -, -, h⟩ := (header_writes id seq n len (Writer.init 14) (by simp [Writer.WF, Writer.init])).2
    (by simp [Writer.init]; omega)
  exact ⟨_, h⟩

/-- length field of a record carrying `n` application bytes -/
def recLen (n tagSize : Nat) : UInt16 := UInt16.ofNat (n + 2) + UInt16.ofNat tagSize

theorem tagSize_eq {a : Aead} {t : Nat} (h : Aead.tagSize? a = some t) : t = 16 := by
  unfold Aead.tagSize? at h
  repeat' split at h
  all_goals simp_all

theorem recLen_toNat {n : Nat} (h : n + 2 ≤ bufSize) : (recLen n 16).toNat = n + 2 + 16 := by
  unfold recLen bufSize at *
  rw [UInt16.toNat_add, UInt16.toNat_ofNat', UInt16.toNat_ofNat']
  omega

/-- What a successful encode produced. -/
theorem encodeMsg_ok {c : Crypto} {s : Session} {app : Bytes} {cap : Nat} {p : SecretParam} {out : Bytes} :
    encodeMsg c s app cap p = .ok out ↔
      Aead.tagSize? s.aead = some 16 ∧ p.seq ≠ 0xFFFFFFFFFFFFFFFF ∧ s.seqCount.toNat ≤ 8 ∧ app.length + 2 ≤ bufSize ∧
      6 + s.seqCount.toNat + (app.length + 2) + 16 ≤ cap ∧
      ∃ ct tag, c.seal s.aead p.key (nonce p.salt p.seq) (header s.id p.seq s.seqCount.toNat (recLen app.length 16))
          (putU16 (UInt16.ofNat app.length) ++ app) = some (ct, tag) ∧
        ct.length = app.length + 2 ∧ tag.length = 16 ∧
        out = header s.id p.seq s.seqCount.toNat (recLen app.length 16) ++ ct ++ tag := by
  unfold encodeMsg
  rw [Res.bind_ok]
  constructor
  · rintro ⟨t, ht, h⟩
    simp only [Res.unwrap_ok] at ht
    obtain rfl := tagSize_eq ht
    rw [Res.guard_ok] at h
    obtain ⟨hseq, h⟩ := h
    by_cases hn : s.seqCount.toNat ≤ 8
    · rw [header_enc _ _ _ _ hn] at h
      simp only [Res.guardP_ok] at h
      obtain ⟨h1, h2, h⟩ := h
      rw [Res.bind_ok] at h
      obtain ⟨⟨ct, tag⟩, hs, h⟩ := h
      simp only [Res.guardP_ok, Res.pure_def, Res.ok.injEq] at h
      obtain ⟨h3, h4, rfl⟩ := h
      simp only [Res.ofOption_ok] at hs
      simp only [List.length_append, length_header, length_putU16, not_or, Decidable.not_not] at *
      refine ⟨ht, hseq, hn, by omega, by omega, ct, tag, hs, by omega, by omega, rfl⟩
    · obtain ⟨w, hw⟩ := header_enc_err s.id p.seq s.seqCount.toNat (recLen app.length 16) (by omega)
      unfold recLen at hw
      rw [hw] at h; simp at h
  · rintro ⟨ht, hseq, hn, hb, hc, ct, tag, hs, hct, htag, rfl⟩
    refine ⟨16, by simpa using ht, ?_⟩
    rw [Res.guard_ok]
    refine ⟨hseq, ?_⟩
    rw [header_enc _ _ _ _ hn]
    simp only [Res.guardP_ok]
    refine ⟨by omega, by simp; omega, ?_⟩
    unfold recLen at hs
    rw [hs]
    simp only [Res.ofOption, Res.ok_bind, Res.guardP_ok, Res.pure_def]
    refine ⟨by simp [hct, htag]; omega, by simp; omega, rfl⟩

theorem checkSeq_ok {seq : UInt64} {n i : Nat} {r r' : Reader} :
    checkSeq seq n i r = .ok true r' ↔ r.After ((List.range' i n).map (seqByte seq)) r' := by
  induction n generalizing i r with
  | zero => simp [checkSeq, Reader.After, M.pure_ok]; constructor <;> (intro h; cases r; cases r'; simp_all)
  | succ n ih =>
    simp only [checkSeq, M.bind_ok, rdU8_ok]
    constructor
    · rintro ⟨b, r1, h1, h2⟩
      by_cases hb : b ≠ seqByte seq i
      · simp [hb] at h2
      · simp only [M.ite_apply, hb, if_false] at h2
        rw [ih] at h2
        have := h1.trans h2
        simp only [ne_eq, Decidable.not_not] at hb
        subst hb
        simpa [List.range'_succ] using this
    · intro h
      simp only [List.range'_succ, List.map_cons] at h
      refine ⟨seqByte seq i, ⟨(List.range' (i+1) n).map (seqByte seq) ++ r'.rest, r.used + 1⟩, ?_, ?_⟩
      · obtain ⟨h1, h2⟩ := h
        exact ⟨by simpa using h1, rfl⟩
      · simp only [ne_eq, not_true_eq_false, if_false, ih]
        obtain ⟨h1, h2⟩ := h
        refine ⟨rfl, ?_⟩
        simp at h2 ⊢; omega

theorem checkSeq_ne_panic {seq : UInt64} {n i : Nat} (r : Reader) : checkSeq seq n i r ≠ .panic := by
  induction n generalizing i r with
  | zero => simp [checkSeq]
  | succ n ih =>
    simp only [checkSeq, M.bind_apply]
    cases h : rdU8 r with
    | ok b r' =>
      simp only [M.ite_apply]
      split
      · simp
      · exact ih _
    | err => simp
    | panic => exact absurd h (rdU8_ne_panic r)

theorem range_eq (n : Nat) (seq : UInt64) : (List.range' 0 n).map (seqByte seq) = seqBytes seq n := by
  simp [seqBytes, List.range_eq_range']

/-- What a successful decode accepted. -/
theorem decodeMsg_ok {c : Crypto} {s : Session} {sec : Bytes} {cap : Nat} {p : SecretParam} {app : Bytes} :
    decodeMsg c s sec cap p = .ok app ↔
      Aead.tagSize? s.aead = some 16 ∧ p.seq ≠ 0xFFFFFFFFFFFFFFFF ∧
      ∃ (ct tag rest pt : Bytes) (len : UInt16),
        sec = header s.id p.seq s.seqCount.toNat len ++ ct ++ tag ++ rest ∧
        tag.length = 16 ∧ len.toNat = ct.length + 16 ∧ ct.length ≤ bufSize ∧
        c.open s.aead p.key (nonce p.salt p.seq) (header s.id p.seq s.seqCount.toNat len) ct tag = some pt ∧
        ∃ (al : UInt16) (pad : Bytes), pt = putU16 al ++ app ++ pad ∧ al.toNat = app.length ∧ app.length ≤ cap := by
  unfold decodeMsg
  rw [Res.bind_ok]
  constructor
  · rintro ⟨t, ht, h⟩
    simp only [Res.unwrap_ok] at ht
    obtain rfl := tagSize_eq ht
    rw [Res.guard_ok] at h
    obtain ⟨hseq, h⟩ := h
    rw [Res.bind_ok] at h
    obtain ⟨⟨id, r1⟩, h1, h⟩ := h
    rw [Res.read_ok, rdU32_ok] at h1
    simp only at h1 h
    rw [Res.guard_ok] at h
    obtain ⟨hid, h⟩ := h
    simp only [ne_eq, Decidable.not_not] at hid
    subst hid
    rw [Res.bind_ok] at h
    obtain ⟨⟨okSeq, r2⟩, h2, h⟩ := h
    rw [Res.read_ok] at h2
    simp only at h2 h
    rw [Res.guard_ok] at h
    obtain ⟨hok, h⟩ := h
    simp only [Bool.not_eq_false] at hok
    subst hok
    rw [checkSeq_ok, range_eq] at h2
    rw [Res.bind_ok] at h
    obtain ⟨⟨len, r3⟩, h3, h⟩ := h
    rw [Res.read_ok, rdU16_ok] at h3
    simp only at h3 h
    have hA := (h1.trans h2).trans h3
    have hsec : sec = header s.id p.seq s.seqCount.toNat len ++ r3.rest := by
      have := hA.1; simpa [Reader.init, header] using this
    have hused : r3.used = 6 + s.seqCount.toNat := by
      have := hA.2; simp [Reader.init] at this; omega
    simp only [Res.guard_ok, Res.guardP_ok] at h
    obtain ⟨hl1, hl2, hl3, h⟩ := h
    rw [Res.bind_ok] at h
    obtain ⟨pt, hopen, h⟩ := h
    simp only [Res.ofOption_ok] at hopen
    rw [Res.bind_ok] at h
    obtain ⟨⟨al, r4⟩, h4, h⟩ := h
    rw [Res.read_ok, rdU16_ok] at h4
    simp only [Res.guard_ok, Res.guardP_ok, Res.pure_def, Res.ok.injEq] at h
    obtain ⟨hp1, hp2, happ⟩ := h
    rw [hused] at hopen hl1
    rw [hsec] at hl1
    simp only [List.length_append, length_header] at hl1
    have hd : ∀ k, sec.drop (6 + s.seqCount.toNat + k) = r3.rest.drop k := by
      intro k; rw [hsec, ← List.drop_drop, List.drop_left' (length_header ..)]
    have hd0 : sec.drop (6 + s.seqCount.toNat) = r3.rest := by simpa using hd 0
    have htk : sec.take (6 + s.seqCount.toNat) = header s.id p.seq s.seqCount.toNat len := by
      rw [hsec, List.take_left' (length_header ..)]
    rw [hd, hd0, htk] at hopen
    refine ⟨ht, hseq, r3.rest.take (len.toNat - 16), (r3.rest.drop (len.toNat - 16)).take 16,
      r3.rest.drop (len.toNat - 16 + 16), pt, len, ?_, ?_, ?_, ?_, hopen, al, pt.drop (al.toNat + 2), ?_, ?_, ?_⟩
    · conv => lhs; rw [hsec]
      simp only [List.append_assoc, List.append_cancel_left_eq]
      rw [← List.drop_drop, List.take_append_drop, List.take_append_drop]
    · simp; omega
    · simp; omega
    · simp; omega
    · have h41 := h4.1
      simp only [Reader.init] at h41
      have hptlen : 2 ≤ pt.length := by omega
      have e1 : pt.take 2 = putU16 al := by
        have := congrArg (List.take 2) h41
        rw [List.take_append_of_le_length hptlen, List.take_left' (by simp)] at this
        exact this
      have e2 : app = (pt.drop 2).take al.toNat := by
        rw [← happ, List.drop_append_of_le_length hptlen, List.take_append_of_le_length (by simp; omega)]
      rw [e2, ← e1]
      have : pt = pt.take 2 ++ ((pt.drop 2).take al.toNat ++ (pt.drop 2).drop al.toNat) := by
        rw [List.take_append_drop, List.take_append_drop]
      rw [List.drop_drop, Nat.add_comm 2] at this
      rw [List.append_assoc]; exact this
    · rw [← happ]; simp; unfold bufSize; omega
    · rw [← happ]; simp; omega
  · rintro ⟨ht, hseq, ct, tag, rest, pt, len, hsec, htag, hlen, hct, hopen, al, pad, hpt, hal, hcap⟩
    refine ⟨16, by simpa using ht, ?_⟩
    rw [Res.guard_ok]
    refine ⟨hseq, ?_⟩
    rw [Res.bind_ok]
    have hs2 : sec = putU32 s.id ++ (seqBytes p.seq s.seqCount.toNat ++ (putU16 len ++ (ct ++ tag ++ rest))) := by
      rw [hsec]; simp [header]
    refine ⟨(s.id, ⟨seqBytes p.seq s.seqCount.toNat ++ (putU16 len ++ (ct ++ tag ++ rest)), 4⟩), ?_, ?_⟩
    · rw [Res.read_ok, rdU32_ok]
      exact ⟨by simpa [Reader.init] using hs2, rfl⟩
    · simp only [Res.guard_ok]
      refine ⟨by simp, ?_⟩
      rw [Res.bind_ok]
      refine ⟨(true, ⟨putU16 len ++ (ct ++ tag ++ rest), 4 + s.seqCount.toNat⟩), ?_, ?_⟩
      · rw [Res.read_ok, checkSeq_ok, range_eq]
        exact ⟨rfl, by simp⟩
      · simp only [Res.guard_ok]
        refine ⟨by simp, ?_⟩
        rw [Res.bind_ok]
        refine ⟨(len, ⟨ct ++ tag ++ rest, 4 + s.seqCount.toNat + 2⟩), ?_, ?_⟩
        · rw [Res.read_ok, rdU16_ok]; exact ⟨rfl, rfl⟩
        · simp only [Res.guard_ok, Res.guardP_ok]
          have e16 : len.toNat - 16 = ct.length := by omega
          have e6 : 4 + s.seqCount.toNat + 2 = 6 + s.seqCount.toNat := by omega
          rw [e16, e6]
          have hd : ∀ k, sec.drop (6 + s.seqCount.toNat + k) = (ct ++ tag ++ rest).drop k := by
            intro k
            rw [hsec, ← List.drop_drop]
            simp only [List.append_assoc]
            rw [List.drop_left' (length_header ..)]
          have hd0 : sec.drop (6 + s.seqCount.toNat) = ct ++ tag ++ rest := by simpa using hd 0
          have htk : sec.take (6 + s.seqCount.toNat) = header s.id p.seq s.seqCount.toNat len := by
            rw [hsec]; simp only [List.append_assoc]; rw [List.take_left' (length_header ..)]
          refine ⟨by rw [hsec]; simp; omega, by omega, by omega, ?_⟩
          rw [hd, hd0, htk]
          have ec : (ct ++ tag ++ rest).take ct.length = ct := by simp
          have et : ((ct ++ tag ++ rest).drop ct.length).take 16 = tag := by
            rw [List.append_assoc, List.drop_left, ← htag, List.take_left]
          rw [ec, et, hopen]
          simp only [Res.ofOption, Res.ok_bind]
          rw [Res.bind_ok]
          refine ⟨(al, ⟨app ++ pad ++ List.replicate (bufSize - pt.length) 0, 2⟩), ?_, ?_⟩
          · rw [Res.read_ok, rdU16_ok, hpt]
            exact ⟨by simp [Reader.init], rfl⟩
          · simp only [Res.guard_ok, Res.guardP_ok, Res.pure_def, Res.ok.injEq]
            refine ⟨by rw [hpt]; simp; omega, by omega, ?_⟩
            rw [hpt]
            simp only [List.append_assoc]
            rw [List.drop_left' (by simp), hal, List.take_left]

/-- Decoding panics only for a record whose ciphertext exceeds the internal buffer or whose plaintext exceeds the caller's
buffer (or when no AEAD algorithm was negotiated). -/
theorem decodeMsg_panic {c : Crypto} {s : Session} {sec : Bytes} {cap : Nat} {p : SecretParam}
    (ha : Aead.tagSize? s.aead = some 16) (h : decodeMsg c s sec cap p = .panic) :
    bufSize < sec.length ∨ ∃ ct tag aad pt, c.open s.aead p.key (nonce p.salt p.seq) aad ct tag = some pt ∧ cap + 2 < pt.length := by
  unfold decodeMsg at h
  rw [ha] at h
  simp only [Res.unwrap, Res.ok_bind] at h
  split at h
  · simp at h
  · cases h1 : Res.read .decodeAeadFail rdU32 (Reader.init sec) with
    | err => rw [h1] at h; simp at h
    | panic =>
      exfalso; unfold Res.read at h1
      cases h' : rdU32 (Reader.init sec) with
      | ok => rw [h'] at h1; simp at h1
      | err => rw [h'] at h1; simp at h1
      | panic => exact rdU32_ne_panic _ h'
    | ok q =>
      obtain ⟨id, r1⟩ := q
      rw [h1] at h; simp only [Res.ok_bind] at h
      split at h
      · simp at h
      · cases h2 : Res.read .decodeAeadFail (checkSeq p.seq s.seqCount.toNat 0) r1 with
        | err => rw [h2] at h; simp at h
        | panic =>
          exfalso; unfold Res.read at h2
          cases h' : checkSeq p.seq s.seqCount.toNat 0 r1 with
          | ok => rw [h'] at h2; simp at h2
          | err => rw [h'] at h2; simp at h2
          | panic => exact checkSeq_ne_panic _ h'
        | ok q2 =>
          obtain ⟨ok, r2⟩ := q2
          rw [h2] at h; simp only [Res.ok_bind] at h
          split at h
          · simp at h
          · cases h3 : Res.read .decodeAeadFail rdU16 r2 with
            | err => rw [h3] at h; simp at h
            | panic =>
              exfalso; unfold Res.read at h3
              cases h' : rdU16 r2 with
              | ok => rw [h'] at h3; simp at h3
              | err => rw [h'] at h3; simp at h3
              | panic => exact rdU16_ne_panic _ h'
            | ok q3 =>
              obtain ⟨len, r3⟩ := q3
              rw [h3] at h; simp only [Res.ok_bind] at h
              split at h
              · simp at h
              · rename_i hl
                split at h
                · simp at h
                · split at h
                  · rename_i hb; left; omega
                  · right
                    cases ho : c.open s.aead p.key (nonce p.salt p.seq) (sec.take r3.used)
                        ((sec.drop r3.used).take (len.toNat - 16))
                        ((sec.drop (r3.used + (len.toNat - 16))).take 16) with
                    | none => rw [ho] at h; simp [Res.ofOption] at h
                    | some pt =>
                      rw [ho] at h
                      simp only [Res.ofOption, Res.ok_bind] at h
                      refine ⟨_, _, _, pt, ho, ?_⟩
                      cases h4 : Res.read .decodeAeadFail rdU16 (Reader.init (pt ++ List.replicate (bufSize - pt.length) 0)) with
                      | err => rw [h4] at h; simp at h
                      | panic =>
                        exfalso; unfold Res.read at h4
                        cases h' : rdU16 (Reader.init (pt ++ List.replicate (bufSize - pt.length) 0)) with
                        | ok => rw [h'] at h4; simp at h4
                        | err => rw [h'] at h4; simp at h4
                        | panic => exact rdU16_ne_panic _ h'
                      | ok q4 =>
                        rw [h4] at h; simp only [Res.ok_bind] at h
                        split at h
                        · simp at h
                        · split at h
                          · omega
                          · simp at h

end Session
end Verif
