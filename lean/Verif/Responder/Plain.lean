/-
What the responder does to its context while handling a message outside a session.
-/
import Verif.Responder.Exchange

namespace Verif
namespace Rsp
variable {e : Env}

theorem header_read (v k : UInt8) (t : Bytes) :
    Header.read (Reader.init (v :: k :: t)) = .ok ⟨SpdmVersion.ofCode v, ReqRespCode.ofCode k⟩ ⟨t, 2⟩ := by
  simp [Header.read, Reader.init, SpdmVersion.read, ReqRespCode.read]

theorem header_read_short {b : Bytes} (h : b.length < 2) : ∃ r, Header.read (Reader.init b) = .err () r := by
  match b, h with
  | [], _ => exact ⟨_, rfl⟩
  | [a], _ => exact ⟨_, rfl⟩

/-- nothing but the packets sent changed, and at most one packet was. -/
def Sent (c c' : Ctx) : Prop := c' = c ∨ ∃ pkt, c' = withSent pkt c

/-- an answer was written without touching the connection state or a session, and possibly sent; `k` is the code of a
positive answer. -/
def Answered (kk : Bool) (k : UInt8) (c c' : Ctx) : Prop :=
  ∃ c1, Frame kk none c c1 ∧ (Sent c1 c' ∨ ∃ pkt, c' = withState (afterState k c1.rt.state) (withSent pkt c1))

theorem withState_self (c : Ctx) : withState c.rt.state c = c := rfl

theorem sendMessage_any {k : UInt8} {b : Bytes} (hb : Starts k b) (hk : k ≠ 0x65) (c : Ctx) :
    (sendMessage e b).wp c (fun _ c' => Sent c c' ∨ ∃ pkt, c' = withState (afterState k c.rt.state) (withSent pkt c)) (fun _ c' => Sent c c') := by
  refine (sendMessage_wp hb hk c).mono ?_ ?_
  · rintro _ c' ⟨pkt, _, _, rfl⟩
    split
    · exact .inl (.inr ⟨pkt, rfl⟩)
    · exact .inr ⟨pkt, rfl⟩
  · rintro _ c' (rfl | ⟨pkt, _, rfl⟩)
    · exact .inl rfl
    · exact .inr ⟨pkt, rfl⟩

theorem sendMessage_error_any {b : Bytes} (hb : Starts 0x7F b) (c : Ctx) :
    (sendMessage e b).wp c (fun _ => Sent c) (fun _ => Sent c) := by
  refine (sendMessage_error_wp hb c).mono ?_ ?_
  · rintro _ c' ⟨pkt, _, _, rfl⟩
    exact .inr ⟨pkt, rfl⟩
  · rintro _ c' (rfl | ⟨pkt, _, rfl⟩)
    · exact .inl rfl
    · exact .inr ⟨pkt, rfl⟩

theorem plain_wp {kk : Bool} {k : UInt8} {x : H Bytes} (hx : M.Rel (Frame kk none) x) (hc : Codes k (Starts k) x) (hk : k ≠ 0x65) (c : Ctx) :
    (do let b ← reply x; sendMessage e b).wp c (fun _ => Answered kk k c) (fun _ => Answered kk k c) := by
  rw [M.wp_bind]
  have h1 := rel_reply hx c
  have h2 := reply_wp hc c
  refine (h1.and h2).mono ?_ (fun _ _ h => h.2.elim)
  rintro b c1 ⟨hf, hb | ⟨code, data, rfl⟩⟩
  · refine (sendMessage_any hb hk c1).mono ?_ ?_
    · rintro _ c' h
      exact ⟨c1, hf, h⟩
    · rintro _ c' h
      exact ⟨c1, hf, .inl h⟩
  · refine (sendMessage_error_any (starts_error _ _ _) c1).mono ?_ ?_ <;> (rintro _ c' h; exact ⟨c1, hf, .inl h⟩)

/-- a writer that refuses before doing anything: the answer is the four-byte ERROR message, nothing else happens. -/
theorem refused_eq {x : H Bytes} {c : Ctx} {code : ErrorCode} {data : UInt8} (h : x c = .err { code := code, data := data } c) :
    (do let b ← reply x; sendMessage e b : M Status Ctx Unit) c = sendMessage e (errorBytes c.neg.version code data) c := by
  simp only [M.bind_apply, reply, h, writeError_nil c { code := code, data := data } rfl]

/-! ### GET_VERSION -/

/-- the four bytes of the request, the version response: header with version 1.0, three entries. -/
def versionBytes (cfg : Config) : Bytes :=
  [0x10, 0x04, 0, 0, 0, 3, 0, cfg.version0.get, 0, cfg.version1.get, 0, cfg.version2.get]

theorem version_encode (c : Ctx) :
    Msg.encode c.cc ⟨⟨.v10, .rspVersion⟩, .version ⟨[⟨0, c.config.version0⟩, ⟨0, c.config.version1⟩, ⟨0, c.config.version2⟩]⟩⟩
      (Writer.init msgSize) = .ok 12 ⟨msgSize, versionBytes c.config⟩ := by
  have hw : Writes (Msg.encode c.cc ⟨⟨.v10, .rspVersion⟩, .version ⟨[⟨0, c.config.version0⟩, ⟨0, c.config.version1⟩, ⟨0, c.config.version2⟩]⟩⟩)
      (versionBytes c.config) := by
    refine (Writes.seq_cons (Header.encode_writes _) (Writes.seq_cons (VersionRsp.encode_writes _) Writes.seq_nil)).cast ?_
    rfl
  have := (hw (Writer.init msgSize) (by simp [Writer.WF, Writer.init])).1 (by simp [Writer.init, versionBytes, msgSize])
  rw [this]
  simp [Writer.init, versionBytes]

theorem encodeVersion_ok (c : Ctx) : encodeVersion c = .ok (versionBytes c.config) c := by
  unfold encodeVersion
  rw [version_encode]

/-- the context right after a GET_VERSION request was answered, before sending. -/
def fresh (c : Ctx) (req : Bytes) : Ctx :=
  { c.reset with rt := { messageA := req ++ versionBytes c.config } }

theorem versionRsp_ok (p1 p2 : UInt8) (t : Bytes) (c : Ctx) :
    versionRsp (0x10 :: 0x84 :: p1 :: p2 :: t) c = .ok (versionBytes c.config) (fresh c [0x10, 0x84, p1, p2]) := by
  unfold versionRsp header readReq
  have hn : rdNoParams ⟨p1 :: p2 :: t, 2⟩ = .ok () ⟨t, 4⟩ := by simp [rdNoParams]
  have e1 : (Ctx.resetBuffers .reqGetVersion none c).reset = c.reset := by
    unfold Ctx.resetBuffers Ctx.resetM Ctx.reset
    simp
  have hv : SpdmVersion.ofCode 0x10 = .v10 := rfl
  simp only [header_read, M.bind_apply, M.pure_apply, hv, ne_eq, not_true_eq_false, if_false, M.modify_apply, M.get_apply, hn, e1,
    orUnspecified, M.mapErr, Ctx.appendA, orAppended]
  have hl : ([] : Bytes).length + (List.take 4 (0x10 :: 0x84 :: p1 :: p2 :: t)).length ≤ Ctx.capA := by simp [Ctx.capA]
  have hA : c.reset.rt.messageA = [] := rfl
  simp only [hA, List.take_succ_cons, List.take_zero, List.nil_append]
  rw [if_pos (by simp [Ctx.capA])]
  simp only [M.set_apply, encodeVersion_ok]
  rw [if_pos (by simp [Ctx.capA, versionBytes])]
  rfl

/-- a GET_VERSION request resets the context and is answered. -/
theorem handleVersion_ok (p1 p2 : UInt8) (t : Bytes) (c : Ctx) :
    handleVersion e (0x10 :: 0x84 :: p1 :: p2 :: t) c = sendPlain e (versionBytes c.config) (fresh c [0x10, 0x84, p1, p2]) := by
  unfold handleVersion
  simp only [M.bind_apply, reply, versionRsp_ok, sendMessage, M.get_apply]
  rfl

/-- a GET_VERSION request that is malformed leaves everything but the measurement transcript alone. -/
theorem versionRsp_bad (v : UInt8) (t : Bytes) (c : Ctx) (h : ¬ (v = 0x10 ∧ 2 ≤ t.length)) :
    ∃ code c1, Frame true none c c1 ∧ versionRsp (v :: 0x84 :: t) c = .err { code := code } c1 := by
  unfold versionRsp header
  simp only [header_read, M.bind_apply, M.pure_apply]
  by_cases hv : v = 0x10
  · subst hv
    have hv : SpdmVersion.ofCode 0x10 = .v10 := rfl
    simp only [hv, ne_eq, not_true_eq_false, if_false, M.bind_apply, M.modify_apply, readReq, M.get_apply]
    have : ∃ r, rdNoParams ⟨t, 2⟩ = .err () r := by
      match t with
      | [] => exact ⟨_, rfl⟩
      | [a] => exact ⟨_, rfl⟩
      | a :: b :: t => simp at h
    obtain ⟨r, hr⟩ := this
    simp only [hr, M.fail_apply]
    exact ⟨_, _, Ctx.frame_resetBuffers (sid := none) _ _, rfl⟩
  · have : SpdmVersion.ofCode v ≠ .v10 := by
      intro hc
      have := SpdmVersion.get_ofCode v
      rw [hc] at this
      exact hv this.symm
    simp only [this, ne_eq, not_false_eq_true, if_true, M.fail_apply]
    exact ⟨_, c, M.Pre.refl c, rfl⟩

theorem sendPlain_version_wp (c : Ctx) (cfg : Config) :
    (sendPlain e (versionBytes cfg)).wp c (fun _ c' => ∃ pkt, c' = withState .afterVersion (withSent pkt c))
      (fun _ => Sent c) := by
  refine (sendPlain_wp (code := 0x04) ⟨_, _, rfl⟩ (by decide) c).mono ?_ ?_
  · rintro _ c' ⟨pkt, _, _, rfl⟩; exact ⟨pkt, rfl⟩
  · rintro _ c' (rfl | ⟨pkt, _, rfl⟩)
    · exact .inl rfl
    · exact .inr ⟨pkt, rfl⟩

end Rsp
end Verif
