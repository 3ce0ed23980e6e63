/-
What exactly a response writer returns and leaves behind when it succeeds.
-/
import Verif.Responder.Process

namespace Verif
namespace Rsp

variable {e : Env}

theorem header_ok {bytes : Bytes} {c c' : Ctx} {h : Header} {r : Reader} (hh : header bytes c = .ok (h, r) c') :
    c' = c ∧ ∃ v k t, bytes = v :: k :: t ∧ h = ⟨SpdmVersion.ofCode v, ReqRespCode.ofCode k⟩ ∧ r = ⟨t, 2⟩ := by
  match bytes with
  | [] =>
    obtain ⟨r, h1⟩ := header_read_short (b := []) (by simp)
    simp [header, h1] at hh
  | [a] =>
    obtain ⟨r, h1⟩ := header_read_short (b := [a]) (by simp)
    simp [header, h1] at hh
  | v :: k :: t =>
    simp only [header, header_read, M.pure_apply] at hh
    cases hh
    exact ⟨rfl, v, k, t, rfl, rfl, rfl⟩

theorem checkVersion_ok {bytes : Bytes} {c c' : Ctx} {r : Reader} (hh : checkVersion bytes c = .ok r c') :
    c' = c ∧ ∃ v k t, bytes = v :: k :: t ∧ SpdmVersion.ofCode v = c.neg.version ∧ r = ⟨t, 2⟩ := by
  unfold checkVersion at hh
  obtain ⟨⟨h, r1⟩, c1, h1, h2⟩ := M.bind_ok.1 hh
  obtain ⟨rfl, v, k, t, rfl, rfl, rfl⟩ := header_ok h1
  simp only [M.bind_apply, M.get_apply] at h2
  split at h2
  · simp at h2
  · rename_i hv
    cases h2
    exact ⟨rfl, v, k, t, rfl, Decidable.not_not.1 hv, rfl⟩

theorem readReq_ok {α : Type} {x : Cc → Rd α} {bytes req : Bytes} {r : Reader} {a : α} {c c' : Ctx} (h : readReq x bytes r c = .ok (a, req) c') :
    c' = c ∧ ∃ r', x c.cc r = .ok a r' ∧ req = bytes.take r'.used := by
  simp only [readReq, M.bind_apply, M.get_apply] at h
  cases hx : x c.cc r with
  | panic => simp [hx] at h
  | err u s => simp [hx] at h
  | ok b r' =>
    simp only [hx, M.pure_apply] at h
    cases h
    exact ⟨rfl, r', rfl, rfl⟩

theorem afterNegotiation_ok {c c' : Ctx} {u : Unit} (h : afterNegotiation c = .ok u c') : c' = c ∧ ConnState.negotiated.code ≤ c.rt.state.code := by
  simp only [afterNegotiation, M.bind_apply, M.get_apply] at h
  split at h
  · simp at h
  · cases h; exact ⟨rfl, by omega⟩

theorem mapErr_ok {ε ε' σ α : Type} {x : M ε σ α} {e' : ε'} {s s' : σ} {a : α} : x.mapErr e' s = .ok a s' ↔ x s = .ok a s' := by
  simp only [M.mapErr_apply]
  cases x s <;> simp

theorem orUnspecified_ok {α : Type} {x : M Status Ctx α} {c c' : Ctx} {a : α} : orUnspecified x c = .ok a c' ↔ x c = .ok a c' := mapErr_ok
theorem orAppended_ok {α : Type} {x : M Status Ctx α} {b : Bytes} {c c' : Ctx} {a : α} : orAppended b x c = .ok a c' ↔ x c = .ok a c' := mapErr_ok

theorem lift_ok {ε σ α : Type} {x : Res α} {s s' : σ} {a : α} {e' : ε} : (x.lift.mapErr e' : M ε σ α) s = .ok a s' ↔ x = .ok a ∧ s' = s := by
  rw [mapErr_ok]
  cases x <;> simp [Res.lift, eq_comm]

theorem liftH_ok {α : Type} {x : Res α} {r : Reply} {c c' : Ctx} {a : α} : liftH r x c = .ok a c' ↔ x = .ok a ∧ c' = c := lift_ok

theorem ofOption_ok {ε σ α : Type} {o : Option α} {e' : ε} {s s' : σ} {a : α} : (M.ofOption e' o : M ε σ α) s = .ok a s' ↔ o = some a ∧ s' = s := by
  cases o <;> simp [eq_comm]
theorem unwrap_ok {ε σ α : Type} {o : Option α} {s s' : σ} {a : α} : (M.unwrap o : M ε σ α) s = .ok a s' ↔ o = some a ∧ s' = s := by
  cases o <;> simp [eq_comm]

theorem encodeRsp_ok {k : ReqRespCode} {p : Payload} {w : Cc → Bytes} (hp : ∀ c, Emits (p.encode c) (w c)) {c c' : Ctx} {b : Bytes}
    (h : encodeRsp k p c = .ok b c') : c' = c ∧ b = c.neg.version.get :: k.get :: w c.cc :=
  (Codes.encode_exact (k := k.get) rfl hp c).ok h

/-- the certificate transcript of the connection after `msg` was added. -/
def addB (msg : Bytes) (c : Ctx) : Ctx :=
  { c with rt := { c.rt with m1m2 := some (match c.rt.m1m2 with
      | some x => ⟨x.algo, x.data ++ msg⟩
      | none => ⟨c.neg.baseHash, c.rt.messageA ++ msg⟩) } }

theorem appendM1M2_eq (st : Status) (msg : Bytes) (c : Ctx) : Ctx.appendM1M2 e st msg c =
    if c.rt.m1m2.isSome ∨ (e.crypto.hash c.neg.baseHash []).isSome then .ok () (addB msg c) else .err st c := by
  unfold Ctx.appendM1M2
  simp only [M.bind_apply, M.get_apply]
  cases hx : c.rt.m1m2 with
  | some x => simp [addB, hx, Ctx.hashUpdate]
  | none =>
    cases hh : e.crypto.hash c.neg.baseHash [] with
    | none => simp [Ctx.hashInit, hh]
    | some d => simp [Ctx.hashInit, hh, addB, hx, Ctx.hashUpdate]

theorem appendM1M2_ok {st : Status} {msg : Bytes} {c c' : Ctx} {u : Unit} (h : Ctx.appendM1M2 e st msg c = .ok u c') : c' = addB msg c := by
  rw [appendM1M2_eq] at h
  split at h
  · cases h; rfl
  · cases h

theorem appendBPlain_ok {sid : Option UInt32} {msg : Bytes} {c c' : Ctx} {u : Unit} (h : appendBPlain e sid msg c = .ok u c') :
    c' = if sid = none then addB msg c else c := by
  unfold appendBPlain at h
  cases sid with
  | none => exact appendM1M2_ok h
  | some s => cases h; simp

theorem isOk_true {ε : Type} {x : M Status Ctx Unit} {c c' : Ctx} : (isOk x : M ε Ctx Bool) c = .ok true c' ↔ x c = .ok () c' := by
  unfold isOk
  cases x c <;> simp

/-- a response writer's message that fits is what is sent. -/
theorem reply_sent {x : H Bytes} {r : UInt8} {b : Bytes} {c c1 c' : Ctx} (hx : x c = .ok b c1) (hb : Starts r b) (hr : r ≠ 0x65)
    (hs : tooLarge c1 b = false) (h : (do let b ← reply x; sendMessage e b : M Status Ctx Unit) c = .ok () c') :
    ∃ pkt, Ctx.encap e b = .ok pkt ∧ c' = withState (afterState r c1.rt.state) (withSent pkt c1) := by
  simp only [M.bind_apply, reply, hx] at h
  have := (sendMessage_wp hb hr c1).ok h
  obtain ⟨pkt, h1, _, h3⟩ := this
  unfold outgoing at h1
  rw [hs] at h1 h3
  exact ⟨pkt, h1, h3⟩

/-- the same for a received plain packet. -/
theorem packet_sent {x : H Bytes} {v k r : UInt8} {t b : Bytes} {rx : Bytes} {c c1 c' : Ctx} (hrx : Plain e rx (v :: k :: t))
    (hd : dispatchCode e (ReqRespCode.ofCode k) (v :: k :: t) = (do let b ← reply x; sendMessage e b))
    (hx : x c = .ok b c1) (hb : Starts r b) (hr : r ≠ 0x65) (hs : tooLarge c1 b = false) (h : processMessage e rx c = .ok true c') :
    ∃ pkt, Ctx.encap e b = .ok pkt ∧ c' = withState (afterState r c1.rt.state) (withSent pkt c1) := by
  rw [process_plain rx hrx, isOk_true, dispatch_cons, hd] at h
  exact reply_sent hx hb hr hs h

end Rsp
end Verif
