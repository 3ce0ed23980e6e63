/-
The requests inside sessions never panic either, as long as the sessions in use have algorithms of known sizes.
-/
import Verif.Requester.CalmOps
import Verif.Responder.SoundAll

namespace Verif
open M Res
namespace Req

variable {e : REnv} {n : Neg} {lim : Nat}

/-- every session in use has algorithms of known sizes, and its hint when it uses a PSK. -/
def Equipped (g : BaseHash) (l : List Session) : Prop := ∀ s ∈ l, Usable g s

theorem equipped_lasts {g : BaseHash} : Lasts g (Equipped g) := fun _ _ h hl s hs => by
  obtain ⟨s0, h0, h1⟩ := hl s hs
  exact h1 (h s0 h0)

/-- what sending and receiving secured messages relies on: the transport fits the buffers, the AEAD provider keeps sizes, and the device
delivers what fits. -/
structure Secures (e : REnv) (lim : Nat) : Prop where
  room : Rsp.Roomy e.tr lim
  aead : Session.AeadFits e.crypto
  recv : ∀ l p, e.recv l = some p → p.length ≤ 4160 ∧ ∀ q, Rsp.received e.toEnv p = some (q, true) → q.length ≤ lim + 24

/-- the invariant inside sessions. -/
abbrev In (n : Neg) : Ctx → Prop := Base n (Equipped n.baseHash)

theorem in_stable : Stable n.baseHash (In n) := base_stable equipped_lasts

theorem In.session {c : Ctx} (h : In n c) {sid : UInt32} {s : Session} (hs : c.session? sid = some s) : Usable n.baseHash s :=
  h.sess s (List.mem_of_find?_eq_some hs)

/-- the record layer of a usable session. -/
theorem tot_record {x : Session → SecretParam → Res Bytes} {P : Bytes → Prop} {s : Session} {g : BaseHash} (hs : Usable g s) (b : Bool)
    (hx : ∀ t p, Session.Armed t → Safe (x t p) ∧ ∀ r, x t p = .ok r → P r) :
    (Session.dispatchDir x b).Tot s (fun a t => P a ∧ (Usable g s → Usable g t)) (fun _ t => Usable g s → Usable g t) := by
  by_cases h : s.state = .notStarted
  · refine Tot.err (r := .invalidStateLocal) (s' := s) ?_ id
    unfold Session.dispatchDir
    rw [M.bind_apply, M.get_apply]
    dsimp only
    rw [h]
    rfl
  · obtain ⟨ha, hg⟩ := hs (.inl h)
    exact (Session.keeps_dir (s0 := s) (P := P) (fun t p hc _ => hx t p (ha.core hc)) b s (Session.Core.refl s)).mono
      (fun _ t h => ⟨h.2, fun _ _ => ⟨ha.core h.1, h.1.2.1.trans hg⟩⟩) fun _ t h _ _ => ⟨ha.core h, h.2.1.trans hg⟩

theorem calm_encodeSecured (he : Secures e lim) (sid : UInt32) {msg : Bytes} (hm : msg.length ≤ 4096) (isApp : Bool) :
    Calm (In n) (Ctx.encodeSecured e.toEnv sid msg true isApp) (fun _ => True) := by
  unfold Ctx.encodeSecured
  obtain ⟨h1, h2⟩ := he.room.encapApp msg isApp hm
  refine (Calm.lift h1).bind fun a ha => ?_
  refine Calm.bind (P := fun b => b.length ≤ 4160) (calm_onSession in_stable Calm.fail fun c s hc hs => ?_) fun b hb => ?_
  · exact tot_record (x := fun s p => Session.encodeMsg e.crypto s a 4160 p) (hc.session hs) true fun t p ht => Session.safe_encodeMsg he.aead (Rsp.tag_some ht) (h2 a ha)
  · exact (Calm.lift (he.room.encap b true hb)).weaken fun _ _ => trivial

theorem calm_decodeSecured (he : Secures e lim) (sid : UInt32) {l : List Bytes} {p : Bytes} (hp : e.recv l = some p) :
    Calm (In n) (Ctx.decodeSecured e.toEnv sid p 4096) (fun _ => True) := by
  unfold Ctx.decodeSecured
  obtain ⟨h1, h2⟩ := he.recv l p hp
  refine (Calm.lift (he.room.decap p h1)).bind fun r hr => Calm.ite (fun _ => Calm.fail) fun hb => ?_
  have hl := Rsp.intoBuf2_le hr
  have hq : r.1.length ≤ lim + 24 := by
    refine h2 r.1 ?_
    unfold Rsp.received
    obtain ⟨q, b⟩ := r
    cases b with
    | false => exact absurd rfl hb
    | true => change Ctx.intoBuf2 _ 4160 = _ at hr; rw [hr]
  refine Calm.bind (P := fun b => b.length + 24 ≤ r.1.length ∧ b.length ≤ 4160) (calm_onSession in_stable Calm.fail fun c s hc hs => ?_) fun b hb => ?_
  · exact tot_record (x := fun s p => Session.decodeMsg e.crypto s r.1 4160 p) (hc.session hs) false fun t p ht => Session.safe_decodeMsg he.aead (Rsp.tag_some ht) hl
  · exact (Calm.lift (he.room.decapApp b (by omega) hb.2)).bind fun _ _ => Calm.pure trivial

theorem calm_sendSecured (he : Secures e lim) (sid : UInt32) {msg : Bytes} (hm : msg.length ≤ 4096) (isApp : Bool) :
    Calm (In n) (sendSecured e sid msg isApp) (fun _ => True) := by
  unfold sendSecured
  exact Calm.get fun c _ => Calm.ite (fun _ => Calm.fail) fun _ => (calm_encodeSecured he sid hm isApp).bind fun pkt _ => calm_devSend in_stable pkt

theorem calm_receiveSecured (he : Secures e lim) (sid : UInt32) : Calm (In n) (receiveSecured e sid) (fun _ => True) := by
  unfold receiveSecured
  refine Calm.bind (P := fun p => ∃ l, e.recv l = some p) ?_ fun p ⟨l, hp⟩ => calm_decodeSecured he sid hp
  unfold receive
  refine Calm.get fun c _ => (Calm.ofOption _).bind fun p hp => ?_
  rw [if_pos (he.recv _ p hp).1]
  exact Calm.pure ⟨_, hp⟩

theorem transacts_in (hc : Carrier e) (he : Secures e lim) (sid : Option UInt32) : Transacts n (Equipped n.baseHash) e sid := fun msg hm => by
  cases sid with
  | none => exact transacts_none equipped_lasts hc msg hm
  | some i =>
    unfold transact
    exact (calm_sendSecured he i hm false).bind fun _ _ => calm_receiveSecured he i

theorem calm_heartbeat (hc : Carrier e) (he : Secures e lim) (sid : UInt32) : Calm (In n) (heartbeat e sid) (fun _ => True) := by
  unfold heartbeat
  refine (Calm.modify (calm_reset in_stable _ _)).bind fun _ _ => (calm_encodeReq (p := .heartbeat) fun c _ => ⟨[0, 0], encNoParams_writes⟩).bind fun req hq =>
    (transacts_in hc he (some sid) _ hq).bind fun rsp _ => ?_
  unfold handleHeartbeat
  exact (calm_expect in_stable _ _ _).bind fun r hr => (calm_readMsg (fun _ _ => rdNoParams_good) hr).bind fun _ _ => Calm.pure trivial

theorem calm_endSession (hc : Carrier e) (he : Secures e lim) (sid : UInt32) : Calm (In n) (endSession e sid) (fun _ => True) := by
  unfold endSession
  refine (Calm.modify (calm_reset in_stable _ _)).bind fun _ _ => (calm_encodeReq (p := .endSession 0) fun c _ => ⟨_, encEndSession_writes _⟩).bind fun req hq =>
    (transacts_in hc he (some sid) _ hq).bind fun rsp _ => ?_
  unfold handleEndSession
  refine (calm_expect in_stable _ _ _).bind fun r hr => (calm_readMsg (fun _ _ => rdNoParams_good) hr).bind fun _ _ => ?_
  exact (calm_onSession (Q := fun _ => True) in_stable Calm.fail fun c s _ hs => (tot_teardown (session_id hs)).mono (fun _ _ h => ⟨h.1, fun _ => h.2⟩) fun _ _ h _ => h)

/-! ### KEY_UPDATE -/

theorem tot_onSession {g : BaseHash} {I : Ctx → Prop} {α : Type} {missing : M Status Ctx α} {x : M Status Session α} {Q : α → Prop} (hI : Stable g I) {c : Ctx} (hc : I c) {sid : UInt32} {s : Session}
    (hs : c.session? sid = some s) (hx : x.Tot s (fun a t => Q a ∧ Usable g t) (fun _ t => Usable g t)) : (Ctx.onSession sid missing x).Tot c (fun a c' => I c' ∧ Q a) (fun _ c' => I c') := by
  unfold Ctx.onSession
  refine tot_get_bind ?_
  rw [hs]
  dsimp only
  have h := hx
  unfold M.Tot at h
  cases hr : x s with
  | ok a s' =>
    rw [hr] at h
    exact ⟨hI c (c.updSession sid fun _ => s') hc rfl rfl rfl (lasting_upd c sid fun _ _ _ => h.2), h.1⟩
  | err r s' =>
    rw [hr] at h
    exact hI c (c.updSession sid fun _ => s') hc rfl rfl rfl (lasting_upd c sid fun _ _ _ => h)
  | panic => rw [hr] at h; exact h.elim

/-- a session that is there, armed, with the connection's hash. -/
def Here (n : Neg) (sid : UInt32) (c : Ctx) : Prop := ∃ s, c.session? sid = some s ∧ Session.Armed s ∧ s.hash = n.baseHash

/-- what has been sent in a session was sent with its keys. -/
theorem sendSecured_ready (he : Secures e lim) {c c' : Ctx} (hc : In n c) {sid : UInt32} {msg : Bytes} (hm : msg.length ≤ 4096) {isApp : Bool} {u : Unit}
    (h : sendSecured e sid msg isApp c = .ok u c') : Here n sid c' := by
  unfold sendSecured at h
  rw [M.bind_apply, M.get_apply] at h
  dsimp only at h
  split at h
  · cases h
  · obtain ⟨pkt, c1, h1, h2⟩ := M.bind_ok.1 h
    have h3 := (Rsp.tot_devSend pkt c1).of_ok h2
    have key : Here n sid c1 := by
      unfold Ctx.encodeSecured at h1
      obtain ⟨a, c2, g1, g2⟩ := M.bind_ok.1 h1
      obtain ⟨b, c3, g3, g4⟩ := M.bind_ok.1 g2
      have hc2 : c2 = c ∧ Ctx.intoBuf (e.tr.encapApp msg isApp) 4160 = .ok a := by
        cases hx : Ctx.intoBuf (e.tr.encapApp msg isApp) 4160 with
        | ok q => rw [hx] at g1; cases g1; exact ⟨rfl, rfl⟩
        | err q => rw [hx] at g1; cases g1
        | panic => rw [hx] at g1; cases g1
      have hc3 : c1 = c3 := by
        cases hx : Ctx.intoBuf (e.tr.encap b true) 4160 with
        | ok q => rw [hx] at g4; cases g4; rfl
        | err q => rw [hx] at g4; cases g4
        | panic => rw [hx] at g4; cases g4
      obtain ⟨rfl, ha⟩ := hc2
      subst hc3
      cases hs : c2.session? sid with
      | none =>
        unfold Ctx.onSession at g3
        rw [M.bind_apply, M.get_apply] at g3
        dsimp only at g3
        rw [hs] at g3
        cases g3
      | some s =>
        by_cases hst : s.state = .notStarted
        · unfold Ctx.onSession at g3
          rw [M.bind_apply, M.get_apply] at g3
          dsimp only at g3
          rw [hs] at g3
          have : Session.encodeSecured e.crypto a 4160 true s = .err .invalidStateLocal s := by
            unfold Session.encodeSecured Session.dispatchDir
            rw [M.bind_apply, M.get_apply]
            dsimp only
            rw [hst]
            rfl
          dsimp only at g3
          rw [this] at g3
          cases g3
        · obtain ⟨harm, hhash⟩ := hc.session hs (.inl hst)
          have := (Rsp.onSession_tot (x := Session.encodeSecured e.crypto a 4160 true) (P := fun (b : Bytes) => b.length ≤ 4160) (missing := M.fail .invalidParameter) hs
            (Session.keeps_dir (x := fun s p => Session.encodeMsg e.crypto s a 4160 p) (s0 := s) (fun s' p hcore _ => Session.safe_encodeMsg he.aead (Rsp.tag_some (harm.core hcore)) ((he.room.encapApp msg isApp hm).2 a ha)) true s
              (Session.Core.refl s))).of_ok g3
          obtain ⟨t, ht, hcore⟩ := this.1.toLoose.session hs
          exact ⟨t, ht, harm.core hcore, hcore.2.1.trans hhash⟩
    rw [h3]
    exact key

theorem usable_activate (a b n : Bool) {g : BaseHash} {s : Session} (h : Usable g s) : Usable g (Session.activateUpdate a b n s) := fun hs => by
  have h1 : (Session.activateUpdate a b n s).state = s.state := by cases a <;> cases b <;> cases n <;> rfl
  have h2 : (Session.activateUpdate a b n s).th = s.th := by cases a <;> cases b <;> cases n <;> rfl
  rw [h1, h2] at hs
  exact ⟨(h hs).1.core (Session.core_activate a b n s), (Session.core_activate a b n s).2.1.trans (h hs).2⟩

theorem calm_handleKeyUpdate (sid : UInt32) (a b : Bool) (bytes : Bytes) : Calm (In n) (handleKeyUpdate sid a b bytes) (fun _ => True) := by
  unfold handleKeyUpdate
  refine (calm_expect in_stable _ _ _).bind fun r hr => ?_
  have h := KeyUpd.read_good.ne_panic r
  have ack : ∀ ok, Calm (In n) (keyUpdateAck sid a b ok) (fun _ => True) := fun ok => by
    unfold keyUpdateAck
    refine (calm_onSession (Q := fun _ => True) in_stable Calm.fail fun c s hc hs => ?_).bind fun _ _ => Calm.ite (fun _ => Calm.pure trivial) fun _ => Calm.fail
    exact tot_modify ⟨trivial, usable_activate _ _ _⟩
  cases hx : KeyUpd.read r with
  | ok m t => exact ack true
  | err m t => exact ack false
  | panic => exact absurd hx h

theorem calm_keyUpdateOp (he : Secures e lim) (sid : UInt32) (op : KeyUpdateOp) (tag : UInt8) : Calm (In n) (keyUpdateOp e sid op tag) (fun _ => True) := by
  unfold keyUpdateOp
  refine (Calm.modify (calm_reset in_stable _ _)).bind fun _ _ => (calm_encodeReq (p := .keyUpdate ⟨op, tag⟩) fun c _ => ⟨_, KeyUpd.encode_writes _⟩).bind fun req hq => ?_
  intro c hc
  have h1 := calm_sendSecured he sid hq false c hc
  cases hs : sendSecured e sid req false c with
  | panic => exact absurd hs h1.ne
  | err st c1 =>
    refine Tot.err (r := st) (s' := c1) ?_ (h1.of_err hs)
    rw [M.bind_apply, hs]
  | ok u c1 =>
    have hc1 := (h1.of_ok hs).1
    obtain ⟨s, h2, h3, h4⟩ := sendSecured_ready he hc hq hs
    have key : ((do
        let c ← M.get
        Ctx.onSession sid (M.fail .invalidParameter) (Session.createUpdate e.crypto c.neg.version (updatesReq op) (updatesRsp op))
        let rsp ← receiveSecured e sid
        handleKeyUpdate sid (updatesReq op) (updatesRsp op) rsp : M Status Ctx Unit)).Tot c1 (fun a c' => In n c' ∧ True) (fun _ c' => In n c') := by
      refine tot_get_bind ?_
      refine Tot.bind (P := fun _ c' => In n c' ∧ True) (tot_onSession in_stable hc1 h2 ?_) ?_
      · exact (Session.keeps_createUpdate e.crypto _ h3 _ _ s (Session.Core.refl s)).mono (fun _ t h => ⟨trivial, fun _ => ⟨h3.core h, h.2.1.trans h4⟩⟩) fun _ t h _ => ⟨h3.core h, h.2.1.trans h4⟩
      · rintro _ c2 ⟨hc2, -⟩
        exact ((calm_receiveSecured he sid).bind fun rsp _ => calm_handleKeyUpdate sid _ _ rsp) c2 hc2
    unfold M.Tot at key ⊢
    rw [M.bind_apply, hs]
    exact key

theorem calm_keyUpdate (he : Secures e lim) (sid : UInt32) (op : KeyUpdateOp) : Calm (In n) (keyUpdate e sid op) (fun _ => True) := by
  unfold keyUpdate
  exact Calm.ite (fun _ => Calm.fail) fun _ => (calm_keyUpdateOp he sid op 1).bind fun _ _ => calm_keyUpdateOp he sid .verifyNewKey 2

end Req
end Verif
