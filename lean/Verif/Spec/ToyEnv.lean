/-
A concrete environment for running the responder and the requester: toy cryptography, a transport that puts one flag byte in
front, a device that always succeeds.
-/
import Verif.Spec.Toy
import Verif.Ctx.Basic

namespace Verif.Toy

/-- write `b` at the start of the buffer. -/
def put (b : Bytes) : M Status Bytes Nat := fun buf =>
  if b.length ≤ buf.length then .ok b.length (b ++ buf.drop b.length) else .err .encapFail buf

/-- flag byte 6 (secured) or 5 (plain), then the message; inside a secured message flag byte 9 for application data. -/
def transport : Transport where
  encap m sec := put ((if sec then 6 else 5) :: m)
  decap p := fun buf =>
    match p with
    | [] => .err .decapFail buf
    | f :: m => match put m buf with
      | .ok n b => .ok (n, f == 6) b
      | .err e b => .err e b
      | .panic => .panic
  encapApp m app := put ((if app then 9 else 8) :: m)
  decapApp p := fun buf =>
    match p with
    | [] => .err .decapAppFail buf
    | f :: m => match put m buf with
      | .ok n b => .ok (n, f == 9) b
      | .err e b => .err e b
      | .panic => .panic
  seqCount := 2
  maxRandom := 0

/-- signatures are checksums of the data. -/
def sigOf (a : BaseAsym) (d : Bytes) : Option Bytes := (BaseAsym.size? a).map fun n => digest n d

def env : Env where
  crypto := crypto
  tr := transport
  send _ _ := none
  random n := some (List.replicate n 0x5A)
  sign _ a d := sigOf a d
  verify _ a _ d s := decide (sigOf a d = some s)
  dheGen d := (Dhe.size? d).map fun n => (List.replicate n 3, fun p => some (fit n p))
  measure _ _ _ i := some ⟨1, [UInt8.ofNat i, 1, 2, 3]⟩
  summary _ h _ _ _ := (BaseHash.size? h).map fun n => List.replicate n 0x77
  certFromChain d i := if i = 0 ∧ 4 ≤ d.length then some (0, 4) else none
  verifyChain _ := true
  app _ b := some b
  vendor n d := if n.toNat = d.length ∧ d.length ≤ 3832 then some (n, d) else none

end Verif.Toy
