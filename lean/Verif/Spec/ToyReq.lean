/-
A concrete requester talking to the concrete responder, to run the model on.
-/
import Verif.Spec.ToyRun
import Verif.Requester.History

namespace Verif.Toy
open Req

/-- what the responder answers to the last of the packets `l`. -/
def answer (e : Env) (c0 : Ctx) (l : List Bytes) : Option Bytes := (Toy.runAll e c0 l).bind fun c => c.sent.getLast?

/-- the toy responder with capabilities a requester accepts. -/
def rsp0 : Ctx := Ctx.new { cfg with rspCaps := 0x6AF6 } { chainData := fun i => if i = 0 then some [1, 2, 3, 4, 5, 6, 7, 8] else none } 2

/-- the toy environment with one well-formed measurement block. -/
def menv : Env := { env with measure := fun _ _ _ _ => some ⟨1, [1, 1, 4, 0, 0x81, 1, 0, 7]⟩ }

/-- a peer that is this responder. -/
def renv : REnv := { menv with recv := answer menv rsp0 }

/-- the capability flags of the requester. -/
def reqCfg : Config := { cfg with reqCaps := 0x66C6, reqCt := 20 }

/-- a requester with `n` session slots. -/
def req0 : Ctx := Ctx.new reqCfg {} 2

/-- run operations one after the other; `none` after a panic, with the outcome of each. -/
def runOps (e : REnv) : Ctx → List Op → Option (List (Option Status) × Ctx)
  | c, [] => some ([], c)
  | c, op :: l =>
    match op.run e c with
    | .ok _ c' => (runOps e c' l).map fun x => (none :: x.1, x.2)
    | .err st c' => (runOps e c' l).map fun x => (some st :: x.1, x.2)
    | .panic => none

end Verif.Toy
