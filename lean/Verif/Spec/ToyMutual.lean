/-
A concrete requester and a concrete responder that authenticate each other.
-/
import Verif.Spec.ToyReq
import Verif.Encap.Responder

namespace Verif.Toy
open Req Encap

/-- process packets one after the other, with `mut-auth`; `none` after a panic. -/
def runMutual (e : Env) : Responder → List Bytes → Option Responder
  | p, [] => some p
  | p, rx :: l =>
    match Encap.processMessage e rx p with
    | .ok _ p' => runMutual e p' l
    | .err _ p' => runMutual e p' l
    | .panic => none

/-- the responder of `ToyReq`, with ENCAP_CAP. -/
def mutualRsp (v2 : SpdmVersion) : Responder := { c := Ctx.new { cfg with version2 := v2, rspCaps := 0x7AF6 } { chainData := fun i => if i = 0 then some [1, 2, 3, 4, 5, 6, 7, 8] else none } 2 }

/-- a peer that is this responder. -/
def mutualEnv (v2 : SpdmVersion) : REnv :=
  { menv with recv := fun l => (runMutual menv (mutualRsp v2) l).bind fun p => p.c.sent.getLast? }

/-- a requester with ENCAP_CAP and a certificate chain of its own. -/
def mutualReq (v2 : SpdmVersion) : Ctx :=
  Ctx.new { reqCfg with version2 := v2, reqCaps := 0x76C6 } { chainData := fun i => if i = 0 then some [9, 8, 7, 6, 5, 4, 3, 2, 1] else none } 2

/-- the requester before the mutual authentication, in the handshake of its first session. -/
def beforeMutual (v2 : SpdmVersion) : Option (List (Option Status) × Ctx) :=
  runOps (mutualEnv v2) (mutualReq v2) [.connect, .digests none, .certificate 20 none 0, .keyExchange 0 .none]

end Verif.Toy
