/-
A concrete responder and concrete requests, to run the model on.
-/
import Verif.Spec.ToyEnv
import Verif.Responder.Dispatch

namespace Verif.Toy
open Rsp

/-- a responder offering 1.0 to 1.2, SHA-256, ECDSA P-256, secp256r1, AES-256-GCM. -/
def cfg : Config :=
  { version0 := .v10, version1 := .v11, version2 := .v12, rspCaps := 0x1F6, rspCt := 20, measSpec := 1, measHash := 2, baseHash := 1,
    baseAsym := 0x10, dhe := 8, aead := 2, reqAsym := 0, keySchedule := 1, opaqueSupport := 2, dts := 4096, mms := 4096,
    secureVersions := [0x11] }

/-- two session slots, a certificate chain in slot 0. -/
def ctx0 : Ctx := Ctx.new cfg { chainData := fun i => if i = 0 then some [1, 2, 3, 4, 5, 6, 7, 8] else none } 2

/-- GET_VERSION -/
def version : Bytes := [5, 0x10, 0x84, 0, 0]
/-- GET_CAPABILITIES, version 1.2 -/
def capabilities : Bytes := [5, 0x12, 0xE1, 0, 0, 0, 20, 0, 0, 0xC6, 0x77, 0, 0, 0, 0x10, 0, 0, 0, 0x10, 0, 0]
/-- NEGOTIATE_ALGORITHMS -/
def algorithms : Bytes :=
  [5, 0x12, 0xE3, 4, 0, 48, 0, 1, 2, 0x10, 0, 0, 0, 1, 0, 0, 0] ++ List.replicate 12 0 ++ [0, 0, 0, 0] ++
    [2, 0x20, 8, 0, 3, 0x20, 2, 0, 4, 0x20, 0, 0, 5, 0x20, 1, 0]

/-- process packets one after the other; `none` after a panic. -/
def runAll (e : Env) : Ctx → List Bytes → Option Ctx
  | c, [] => some c
  | c, rx :: l =>
    match processMessage e rx c with
    | .ok _ c' => runAll e c' l
    | .err _ c' => runAll e c' l
    | .panic => none

/-- the responder after negotiation. -/
def negotiated : Ctx := (runAll env ctx0 [version, capabilities, algorithms]).getD ctx0

end Verif.Toy
