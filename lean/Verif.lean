import Verif.Codec.Monad
import Verif.Codec.Basic
import Verif.Codec.Lemmas
import Verif.Codec.Good
import Verif.Props.Codec
import Verif.Proto.Enums
import Verif.Props.Codes
import Verif.Codec.Combi
import Verif.Proto.Algo
import Verif.Props.Algo
import Verif.Proto.Neg
import Verif.Msg.Parts
import Verif.Msg.Negotiate
import Verif.Msg.Auth
import Verif.Msg.Sess
import Verif.Msg.Message
import Verif.Msg.Bounds
import Verif.Spec.Layout
import Verif.Props.Layout
import Verif.Props.Caps
import Verif.Props.Messages
import Verif.Proto.Status
import Verif.Transport.Basic
import Verif.Transport.Mctp
import Verif.Transport.PciDoe
import Verif.Props.Transport
import Verif.Session.Crypto
import Verif.Session.KeySchedule
import Verif.Session.Session
import Verif.Session.RecordLemmas
import Verif.Session.DirLemmas
import Verif.Spec.Toy
import Verif.Props.Record
import Verif.Session.KeyLemmas
import Verif.Props.Keys
import Verif.Ctx.Basic
import Verif.Ctx.Opaque
import Verif.Responder.Send
import Verif.Responder.Handlers
import Verif.Responder.Sessions
import Verif.Responder.Dispatch
import Verif.Spec.Signing
import Verif.Props.Signing
import Verif.Codec.Wp
import Verif.Msg.Ext
import Verif.Responder.Frame
import Verif.Responder.Writers
import Verif.Responder.Codes
import Verif.Responder.Secured
import Verif.Responder.Exchange
import Verif.Responder.Plain
import Verif.Spec.Conn
import Verif.Spec.ToyEnv
import Verif.Spec.ToyRun
import Verif.Responder.Step
import Verif.Responder.Process
import Verif.Responder.Table
import Verif.Props.Conn
import Verif.Spec.Phase
import Verif.Props.Phase
import Verif.Props.Errors
import Verif.Spec.ToySession
import Verif.Props.Table
import Verif.Responder.Exact
import Verif.Props.Cert
import Verif.Responder.Finish
import Verif.Spec.Finish
import Verif.Props.Finish
import Verif.Responder.Slots
import Verif.Responder.Negotiated
import Verif.Responder.Answer
import Verif.Props.Slots
import Verif.Props.Negotiation
import Verif.Responder.Transcript
import Verif.Responder.ExchangeExact
import Verif.Props.Exchange
import Verif.Spec.Transcript
import Verif.Props.Transcript
import Verif.Props.ReqAuth
import Verif.Props.ReqSession
import Verif.Props.ReqExchange
import Verif.Props.ReqNegotiate
import Verif.Props.ReqFinish
import Verif.Props.ReqMutual
import Verif.Props.ReqErrors
import Verif.Props.Tdisp
import Verif.Props.X509
import Verif.Requester.Sessions
import Verif.Msg.Weak
import Verif.Requester.Linked
import Verif.Requester.Peer
import Verif.Requester.Connect
import Verif.Props.Agreement
import Verif.Responder.InSession
import Verif.Props.KeyUpdate
import Verif.Responder.Unsent
import Verif.Requester.LinkedEx
import Verif.Requester.LinkedCert
import Verif.Requester.LinkedSec
import Verif.Requester.LinkedOps
import Verif.Requester.LinkedStep
import Verif.Props.AgreeSession
import Verif.Responder.Sizes
import Verif.Responder.SizesInv
import Verif.Requester.Sizes
import Verif.Props.Sizes
import Verif.Props.Attest
import Verif.Props.Fresh
import Verif.Props.InSession
import Verif.Props.Vendor
import Verif.Requester.Goes
import Verif.Props.CertLoop
import Verif.Props.ReqKeyUpdate
import Verif.Rtc.Model
import Verif.Props.Clock
import Verif.Ring.Model
import Verif.Spec.Ring
import Verif.Props.HashCtx
import Verif.Props.RingCrypto
import Verif.X509.Verify
import Verif.Props.CertVerify
import Verif.Requester.Complete
import Verif.Requester.Wire
import Verif.Props.Interop
import Verif.Encap.Msg
import Verif.Encap.Requester
import Verif.Encap.Responder
import Verif.Encap.Served
import Verif.Encap.Exchange
import Verif.Spec.ToyMutual
import Verif.Props.Encap
import Verif.Encap.Took
import Verif.Props.EncapRsp
import Verif.Responder.Kinds
import Verif.Props.Mutual
import Verif.Responder.Total
import Verif.Responder.Sound
import Verif.Responder.Fits
import Verif.Responder.SoundSend
import Verif.Responder.SoundRsp
import Verif.Props.Chosen
import Verif.Props.NoPanic
import Verif.Requester.Calm
import Verif.Requester.CalmOps
import Verif.Requester.CalmSess
import Verif.Props.ReqNoPanic
import Verif.Props.ReqNoPanicIn
import Verif.Props.ReqNoPanicStart
