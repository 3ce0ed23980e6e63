# Formal model of rust-spdm (Lean 4) — design

## Approach
The model is a set of total, executable Lean functions written next to the Rust source; every definition cites the
file and lines in `/repo` it models and says where it simplifies. Byte strings are `List UInt8`; fixed-width integers
are Lean's `UIntN`. A Rust function becomes a function in the monad `M ε σ α = σ → Out ε σ α` with
`Out = ok a s | err e s | panic`: state changed before an `Err` return stays changed, and panics (slice and array
indexing, `unwrap`, `panic!`) are an outcome of their own. Integer arithmetic that a release build wraps, wraps.

Configuration modelled: default cargo features of `spdmlib` (`spdm-ring`, `std`, `hashed-transcript-data`; `mut-auth`
off, except in `Encap/*` and where `Env.asksMutual` is set), constants of `spdmlib/etc/config.json`, except the number of session slots and of measurement blocks, which stay
parameters.

Everything outside the library is a parameter: `Crypto` (hash, HMAC, HKDF, AEAD, PSK primitives) and `Env` (transport
encapsulation, device send, random numbers, signing, signature verification, Diffie-Hellman, measurement collection,
certificate parsing, the application and vendor handlers); for the requester `REnv` adds what arrives, as a function of
everything sent so far. Theorems quantify over all of them. Laws a theorem needs (for instance "open after seal returns
the plaintext", `AeadLaws`; "a hash has the length of its algorithm", `HashLaw`) are hypotheses of the theorem, never
axioms, and each set of laws is instantiated by the toy environment of `Verif/Spec/Toy*.lean`. Beside each theorem an
`example` exhibits a concrete, non-trivial case that meets its hypotheses (`decide +kernel` on the executable model).

Properties the code does not satisfy are kept in full in `properties.jsonl`; what holds is proved under a name that says
so (`_partial` or a hypothesis naming the excluded case), and the failure is a theorem on a concrete reachable witness
whose name contains `violated`. The claim is then `partial` in `MANIFEST.json`, with the reason.

## Modules
| module | content |
|---|---|
| `Verif/Codec/*` | Reader, Writer, integer and enum codecs; inversion lemmas; weakest preconditions and relations over `M` |
| `Verif/Proto/*` | versions, capability flags, algorithms, sizes, priorities, negotiated parameters, status codes |
| `Verif/Msg/*` | every message payload: encode, read, wire layout, exact success conditions |
| `Verif/Transport/*` | MCTP and PCI DOE framing |
| `Verif/Session/*` | key schedule, record layer, key update |
| `Verif/Ctx/*` | the context shared by both roles: configuration, negotiated state, transcripts, session table; opaque data |
| `Verif/Responder/{Send,Handlers,Sessions,Dispatch}` | the responder model: 17 handlers, dispatch, `process_message` |
| `Verif/Responder/*` (others) | lemmas: what each handler reads, writes and keeps; `Step`, `Process`, `Run` give one step and histories |
| `Verif/Requester/{Send,Negotiate,Auth,Sessions}` | the requester model: all operations of `requester/` but mutual authentication |
| `Verif/Requester/*` (others) | lemmas: what success of each operation means; histories (`History`, `Story`); `Linked*`, `Peer`, `Connect`: both roles over one transport |
| `Verif/Tdisp/Model` | TDISP responder: messages, state machine, dispatch |
| `Verif/X509/*` | DER walking in `crypto/x509v3.rs`, `get_cert_from_cert_chain`, ECDSA signature conversion |
| `Verif/Spec/*` | independent specifications used in theorem statements (layouts, signed data, transcripts, phases, order of requests, FINISH verification, TDISP, DER) and the toy environments |
| `Verif/Props/*` | the property theorems `Cnn_…` and the examples beside them |

## Property plan
| id | model and proof |
|---|---|
| C01 | Reader as (rest, used); every primitive and combinator is `Good`; lifted to every decoder; induction over lists of reads |
| C02 | Writer as (capacity, bytes); relation `Writes enc bytes` proved for every encoder |
| C03 | little-endian byte functions; arithmetic proof for all values |
| C04 | enum decode/encode functions; case analysis over all codes |
| C05 | per message an independent byte-layout specification (`Spec/Layout`); `encode` proved to write exactly it |
| C06 | per message `read (wire m ++ rest) = ok m` leaving `rest` |
| C07 | inversion of each `read` |
| C08, C09 | independent predicate on flags; `read` succeeds iff predicate and enough bytes |
| C10, C11 | priority search over a list; generic induction; instantiated per family |
| C12, C13 | encap/decap functions; algebraic proofs |
| C14, C15 | record layer with abstract AEAD |
| C16, C17 | histories as lists; invariant on the sequence number; the overflow behaviour of the code is stated separately |
| C18 | key update functions; peer synchronisation invariant by induction on update sequences |
| C19, C20 | `bin_concat` on bytes; injectivity; abstract HKDF; both key schedules |
| C21, C22, C45 | session table as list of slots; invariant over all histories of packets |
| C23 | transcript contents as a function of the messages exchanged (`Spec/Transcript`); induction over dialogues |
| C24–C29, C39 | responder step function on bytes; per-handler frame lemmas (`Frame`, `SecOnly`, `OpenedIn`); invariants over all reachable states |
| C30, C31 | responder slice function and requester loop; induction over portions |
| C32–C36 | success inversion of each requester operation; transcripts by induction over histories |
| C37, C38 | error handling of every operation; FINISH failure points, and success with and without mutual authentication including the encapsulated exchange in between (Requester/FinishEx, FinishMutual, Props/ReqFinish, ReqMutual) |
| C40 | byte constants; injectivity |
| C41 | composition of both models over a link (`Linked`); invariant `InStep` over histories of successful operations |
| C42 | parse of the constants the peers send |
| C43 | TDISP transition function; invariant over histories, all device behaviours |
| C44 | DER parser; exact characterisation of what is accepted; progress and bounds of the chain walk |
| C46 | per step: what reaches the application callback opened under the keys of a session in use |
| C47, C48 | exact bytes and effect of ALGORITHMS and CAPABILITIES for every request in every state; the selection after every history (Props/Chosen) |
| C49–C51 | exact bytes of DIGESTS, CHALLENGE_AUTH, MEASUREMENTS for every request in every state |
| C52 | exact bytes of KEY_EXCHANGE_RSP / PSK_EXCHANGE_RSP, keys of the session opened |
| C53 | effect of KEY_UPDATE on the session for every operation |
| C54 | chains served as a function of provisioning, over histories |
| C56 | DER encoding of a raw ECDSA signature decoded by an independent DER reader gives the same integers |
| C57 | sizes of everything sent, against the sizes announced by the peer |
| C58 | nonces as bytes drawn for the message; replay reduced to a hash collision or a signature valid for two messages |
| C59 | the handlers run in a session, with the record layer; history relation `SessionTalk` with a fold over exchanges as specification; a sealed packet carries one message (both transports, any AEAD) |
| C60 | responder's handler plain and in a session through `vendor_does`, forwards (availability, truncation) through the exact writer; requester's operation run backwards |
| C55 | number of GET_CERTIFICATE requests: `Fetches` spells the loop out, bounds by induction on it; the loop that does not end is a `violated` theorem |
| C61 | requester side of KEY_UPDATE: exact effect of success (inversion of the operation), classification of failures, concrete `violated` cases |
| C62 | `Rtc/Model`: the device is an arbitrary function of the access number; untorn reading by case distinction on the position of the change, decoding by complete case analysis |
| C63 | `Ring/Model`: one atomic step per lock, boxes allocated but not yet inserted kept apart; induction over schedules |
| C64 | `Ring/Model`: `encrypt`, `decrypt` over a record of ring's functions; case distinction on the sizes |
| C65 | `Ring/Model` and the RFC 5869 expansion in `Spec/Ring`; unfolding and length computations by induction on the number of blocks |
| C66 | `Ring/Model`: `randomLoop`; induction on the number of turns |
| C67 | `X509/Verify`: the strict DER splitter, path validation and signature verification over an abstract `webpki`; exact characterisation of the splitter by induction, uniqueness of the decomposition into items; the disagreement of the two parsers as `violated` theorems |
| C68 | Requester/Complete.lean proves each of the three exchanges total under the stated conditions (forward execution of requester and responder), Requester/Wire.lean that both transports carry every message up to 4096 bytes; Props/Interop.lean relates the decoders' acceptance of the selection to the configurations (selection_ok) and puts both directions together. |
| C69 | Encap/Msg.lean models the encoders and decoders; Props/Encap.lean states the layouts with literal bytes and proves `Writes`, read-back and totality. |
| C70 | Encap/Requester.lean models the handlers function by function; Encap/Served.lean proves `delivery_ok`/`serve_total` by cases on the decoded request, with portions specified by `take`/`drop` of the chain. |
| C71 | Encap/Exchange.lean: relation `Serving` (constructors none/count/tell/slot, transitive) is preserved by every step of `exchange` for every outcome (`exchange_serves`); `opening_ok`/`ackLoop_ok` invert a successful run. |
| C72 | Encap/Responder.lean models the responder's encapsulated handlers; Encap/Took.lean gives what one delivery does; Props/EncapRsp.lean does the induction over histories (C72_chains), the one-packet form (C72_step) and the frame (C72_only) |
| C73 | Concrete runs of the model evaluated by the kernel and shown to be histories in the sense of C72 (C73_unchecked_violated, C73_sessions_violated); C73_garbled_violated is for every message |
| C74 | Invariant over histories of Encap.processMessage: every session in the table is free, PSK or has mut_auth = 4 (Responder/Kinds), the stored chain is what was delivered and checked (C72), the table is well-formed; then C26's case split with the signature clause of Spec.FinishVerified. Findings by concrete runs, the in-the-clear one for every history |
| C75 | A total-correctness logic (`M.Tot`: no panic, with postconditions) over the whole responder model (Responder/Total, Sound*, Fits, Roomy), the invariant of states between packets (`Poised`, `Placed`: sessions in use only after negotiation, with the negotiated algorithms), induction over histories. Violations are concrete packet sequences. |
| C76 | Total-correctness predicate over the monad (`Calm`): every step from a state in which hash and signature sizes are known, stored chains hold more than their head (and, for requests in sessions, sessions in use have algorithms of known sizes) returns with success or an error into such a state; induction on histories; readers' closure property for hostile bytes. Starting a session: the id is new because the table is in order, and from then on every step keeps the session in place (`Hand`). |

## Trusted base
* Lean 4.33.0 kernel. Axioms: every theorem depends on a subset of `propext`, `Classical.choice`, `Quot.sound`
  (Lean's standard three; no others, no `native_decide`). `AXIOMS.txt` lists `#print axioms` of every theorem named in
  `MANIFEST.json`.
* The faithfulness of the transcription Rust → Lean. Each definition cites its source; nothing was compiled or run
  against the Rust code.
* That the specifications in `Verif/Spec/*` and the theorem statements say what the English properties say.

### Modelled
| source | model |
|---|---|
| `codec/src/codec.rs` | `Codec/{Monad,Basic,Combi}` |
| `mctp_transport/src/header.rs`, `pcidoe_transport/src/header.rs` | `Transport/*` |
| `spdmlib/src/protocol/*.rs`, `error.rs` | `Proto/*` |
| `spdmlib/src/message/*.rs`, `common/spdm_codec.rs` | `Msg/*` |
| `spdmlib/src/common/key_schedule.rs`, `session.rs` | `Session/*` |
| `spdmlib/src/common/mod.rs`, `opaque.rs` | `Ctx/*` |
| `spdmlib/src/responder/*.rs` except `encap_*` | `Responder/{Send,Handlers,Sessions,Dispatch}` |
| `spdmlib/src/message/encapsulated.rs`, `requester/{encap_*,mutual_authenticate}.rs`, `responder/encap_*.rs` | `Encap/{Msg,Requester,Responder}` |
| `spdmlib/src/requester/*.rs` except `encap_*`, `mutual_authenticate.rs` | `Requester/{Send,Negotiate,Auth,Sessions}` |
| `spdmlib/src/crypto/x509v3.rs`, `spdm_ring/{cert_operation,asym_verify}_impl.rs` | `X509/*` |
| `tdisp/src/{message,state_machine,context}.rs`, `tdisp_responder/*` | `Tdisp/Model` |
| `sys_time/src/rtc.rs` | `Rtc/Model` |
| `spdmlib/src/crypto/spdm_ring/{aead,hash,hmac,hkdf,rand}_impl.rs`, hash contexts of `crypto_callbacks.rs` users | `Ring/Model` |

The `tdisp` crate is excluded from the workspace and does not compile at this commit; its model follows the text.

### Not modelled
* Of the `mut-auth` feature (off by default): the requester's checks of `mut_auth_req` in KEY_EXCHANGE_RSP
  (requester/key_exchange_req.rs:225-245). The responder's side is modelled: `Env.asksMutual` says whether KEY_EXCHANGE_RSP asks for
  mutual authentication (false: the default build), FINISH verifies the requester's signature, and the encapsulated
  exchange is modelled on both sides in `Encap/*` (packet processing with the feature: `Encap.processMessage`).
* The non-hashed transcript variant (`hashed-transcript-data` off), and `raw-public-key`-like configurations that do not exist here.
* `ring`, `webpki`, `mbedtls` themselves: abstract functions. Of the wrappers, `spdm_ring/dhe_impl.rs` and `spdmlib_crypto_mbedtls`.
  In the protocol models the crypto callbacks are abstract functions (`Env`), so their theorems hold for every implementation.
* Time (`time/`, the conversion to a timestamp in `sys_time/src/lib.rs`): only certificate validation uses it. The code itself has no heartbeat timer, so sessions do not expire.
* Logging, heap allocation, zeroization of stack copies, timing and constant-time behaviour, the emulators and test crates,
  concrete device I/O. The TDISP requester.
* Concurrency: the library is single-threaded, one call at a time on one context.
* The receive timeout of the requester (`recv` is a function of everything sent; "nothing arrives" is an outcome).
