# Formal model of tkhq/qos in Lean 4

## Layout

* `properties.jsonl` – the English properties (C01, C02, ...).
* `lean/Verif/Model/*.lean` – the model: total Lean functions (and two transition systems), each citing the `/repo` file
  and lines it models. Paths in citations are relative to `/repo/src` or unambiguous suffixes.
* `lean/Verif/Spec/*.lean` – the vocabulary in which properties are stated, independent of the model's helpers.
* `lean/Verif/Lemmas/*.lean` – helper lemmas, never cited by `MANIFEST.json`.
* `lean/Verif/Props/*.lean` – the property theorems (their doc comment starts with `Cxx:`), and beside them `example`s or
  `toy_*` theorems showing that the hypotheses are met by a concrete non-trivial case.
* `lean/Verif/Conformance/*.lean` – tests of the model against data recorded from the real program (see "Model
  validation"); no property theorem rests on them.
* `MANIFEST.json` – property → theorem names and status; generated by `tools/manifest.py` from `tools/claims.txt`, which
  also checks that the names exist and writes `lean/Verif.lean`.
* `seeded/LOG.jsonl` – wrong-program experiments: mutations of the model, the claim each breaks, the theorems that failed.

## Trusted base

* Lean 4.33 kernel; axioms at most `propext`, `Classical.choice`, `Quot.sound` (checked by vcheck). No axiom of our own,
  no compiled evaluation in any proof. `decide +kernel` is used only for concrete examples and for complete finite tables.
* The reading of the Rust source: the model is hand written from the text of `/repo`; the Rust is never executed here.
* External crates are not in the sandbox. What is assumed of each:
  * **sha2, hkdf, hmac, p256, aes-gcm** – `Prims` (Model/P256.lean): uninterpreted functions. Most theorems need nothing
    of them. Where a property needs correctness it assumes `Prims.Laws`: output lengths, points derived from a scalar
    decode, ECDH commutes, AES-GCM decryption inverts encryption and encryption of less than 2 GiB succeeds and adds 16
    bytes, ECDSA verifies what it signed, signatures have 64 bytes. No hardness is assumed: a claim that depends on
    collision resistance is stated as "equal, or here is a collision". `toyLaws` exhibits simple primitives with all the laws, and C80
    (`laws_hold`) proves the laws of the standard algorithms themselves, so that what remains assumed is that the crates
    compute these functions.
  * **vsss_rs** – the documented scheme over GF(2^8) with the AES polynomial (Model/Shamir.lean): re-implemented; the
    field structure and the interpolation are proved.
  * **borsh, serde, serde_derive, serde_json** – re-implemented as codec combinators (Model/Borsh, Typed, Json, Wire) from
    their documented rules. Simplifications: error texts are dropped; a number that is not an `i64`/`u64` keeps only its
    text (so a float too large for an `f64` is refused there and kept here); serde's recursion limit of 128 is modelled;
    `serde_json` skips the members a typed reader ignores without checking surrogate pairs, UTF-8 or nesting in them, the
    model reads the whole text first and refuses such a text; `borsh`'s `de_strict_order` is off, so a `BTreeSet` may be read from
    an unsorted sequence; a `BTreeSet` is its strictly increasing list.
  * **aws-nitro-enclaves-cose, webpki/x509, ciborium** – the abstract record `Pki`: how a document is decoded, whether the
    chain holds at a time, whether the signature holds. Theorems quantify over it. Positive results about documents
    reaching an operator (C42, C50, C51) assume that the decoder and the checks accept what an honest device signs
    (`Vouched`, Spec/Client.lean).
  * **tokio, axum, ureq, nix, vsock** – not modelled as code; their effect is a schedule (below).
* The NSM: theorems that need an honest device assume `HonestDevice` (Spec/Device.lean): it behaves like the repository's
  own `MockNsm` (Model/Nsm.lean), started with 32 unlocked registers of 48 bytes, the two commitment registers zero and
  the others arbitrary. All safety theorems about the enclave hold for an arbitrary, possibly malicious device unless the
  statement mentions `HonestDevice`.
* Randomness, clock, device answers and file-system failures are functions in `Env`; theorems quantify over them.
  `Env.Ok` says: the primitive laws, random seeds have 32 bytes, random scalars are valid, the four paths differ.

## What is modelled

| crate | files | model |
|---|---|---|
| qos_hex | lib.rs | Hex |
| qos_json | lib.rs | Json, Typed |
| qos_crypto | shamir.rs, n_choose_k.rs, lib.rs | Shamir, NChooseK, P256 |
| qos_p256 | lib.rs, encrypt.rs, sign.rs | P256 |
| qos_nsm | types.rs, mock.rs, nitro/mod.rs, nitro/syntactic_validation.rs, nitro/error.rs, nsm.rs | Nsm, NsmProvider, Attest, World |
| qos_core | protocol/state.rs, msg.rs, processor.rs, error.rs, services/{attestation,boot,genesis,key,provision}.rs, boot/{env,manifest,manifest/v2,manifest/builder}.rs | Errors, Env, Manifest, Approvals, Builder, Services, Msg, Wire, StateMachine |
| qos_core | handles.rs | World (file system), Handles |
| qos_core | io/{mod,pool,stream}.rs, client.rs, server.rs | Stream, Pool, Net, NetEnclave |
| qos_core | egress.rs (both pumps) | Egress |
| qos_core | egress.rs (the two processes and their restarts) | Tunnel |
| qos_core | reaper.rs, egress.rs (its command line), io/host_bridge.rs (its constructor and port check) | Reaper |
| qos_core | parser.rs, cli.rs | Parser, EnclaveCli |
| qos_host | host.rs, lib.rs, cli.rs | Host, HostCli |
| qos_bridge, qos_net | cli.rs | HostCli |
| qos_bridge | host.rs | Bridge |
| qos_enclave | main.rs (nitro_cli and signals outside) | Launcher |
| init, qos_system, qos_aws | init.rs, setip.rs, lib.rs | Init |
| qos_client, std | the prompts of cli/services.rs, `Debug` text | Prompts |
| signed_echo | lib.rs, main.rs | SignedEcho, SockAddr |
| std | `IpAddr` text | Ip |
| qos_core | io/host_bridge.rs | Bridge, Relay |
| qos_net | proxy.rs, proxy_msg.rs, proxy_connection.rs, proxy_stream.rs (the connect functions), error.rs | Proxy |
| qos_client | cli/services.rs, cli/mod.rs, lib.rs | ClientFiles, Client, ClientTools, ClientCli |
| qos_client | yubikey.rs, and services.rs, mod.rs with the `smartcard` feature | Yubikey |

Not modelled: memory safety and zeroisation; log lines and help texts; the inside of certificates on YubiKeys (dates, names) and the PC/SC session; the effect of the kernel calls and external
programs that `init` and `qos_system` issue (which calls, with which arguments and in which order, is modelled); `qos_test_harness`, `integration`, fuzz targets; HTTP itself; timers have no length; the `mock` feature
switches of `qos_nsm` other than the mock device.

## General modelling decisions

* `&mut self` becomes state passing; `Result` becomes `Except`; a panic is an explicit outcome (`none`, `Stop.panic`), or
  cannot happen and a theorem says so (e.g. `Wire.process_total`).
* Integers are unbounded `Nat` with the range checks of the code, except where the property is about wrap-around
  (`NChooseK`, `Pool`: both overflow modes).
* Enclave services run in a small state monad over a world with files, device, randomness and an I/O fault oracle. Every
  file-system primitive and every device request is appended to a trace; a non-atomic write logs every intermediate
  prefix. "At every moment, including crashes" is a statement about every entry of the trace, and every primitive may fail
  or stop short.
* `History E fs0 h s`: an enclave started on the files `fs0` has answered the request/response list `h` and is in state
  `s`. All life-cycle theorems quantify over all histories. C36 proves that every schedule of concurrent clients over the
  socket server is such a history.
* `Net` is a transition system: a task step between two awaits is one transition; a time-out, a cancelled future and an
  I/O error are the same transition `abort`, possible at any time; `try_connect` is a call that connects and aborts. No
  fairness is assumed; C82 says how every run ends that is left to itself.
* `Reaper` is a step machine driven by what the outside world does at each step; delays have no length; bridge
  traffic and the reprinted output are separate models (`Bridge`, `Relay`, `Reprint`).
* `Client`: a command is a function of the operator's disk, key files, randomness, answers and of the HTTP endpoint, which
  is an arbitrary state machine; it produces a result and the list of observable effects (questions shown, bytes sent,
  files written). Prompts are structured values; `Prompts` models the texts shown for them. With `Facing` the endpoint is the host model in front of the
  enclave model over a connection that does not fail (frame limit 128 MiB in both directions).
* `Host`: a handler is a function of an arbitrary enclave connection. Of axum's routing only literal paths are modelled; the bodies of error
  answers of the health and info endpoints are not modelled.
* `Pool`: Unix sockets are path names of at most 107 bytes.

## Per property

Status is in `MANIFEST.json`. All are stated without bounds on sizes, steps, histories or schedules.

| id | modelled | proof |
|----|----------|-------|
| C01-C04 | `ProtocolState`, routes, `transition`, all handlers | per-handler frame lemmas, induction over histories |
| C05, C39 | `ensure_unique_members`, `check_approvals` | list induction; iff with a declarative quorum |
| C06-C10, C12, C13, C17 | `put_manifest_and_pivot`, `provision`, `inject_key`, handles over the step-level file system, NSM | one invariant over all reachable states and all trace entries |
| C11 | the same | a concrete history refutes the natural expectation |
| C14 | `MockNsm` | invariant over request lists |
| C15, C16 | `validate_manifest`, `export_key` | iff with a declarative spec; induction over chains of forwards |
| C18 | export then inject | `Prims.Laws` |
| C19-C21 | GF(256) sharing, `boot_genesis` | Lagrange interpolation over the proved field; a bijection of polynomials for secrecy |
| C22 | `qos_hex` | induction on bytes |
| C23 | stream send/recv over arbitrary chunk schedules | induction over schedules |
| C24-C27 | `from_wire`, `to_wire`, codecs, versions | codec combinators with round-trip lemmas |
| C28, C41 | canonical JSON writer, manifest hash | prefix-free encoding lemma; across versions: the first four bytes of the text, read as Borsh, are a length above 1.6 GB |
| C29, C30 | attestation checks, syntax validation | iff with a declarative spec; injectivity of the commitment pre-image |
| C31 | `PivotEnv` | invariant over operation lists |
| C32 | `ManifestBuilder` | fold over call lists, iff |
| C33 | `combinations` | loop invariant against recursive subsets |
| C34 | reaper step machine | induction over schedules, composed with histories |
| C35, C36 | client, pool, server as one transition system | invariant; linearisation; simulation of `History` |
| C37 | pool addresses | induction |
| C38 | P-256 byte formats | append/length injectivity, `Prims.Laws` for round trips |
| C40 | command line parser | induction over the argument vector against a grammar of items |
| C42 | boot and provisioning with honest device and reliable files | forward execution of the invariant's conditions |
| C43, C45, C47 | files read and written by the operator's commands | iff with readings of the files; round trips |
| C44, C46, C48 | `approve-manifest`, `proxy-re-encrypt-share`, genesis commands | safety against any host behaviour, and completeness |
| C49, C50 | client → host → enclave | composition of Wire, Host, StateMachine |
| C51 | the deployment pipeline over all of the above | composition; a concrete toy deployment meets every hypothesis |
| C52 | key files, sign/verify, encrypt/decrypt, split/reconstruct, display, json-to-borsh | exact success conditions and round trips through the written files |
| C53 | dangerous-dev-boot | composition of boot_request_exact, boot_document and enough_shares_provision; concrete run |
| C54 | `pipe_frames`, `pipe_all` as step machines over arbitrary reads and writes | buffer invariant; packet-stream induction; measure for progress |
| C55 | the proxy as a labelled transition system: any number of sessions and listeners, arbitrary cuts of streams, failures at any point | per-session stage invariant that implies the specification's `Explained`; cache and permit invariants |
| C56 | the four command lines over the parser of C40; `Ipv4Addr::from_str` and integer parsing of the standard library | reduce to C40's readings; digit-list induction for numbers |
| C57 | the client's three key-forwarding commands against two modelled hosts and enclaves | C15, C17, C18 and C49 composed; arbitrary endpoints for the safety parts |
| C58 | the 34 commands of the client, their option tables and handlers; the host's routes | exactness of C40's parser per command (34 cases), then the C44, C46, C49, C51 theorems through the whole program |
| C59 | the bridge server: polling, decoding of the info, bridges for all entries, derived sockets; with the host, the enclave and the egress command line | induction over the entries for an exact description; JSON round trip of the info; C06, C34, C50, C56 composed |
| C60 | two `copy_bidirectional` tasks in a row, with half-closes and failures | invariants of the transition system (prefixes, ends, delivered counts); a measure for completion |
| C61 | the standard library's reader and writer of IP addresses, in manifests, the reaper, the client and the proxy | reader exact for the grammar of RFC 4291, writer exact for RFC 5952 (invariant of the search for the longest run of zeros); with C34 for every history |
| C62 | the launcher: environment variables, the calls to nitro_cli, health answers, the console writer | induction over chunks with the unfinished line as invariant; case analysis of the start |
| C63 | yubikey.rs and its callers over an arbitrary card that answers anything; the log of what it was asked | invariants of the log, closed under sequencing; case analysis of each function |
| C64 | the same with the PIV application as a state machine (Spec/Yubikey.lean) | symbolic execution of the commands; a simulation between the run with the card and the run with the key file |
| C65 | all handlers of both builds of the client; Spec/ClientWrites.lean is the table of output options | a predicate on runs closed under sequencing, then one case per handler |
| C66 | all handlers of the client; Spec/ClientCommands.lean is the table of what success means | inversion of each handler's run, the C43-C58 theorems for the checks, exactness of the command line |
| C67 | the signed-echo pivot: router, handlers, signing, errors, command line (Model/SignedEcho.lean), the standard library's socket addresses (Model/SockAddr.lean) | case analysis of the handlers; canonical JSON (C01) for what a signed text shows; C08 for the key file in the enclave |
| C68 | the first process: init.rs, setip.rs, qos_aws, the calls of qos_system (Model/Init.lean) | each part of the program is a list of kernel requests and a way to end; sequencing lemmas; C40's shape of the reaper's run and C41 for what runs |
| C69 | the provider of the real device and the hand-written conversions (Model/NsmProvider.lean) | requests and responses are compared by name and fields (Spec/NsmProvider.lean); induction over the calls; C15 for the export |
| C70 | `boot-genesis` and `after-genesis` in front of the modelled host and enclave (Spec/ClientCeremony.lean for the setting) | bounds on the size of the ceremony's messages, so that the host carries them (Lemmas/CeremonySize.lean); then C20, C48 and C51 composed; a toy ceremony meets every hypothesis |
| C71 | the handlers of the smartcard commands (Model/Yubikey.lean, `execute` and `program`) | the effect of each command on the card of Spec/Yubikey.lean, from the lemmas of C64; a toy life of a card, from three command lines |
| C72 | `CLI::execute`, `EnclaveOpts`, `seed_mock_pcrs` (Model/EnclaveCli.lean) | words and lines of a text characterised (Lemmas/EnclaveCli.lean), then the acceptance table as an equivalence, as for C56; the release file through the exact specification of the client's reader (C43) |
| C73 | the codecs of Model/Manifest.lean | Spec/Format.lean writes every document and byte layout out with literal names, orders and widths; one generic theorem says that a derived struct reads exactly the records of its field names (Lemmas/Format.lean: `struct_iff`), tagged enums, maps and lists likewise; then an equivalence per type up to files |
| C74 | the codecs of Model/Wire.lean, `process` | Spec/FormatMsg.lean writes out name, position, fields and order of every message, error, phase and device answer (tables extracted from the source text); externally tagged enums in JSON and Borsh get one generic equivalence each (Lemmas/FormatMsg.lean: `enum_iff`, `exact_enum`), then one equivalence per type up to `fromWire`, `toWire` and the answer of the processor |
| C75 | `Borsh.envName`, `envPlainValue`, `envValue`, `pivotEnv` (Model/EnvBorsh.lean) | Spec/EnvBorsh.lean gives the bytes of a list of entries and the environment they mean; the codec of the entries is lawful, collecting is characterised by `env_collect_last`, and the invariant of C31 gives the round trip for every history |
| C76 | the handlers of Model/StateMachine.lean | two-run relation `Alike` (Spec/Secrecy.lean); every primitive call is shown to give the same result from alike states and to keep them alike (Lemmas/Secrecy.lean), hence every service and route; the export is treated by hand |
| C77 | `nextLine`, `step`, `run` (Model/Reprint.lean) | events for what the pivot writes and which stream is read; an invariant relates what was written to what was printed, unread or lost; Spec/Reprint.lean says what a line shows as |
| C78 | `Json.parse` and its parts (Model/Json.lean) | the RFC's grammar as inductive relations between text and value (Spec/JsonText.lean); soundness and completeness of the recursive-descent reader by induction on fuel, the fuel shown sufficient for every text; determinism follows |
| C79 | the prompts as text: `promptText`, the standard library's `Debug` of strings, lists, options and bridge configurations, the approvers' lines, the reminder (Model/Prompts.lean) | left cancellation: after a common prefix, two printed values with arbitrary continuations are equal only if the values are (quoted strings and lists end themselves, the unquoted ones are followed by a mark that ends the text); the ten openings are not prefixes of one another; with C44's completeness of the questions this gives the manifest |
| C80 | the algorithms behind the crates: Conformance/{Sha,Curve,Real}.lean, with the model's `Prims` replaced by them | Pratt certificates for the field prime and the order (RealPrimes); Jacobian formulas represent Mathlib's group of points of the Weierstrass curve (RealCurve); the order of the base point by computation and primality, encodings, Diffie-Hellman (RealGroup); the number of points is the order: a multiple of it, below three times it, and odd because the cubic has no root (RealOrder); digest lengths and counter mode as an involution (RealHash); ECDSA by modular algebra, and one of two fallback nonces always works (RealLaws) |
| C81 | the enclave of C01-C11 with `prims := realPrims` (Conformance/Real.lean) | C08 at every moment (the stored key is the named one) for two unrelated histories, and C80: a public key determines the secrets. The instances boot and provision enclaves whose approvals are real ECDSA signatures, evaluated by the kernel |
| C82 | `Net` (C35, C36); `Spec/NetLive.lean` singles out the steps the system takes by itself | a lexicographic measure (what calls have left to do, what servers have left to read and answer, what is left to flow back) goes down with each such step; in a state without such a step the invariants of C35/C36 and `OpenInv` (a pooled connection is open exactly while its call is under way) leave only finished calls; starvation by an invariant along such steps |
| C83 | `Proxy` (C55); `Spec/ProxyLive.lean` singles out the steps the proxy takes by itself | a lexicographic measure (positions and unread bytes, then bytes read and not yet written) goes down with each such step and with a time-out; in a state without such a step the invariants of C55, and one on the ends passed on, leave the four positions; the answer of a request is followed along the steps |
| C84 | `Tunnel`: the two egress processes as a transition system over connections; a panic of one pump ends the process (abort) or waits for the other pump (unwind) | an invariant (no half process under abort), a measure that every step of the programs themselves lowers, and a case analysis of the states without such a step |

## Model validation

The Rust cannot be run here, but the repository holds data that the real program produced or that its tests demand.
`tools/vectors.py` copies these bytes from `/repo` into `Conformance/Fixtures.lean`, and the model is run on them with
the standard cryptographic functions in place of the uninterpreted `Prims` (`realPrims`: SHA-2, HMAC, HKDF, P-256 ECDH and
RFC 6979 ECDSA, AES-256-GCM, written in Lean in `Conformance/{Sha,Curve,Real}.lean` and checked on published vectors).
These are tests on literals, not proofs of any property and not listed in `MANIFEST.json`; they are evidence that the
hand-written model computes what the code computes.

| replay | what agrees | evaluated by |
|---|---|---|
| `Ceremony.lean` | the recorded genesis ceremony of `src/integration/mock/boot-e2e`: every member key pair, every share opened and its hash, all pairs of shares give the seed, the quorum public key, the wrapped disaster recovery key, the recorded test signature and test ciphertext, the golden approval signature | kernel |
| `Encodings.lean` | test vectors of qos_json (and the hashes in its SPEC), the stable Borsh digests of boot.rs, the old manifest, the ambiguous manifest, borsh_serialize, the shares in shamir.rs, point validation in qos_p256, FIPS, GCM and RFC 6979 vectors | kernel |
| `Artifacts.lean` | qos_client/tests/golden_artifacts.rs: the test's command lines, run on the model of the client, write the golden manifest, approval and envelope byte for byte, and fail where the test demands it | the pivot hash by the kernel; the rest by `#eval`, which stops the build when it disagrees (kernel evaluation of text this long is too slow) |
| `Units.lean` | the unit tests of qos_hex, the argument parser, the enclave, host and client-side proxy command lines, `EnvVars`, n_choose_k and the console log | compiled evaluation |
| `Services.lean` | the unit tests of services/provision.rs and services/key.rs: boot_key_forward, validate_manifest, the attestation checks (with the exact error), export and inject | compiled evaluation |
| `Attestation.lean` | qos_nsm's tests on the recorded Nitro attestation document and on the mock device's registers | compiled evaluation |
| `Preprod.lean` | tests/preprod_sharding.rs: the recorded developer key opens the recorded share of each of six enclaves, and the seed inside has the recorded quorum public key | kernel |
| `Boot.lean` | the unit tests of services/boot.rs, services/genesis.rs, msg.rs and processor.rs: accepted and refused boots (exact errors, no files left), lock before files, duplicate members, the ceremony's shares rebuild the key, wire formats | compiled evaluation |
| `Manifest.lean` | the unit tests of boot/manifest.rs: a declared version never falls back, resolvers, hashes per version, one key under two names, Borsh refusals | compiled evaluation |
| `Keys.lean` | the unit tests of qos_p256 (signing, both kinds of encryption, every tampering with the exact error, seed files) and of handles.rs (write-once files) | compiled evaluation |
| `Client.lean` | the unit tests of qos_client/src/cli/services.rs: each refused mismatch, every prompt word for word, hesitations, the register of a role, conversion to Borsh, ignored files | compiled evaluation |

## Findings (where the code and a natural expectation disagree)

"(theorem …)" marks those proved about the model.

1. Provisioning counts shares, not distinct members, and approvals can be replayed: one member may provision a 2-of-2 share
   set (theorem `one_member_can_provision`). `share_set` members are not checked for uniqueness at boot.
2. `qos_hex::decode` accepts non-canonical text (`+f`, upper case), so text → bytes is not injective (theorem in Props/Hex).
3. The manifest's pivot `env` is parsed, bounded and hashed, but the reaper clears the environment and never passes it on;
   and `approve-manifest` never shows it: two manifests that differ in it get the same review (theorem `env_not_reviewed`).
4. Threshold 0 is accepted: a manifest set with threshold 0 boots with no approvals (theorem in Props/Approvals).
5. `write_as_read_only` renames before it sets permissions: if `chmod` fails the key is visible although the request failed
   and the phase becomes `UnrecoverableError`.
6. `send` loops for ever if the transport accepts 0 bytes of the body.
7. `MAX_PCR_INDEX` is 32, so index 32 is accepted in a document although registers are 0–31.
8. `n_choose_k::combinations`: more than 20 elements panic in builds with overflow checks; 66 or more chosen or left out
   divide by zero in any build (theorem).
9. `mutate_manifest_envelope` rewrites the file in place (not atomic); temporary file names collide when paths differ only
   in their extension.
10. `MockNsm` `ExtendPCR` panics on registers seeded with values that are not 48 bytes.
11. Server bridge ports 65534 and 65535 are accepted in a manifest, but the reaper then panics and the pivot is never
    launched (theorem `high_port_never_launches`).
12. The reaper's `exit(1)` branch is unreachable (theorem `never_aborts`). With policy `Never` the process goes on until
    ctrl-c; a panic of the reaper leaves the protocol server running.
13. Parser: a declared, unset flag reads as `None`, and a default does not satisfy `required` (theorems). `CommandParser`
    panics on an empty argument vector. `OptionsParser` drops a first argument that is not an option.
14. `json-to-borsh` of a V0 manifest or envelope writes V1, which changes the hash the approvals sign.
15. `/enclave-info` answers 500 in `GenesisBooted` (theorem `info_fails_after_genesis`). The host accepts bodies up to
    256 MiB but frames end at 128 MiB. An alias that starts with `._` makes its key and approval files invisible.
16. JSON requests decode the envelope by trying V2, V1, V0 (serde untagged), so a V2 envelope with an unknown field and V1
    fields can be read as V1 (theorem `wire_reads_declared_v2_as_v1`); files go through the declared version and cannot.
17. The Borsh forms of `BootStandardRequest`, `BootKeyForwardRequest` and `ExportKeyRequest` can be written but never be
    read, because the envelope decoder reads to the end of the input (theorem); the client's Borsh attempts for them are
    useless and harmless (C49).
18. Hashed bytes of a V1 and of a V0 manifest can coincide (theorem in Props for C41).
19. The KDF pre-image of `qos_p256` has no separators; with fixed lengths it is injective.
20. Pool: a Unix path ending in `_+5` parses as index 5; vsock port and path index overflow wrap in release builds and
    panic in debug builds.
21. Borsh messages with tags 9, 10, 13 begin with JSON white space; that no byte string is both a JSON and a Borsh message
    holds only thanks to the 128 MiB limit (theorem).
22. The "already connected" branch of `Stream::call` cannot be reached through the pool, since guards reset on drop.
23. Egress: an IPv4 header with total length 0 makes `pipe_frames` spin for ever without reading; a packet longer than the
    32000 byte buffer makes the next read return 0, which is taken for a disconnect (panic); an IPv6 payload length of 65496
    or more overflows `u16` (panic, or the stream is cut in the middle of the packet) (theorems `zero_length_hangs`,
    `oversized_packet_stops`, `jumbo_misframed`).
24. Proxy: a single failed `accept` ends the accept loop of a `qos_net` proxy listener for ever (the `?` in
    `accept_loop_proxy`), while the process goes on (theorem `failed_accept_is_final`). The 10 s time-out covers the whole
    session with the pipe, not only the set-up. The `OversizedPayload` branch of `process_req` cannot be reached, since
    `recv` refuses such frames first.
25. Command lines: a `--host-port-override` of the bridge that is not a port number is silently ignored; `--vsock-to-host`
    defaults to true for the bridge and to false for the host; a vsock proxy cannot have a pool of more than one socket,
    because `--pool-size` excludes `--cid` and `--port` (theorem `vsock_proxy_has_one_socket`).
26. Client: `dangerous-dev-boot` reads `--bridge-config` but does not declare it, so that there are never bridges (and
    giving it is an error); `--manifest-envelope-path` is declared optional, but `boot-standard`, `get-attestation-doc`,
    `proxy-re-encrypt-share`, `boot-key-fwd` and `export-key` panic without it, likewise `shamir-split` without
    `--secret-path`; `approve-manifest` and `proxy-re-encrypt-share` do not declare `--current-pin-path`; a pivot argument
    cannot contain a comma, and `[]` is no argument while one empty argument cannot be expressed (all in `client_exact`).
27. Bridge server: a server entry whose host is not an IPv4 address is skipped with a log line only; with
    `--host-port-override` all entries ask for the same port, so that of two entries at one address the second cannot be
    bound (theorem `override_one_port`); ports 65534 and 65535 make it panic; an entry that names the port of the protocol
    socket makes the host listener lead there (theorem `protocol_port_exposed`). It listens from the boot on, the enclave
    only from the provisioning on. In the unrecoverable phase `/enclave-info` still reports a manifest that is on disk.
28. Bridge: when a copying task breaks off (say, the vsock is reset), its side closes the other connection normally; the
    peer sees a clean end of a truncated stream (theorem `truncated_end`).
29. Launcher: when something fails after the enclave was started (the console cannot be attached, the name is not found, or
    `ENCLAVE_CID` is so large that adding 10000 overflows), it exits or panics and leaves the enclave running; `DEBUG=1` is a
    panic, not debug mode (examples in Props/Launcher.lean).
30. YubiKeys: whether a slot is taken is decided by reading its certificate, and any failure to read counts as empty, so that a
    key without a certificate is overwritten (theorem `key_without_certificate_lost`). The two slots are not checked before the
    first is filled: a card with only the key management slot taken ends half provisioned, and can then only be reset (theorem
    `half_provisioned`). `yubikey-piv-reset` ignores every answer: it reports success although nothing was erased when the PIN
    is "000000" or more than three tries were left (theorem `reset_exact`).
31. `approve-manifest` replaces `/` in the namespace when it names the approval file, but not in the alias: with an alias that
    begins with `/` the approval is written outside the approvals directory, and `..` in it works as well (theorem
    `alias_escapes`).
32. `init_platform` (qos_aws/src/lib.rs:34-40) ignores the result of `poweroff`: if that call fails, the enclave goes on and serves with a source of randomness other than the Nitro device (C68, `entropy_unchecked`). A mount, console or module load that fails is only printed (init.rs:31-36, 44-51; qos_aws/src/lib.rs:29-32), so the protections a mount was meant to give are not guaranteed by the code.
33. The enclave program starts its reaper in a task and only then waits for ctrl+c (qos_core/src/cli.rs:188-206). A panic of that task (no address given, a number that does not parse, `--mock` in a build without the feature, a malformed seed file) does not end the process: it prints that the reaper is running, stays alive and never listens (theorem `enclave_otherwise`, cases in `toy_idle`). The seed file is said to have the format of the release's `.pcrs` files, but the two readers differ: the client panics on an empty line, the enclave on a value that is not 32, 48 or 64 bytes long (theorems `readers_differ`, `short_value_differs`); values of 32 or 64 bytes are accepted and make the first extension of that register panic (Model/Nsm.lean, `process`).
34. `deny_unknown_fields` of the V2 types is not recursive: the parts that V2 shares with V1 (namespace, sets and members, enclave, bridges, approvals) ignore unknown members, so a misspelt `host` of a client bridge or an added weight of a member is silently dropped from a V2 manifest (theorem `nested_unknown_ignored`), although an unknown member one level above is refused.
35. The Borsh form of the pivot environment (env.rs:350-362) is not canonical: repeated and unordered entries are accepted and the last value wins (theorem `env_borsh_not_canonical`), unlike the Borsh forms of the V0 and V1 types, of which every readable buffer is the written one (C25). No message or file carries this form at this commit, so nothing depends on it yet.
36. `reprint_pivot_output` (qos_core/src/reaper.rs:139-156) ends as soon as it finds the end of either stream. When the pivot exits, both end, and if the end of the output stream is found first, lines that the pivot wrote to its error stream before it exited (a panic message, say) are never printed (theorem `last_words_lost`). A pivot in debug mode that closes its standard output and goes on loses its error stream as well: its next write there fails.
37. The namespace name is printed in its prompt as it is (`services.rs:1145-1150`), while the arguments are quoted and escaped. A name
    with a line break in it prints what reads like a prompt followed by another prompt of the program, with a value of the author's
    choice (`name_can_fake_a_prompt`). The texts as a whole still determine the manifest (`same_screen_same_manifest`), since the
    number of prompts is fixed, but an operator who reads line by line sees a question that was not asked.
38. The approvers' aliases are printed as they are (`services.rs:1781-1789`): one approver whose alias contains a line break prints the
    same text as two (`alias_can_fake_an_approver`). The envelope has passed the approval check by then, so the threshold is met
    either way; what is faked is who met it.
39. ECDSA signatures are malleable and the code takes either form (sign.rs:82-93 does not ask for a low `s`): whoever sees an approval
    can replace its signature by another valid one (C80, `verify_twin`). Nothing in the repository compares signatures or hashes an
    envelope to identify it (approvals are counted per member, C05), so this is harmless as long as that remains so.
40. The server has no idle time-out (server.rs:226-250): whoever opens `max_connections` connections to a listener and sends nothing
    keeps everybody else waiting for as long as they like (C82, `idle_connections_starve`); callers then fail by their own time-outs only.
41. The resolver cache of the proxy (proxy_connection.rs:27-28, 138-167) is never emptied and has no bound, and its entries are chosen
    by the requests, that is by the enclave: one resolver for every different configuration ever asked for (C55, `resolvers_kept`,
    `resolvers_counted`).
42. The profile `release-panic-abort` exists "so we can abort in case of failures in any thread if using egress" (Cargo.toml:124-127), and the
    enclave's image uses it, but the images of the host build `egress` with the ordinary release profile (images/common/Containerfile:39,
    qos_bridge_egress/Containerfile:9-11, qos_bridge_qemu/Containerfile:8-10). There a panic of one pump waits in `std::thread::scope` for
    the other (egress.rs:140-173): the host goes on in one direction only, and is not restarted (C84, `one_way_for_ever`, `waits_for_ever`;
    `heals` says that with the profile on both sides this cannot happen).
43. `run_server` (reaper.rs:38-63) runs as a task whose result is looked at only after the pivot has exited (reaper.rs:206-218, 303-305): if the
    listener cannot be bound, its `expect` ends that task only, and the reaper goes on waiting for files that nobody can send. This is an
    observation; that the server comes up is an assumption of the deployment theorems.
