{"id": "C01", "title": "Lifecycle only moves along the documented graph", "statement": "Whatever sequence of requests an enclave receives, the phase reported by StatusRequest only ever changes along the documented edges: WaitingForBootInstruction to GenesisBooted, WaitingForQuorumShards or WaitingForForwardedKey; WaitingForQuorumShards or WaitingForForwardedKey to QuorumKeyProvisioned; and any of the boot/provision/inject phases to UnrecoverableError. No request makes the phase go backwards and the internal InvalidStateTransition error is never produced.", "quantifier": "every initial configuration, every finite sequence of requests of any kind, every outcome (success or failure) of the cryptography, NSM and file system during them", "why_tests_cant": "unit tests drive a handful of scripted message sequences; the claim is over all request histories and all failure outcomes", "anchors": ["src/qos_core/src/protocol/state.rs: ProtocolState::routes, ProtocolState::transition, ProtocolRoute::try_msg, handle_msg_response"]}
{"id": "C02", "title": "UnrecoverableError and GenesisBooted are final", "statement": "Once StatusRequest reports UnrecoverableError or GenesisBooted, it reports that phase forever, whatever is sent afterwards, and no later request changes any file, PCR, pending key or collected share.", "quantifier": "every state in one of the two phases and every later sequence of requests", "why_tests_cant": "a test can only send finitely many follow-up requests; the claim is that no continuation escapes", "anchors": ["src/qos_core/src/protocol/state.rs: routes, transition"]}
{"id": "C03", "title": "Requests that do not belong to the phase are rejected without effect", "statement": "A request whose kind is not served in the current phase is answered with NoMatchingRoute(current phase), and changes nothing: phase, files, PCRs, shares and pending key stay the same. The set of served request kinds per phase is exactly the documented table.", "quantifier": "every phase, every request kind and payload, every state", "why_tests_cant": "the full phase x message matrix with arbitrary payloads and states is not enumerable by example tests", "anchors": ["src/qos_core/src/protocol/state.rs: routes, handle_msg_response", "src/qos_core/src/protocol/error.rs: NoMatchingRoute"]}
{"id": "C04", "title": "Read-only requests are read-only", "statement": "StatusRequest, VersionRequest, ManifestEnvelopeRequest, LiveAttestationDocRequest and ExportKeyRequest never change the phase, the files, the shares collected so far or the pending live key, whether they succeed or fail.", "quantifier": "every state, every payload and every failure outcome", "why_tests_cant": "absence of side effects must hold for all states and all failures, tests compare only chosen before/after values", "anchors": ["src/qos_core/src/protocol/state.rs: handlers", "src/qos_core/src/protocol/services/attestation.rs: live_attestation_doc", "src/qos_core/src/protocol/services/key.rs: export_key"]}
{"id": "C05", "title": "A manifest is only booted with a real quorum of approvals", "statement": "check_approvals accepts an envelope if and only if: the manifest-set members all decode and have pairwise distinct aliases, signing keys and encryption keys; every approval is a valid signature over the manifest hash by a listed member; no member approves twice; and at least threshold approvals are present. In particular acceptance implies at least threshold pairwise distinct signing keys each produced a valid signature over this manifest hash.", "quantifier": "every envelope (any version), every number of members, approvals and threshold, every signature-verification behaviour", "why_tests_cant": "tests try a few hand-made envelopes; the characterisation ranges over all member lists, orders and duplicates", "anchors": ["src/qos_core/src/protocol/services/boot/manifest.rs: VersionedManifestEnvelope::check_approvals", "src/qos_core/src/protocol/services/boot.rs: ensure_unique_members, ManifestEnvelope::check_approvals"]}
{"id": "C06", "title": "What is booted is what was approved", "statement": "After any history that leads to a manifest being stored, the stored manifest carries a full quorum of valid manifest-set approvals, and the stored pivot binary hashes to the pivot hash in that manifest. No later request changes the manifest, its manifest-set approvals, or the pivot; only share-set approvals are appended.", "quantifier": "every reachable state of the enclave under any request history, from an enclave started with no boot files", "why_tests_cant": "immutability after boot is a statement about every continuation of every history", "anchors": ["src/qos_core/src/protocol/services/boot.rs: put_manifest_and_pivot", "src/qos_core/src/handles.rs: write_as_read_only, put_pivot, mutate_manifest_envelope"]}
{"id": "C07", "title": "Rejected boots leave nothing behind", "statement": "A boot request that fails approval checks, carries share-set approvals, has the wrong pivot hash, or whose PCR bank cannot be committed and locked, leaves the file system untouched (no ephemeral key, pivot or manifest is written) and the enclave ends in UnrecoverableError.", "quantifier": "every boot request and every NSM behaviour", "why_tests_cant": "requires considering every failing check and every NSM response sequence, not one example of each", "anchors": ["src/qos_core/src/protocol/services/boot.rs: put_manifest_and_pivot", "src/qos_core/src/protocol/services/attestation.rs: lock_manifest_commitment_pcr_bank"]}
{"id": "C08", "title": "The quorum key only ever appears complete and correct", "statement": "At every point in time (including between any two file-system operations, and after any write has only partially completed), if the quorum key file exists then it contains the complete key whose public key equals the quorum key named in the stored manifest, the manifest and pivot files are complete, approved and hash-consistent, and the ephemeral key file already holds the live key, not the setup key that shares were encrypted to.", "quantifier": "every request history, every crash or observation point between primitive file operations, every I/O fault", "why_tests_cant": "crash points and partial writes cannot be exhaustively scheduled in a unit test", "anchors": ["src/qos_core/src/protocol/services/provision.rs: provision", "src/qos_core/src/protocol/services/key.rs: inject_key", "src/qos_core/src/handles.rs", "src/qos_core/src/reaper.rs"]}
{"id": "C09", "title": "The quorum key is written once", "statement": "Once the quorum key file exists its content never changes, whatever requests follow, and no put on an existing ephemeral key, quorum key, manifest or pivot file overwrites it: it fails with CannotModifyPostPivotStatic.", "quantifier": "every file-system content and every later history", "why_tests_cant": "write-once is about all later histories", "anchors": ["src/qos_core/src/handles.rs: write_as_read_only, put_pivot, put_quorum_key"]}
{"id": "C10", "title": "Provisioning needs threshold shares, each with a valid share-set approval", "statement": "The quorum key file can appear by provisioning only after at least share_set.threshold (and at least one) successfully decrypted non-empty shares were posted in that boot, each accompanied by a signature over the manifest hash that verifies under the key of a member of the share set of the stored manifest; every such approval is appended, in order, to share_set_approvals of the stored envelope.", "quantifier": "every history of provision requests, in any order, by any members", "why_tests_cant": "counts over arbitrary interleavings of valid and invalid requests", "anchors": ["src/qos_core/src/protocol/services/provision.rs: provision, SecretBuilder"]}
{"id": "C11", "title": "Threshold counts shares, not distinct share holders", "statement": "Natural expectation: provisioning requires threshold distinct share-set members. The code does not enforce it: the same member (and the same replayed approval) may post several shares. The true guarantee is C10; the stronger expectation is refuted by a concrete history.", "quantifier": "exists a history (refutation) / every history (what does hold)", "why_tests_cant": "tests only ever post one share per member", "anchors": ["src/qos_core/src/protocol/services/provision.rs: provision"]}
{"id": "C12", "title": "The PCR bank is committed and locked before any boot file is published", "statement": "In every boot, all PCR extension and LockPCRs traffic with the NSM precedes the first write of the ephemeral key, pivot or manifest; on success PCR16 and PCR17 hold the SHA-384 extension of zero by the commitment to (manifest hash, setup key) and (manifest hash, live key) respectively, and every PCR in the bank is locked.", "quantifier": "every NSM state and behaviour, every manifest and keys, every point of the execution", "why_tests_cant": "ordering relative to every observation point, and all NSM initial states", "anchors": ["src/qos_core/src/protocol/services/attestation.rs: lock_manifest_commitment_pcr_bank", "src/qos_core/src/protocol/services/boot.rs: put_manifest_and_pivot"]}
{"id": "C13", "title": "The live ephemeral key is the one committed in PCR17", "statement": "After provisioning or injection succeeds, the ephemeral key file holds the live key generated at boot, whose public key is what PCR17 commits to; so live attestation documents verify against the live manifest commitment, and documents from before provisioning verify only against the setup commitment.", "quantifier": "every successful boot-then-provision or boot-then-inject history", "why_tests_cant": "relates NSM state, files and generated keys over whole histories", "anchors": ["src/qos_core/src/protocol/services/provision.rs", "src/qos_core/src/protocol/services/key.rs: inject_key", "src/qos_core/src/protocol/services/attestation.rs", "src/qos_nsm/src/nitro/mod.rs"]}
{"id": "C14", "title": "Locked PCRs never change", "statement": "In the NSM model used by the code, once a PCR is locked no sequence of requests changes its value or unlocks it, and extending is append-only: the value is the fold of the extension hash over all accepted extensions.", "quantifier": "every NSM state and every request sequence", "why_tests_cant": "all sequences of NSM requests", "anchors": ["src/qos_nsm/src/mock.rs: MockNsm::nsm_process_request"]}
{"id": "C15", "title": "Key export releases the key only to an equivalent, approved, attested enclave", "statement": "ExportKeyRequest succeeds if and only if the attestation document verifies and the new envelope is fully approved, has no share-set approvals, names the same quorum key, same manifest set (as a multiset, order ignored, same threshold), same namespace name, a nonce not lower (and the identical manifest hash when equal), the same PCR3, and the attestation matches the new manifest (user_data, PCR0-3, all PCRs present, PCR16 setup commitment to the attested key) with a decodable key. Otherwise no key material is returned.", "quantifier": "every old/new envelope pair and every attestation document", "why_tests_cant": "conjunction of about fifteen conditions over unbounded data", "anchors": ["src/qos_core/src/protocol/services/key.rs: export_key, export_key_internal, validate_manifest"]}
{"id": "C16", "title": "No downgrade through key forwarding", "statement": "Along any chain of successful key exports (each new enclave exporting to the next), the namespace nonce never decreases, the quorum key, namespace name, PCR3 and manifest set never change, and equal nonces imply equal manifest hashes.", "quantifier": "every chain length and every sequence of manifests", "why_tests_cant": "chains of arbitrary length", "anchors": ["src/qos_core/src/protocol/services/key.rs: validate_manifest"]}
{"id": "C17", "title": "Key injection accepts exactly the manifest quorum key", "statement": "InjectKeyRequest succeeds only if the ciphertext is signed by the quorum key named in the stored manifest, decrypts under the setup ephemeral key to exactly 32 bytes, and the resulting key pair has exactly that public key; then that key is stored. In every other case the enclave moves to UnrecoverableError and no quorum key file appears.", "quantifier": "every payload, signature and state", "why_tests_cant": "all payloads", "anchors": ["src/qos_core/src/protocol/services/key.rs: inject_key"]}
{"id": "C18", "title": "Exported keys can be injected: forwarding is lossless", "statement": "If an original enclave exports to the ephemeral key of a new enclave booted for key forwarding with a manifest naming the same quorum key, injecting the response makes the new enclave hold exactly the original master seed and reach QuorumKeyProvisioned.", "quantifier": "every master seed, every randomness, every pair of states", "why_tests_cant": "end-to-end property over all keys and randomness", "anchors": ["src/qos_core/src/protocol/services/key.rs: export_key_internal, inject_key"]}
{"id": "C19", "title": "Genesis shares recover the quorum key", "statement": "For every genesis set accepted, there is exactly one output per member in order, each member can decrypt its share, the share hash matches, any threshold-many (or more) distinct member shares in any order reconstruct the master seed whose public key is the output quorum key, the DR ciphertext (if requested) decrypts to the same seed, and the output echoes the requested set and DR key. Genesis writes no files, and the attestation binds the hash of the whole output.", "quantifier": "every member list, threshold, DR key and randomness, every subset and order of shares", "why_tests_cant": "all subsets and orders of shares for all set sizes", "anchors": ["src/qos_core/src/protocol/services/genesis.rs: boot_genesis", "src/qos_crypto/src/shamir.rs"]}
{"id": "C20", "title": "Shamir: any k shares suffice, in any order, with extras", "statement": "shares_reconstruct of any list of at least k shares with pairwise distinct identifiers from shares_generate(secret, n, k) returns the secret, for every order and every superset.", "quantifier": "all secrets, lengths, n, k, randomness, subsets and permutations", "why_tests_cant": "combinatorial explosion of subsets and orders", "anchors": ["src/qos_crypto/src/shamir.rs: shares_generate, shares_reconstruct"]}
{"id": "C21", "title": "Shamir: fewer than k shares reveal nothing", "statement": "Given any k-1 (or fewer) shares, every candidate secret of the same length is consistent with them, through exactly one choice of randomness when exactly k-1 shares are known.", "quantifier": "all secrets, candidate secrets, share subsets of size < k", "why_tests_cant": "secrecy is a statement about all alternative secrets", "anchors": ["src/qos_crypto/src/shamir.rs"]}
{"id": "C22", "title": "Hex codec is lossless, and what decode accepts", "statement": "decode(encode(b)) = b for all byte strings, with or without an 0x prefix; encode is injective, lower case, twice as long; decode is total (error values, never panics) and its accepted language is characterised exactly, including that it accepts non-canonical text such as upper case and a leading plus sign in a byte pair, so decode is not injective.", "quantifier": "all byte strings and all input strings", "why_tests_cant": "all inputs", "anchors": ["src/qos_hex/src/lib.rs: encode, decode, decode_to_buf"]}
{"id": "C23", "title": "Stream framing delivers exactly the messages sent", "statement": "For every list of messages within the size limit and every way the transport splits the byte stream into partial writes and reads, the receiver gets exactly those messages in that order, nothing merged, split or reordered; a connection closed at a message boundary or inside a frame is reported as closed and never yields a truncated message; a frame announcing more than the limit is refused before reading its body and send refuses to emit one.", "quantifier": "all message lists, all partial read/write schedules, all truncation points", "why_tests_cant": "all chunkings and truncation points", "anchors": ["src/qos_core/src/io/stream.rs: send, recv, send_vsock/recv helpers"]}
{"id": "C24", "title": "Wire decoding: sizes, encodings and response format", "statement": "The processor answers every byte string with exactly one response: oversized input gets OversizedPayload, undecodable input a protocol error, both in JSON and without touching enclave state; a request accepted in JSON is answered in JSON and a request accepted in Borsh is answered in Borsh (falling back to a JSON error only when the response has no Borsh form).", "quantifier": "all input byte strings and all states", "why_tests_cant": "all inputs", "anchors": ["src/qos_core/src/protocol/processor.rs: ProtocolProcessor::process", "src/qos_core/src/protocol/msg.rs: from_wire, to_wire"]}
{"id": "C25", "title": "Borsh codec round-trips and rejects trailing or ambiguous bytes", "statement": "For every legacy manifest envelope, approval, member, namespace and set value, decoding its Borsh encoding returns the value, encodings are injective and prefix-free, decoding rejects trailing bytes, and bytes that parse both as V1 and V0 are rejected rather than guessed.", "quantifier": "all values and all byte strings", "why_tests_cant": "all values", "anchors": ["src/qos_core/src/protocol/services/boot.rs: decode_borsh", "src/qos_core/src/protocol/services/boot/manifest.rs: BorshDeserialize for VersionedManifestEnvelope"]}
{"id": "C26", "title": "Genesis and V2 manifests never travel as Borsh", "statement": "No Borsh byte string decodes to a genesis request or to a request carrying a V2 manifest except through the dedicated JSON-envelope request, and encoding such messages to Borsh fails instead of producing bytes.", "quantifier": "all byte strings and messages", "why_tests_cant": "all inputs", "anchors": ["src/qos_core/src/protocol/msg.rs: from_wire, to_wire"]}
{"id": "C27", "title": "Manifest version is never guessed wrong", "statement": "Storing an envelope of any version and reading it back gives the same envelope with the same version; JSON that declares a version is only ever read as V2 (or rejected), and a V2 manifest with fields unknown to V2 is rejected, never downgraded.", "quantifier": "all envelopes and all JSON documents", "why_tests_cant": "all documents, including adversarial mixtures of fields", "anchors": ["src/qos_core/src/protocol/services/boot/manifest.rs: try_from_slice_compat, to_storage_vec", "src/qos_core/src/protocol/services/boot/manifest/v2.rs"]}
{"id": "C28", "title": "Canonical JSON is canonical", "statement": "Two JSON values that differ only in object key order or in null-valued fields have the same canonical bytes; conversely equal canonical bytes imply the values are equal after dropping null fields, reordering keys and identifying integers with their decimal strings; canonicalisation is idempotent; keys are emitted in strictly increasing UTF-16 order; non-integers are rejected.", "quantifier": "all JSON values of any depth and size", "why_tests_cant": "all permutations and depths", "anchors": ["src/qos_json/src/lib.rs: to_vec, write_value, sort by UTF-16"]}
{"id": "C29", "title": "Attestation checks are exact, and setup/live commitments are not interchangeable", "statement": "Verification of an attestation document against a manifest succeeds if and only if user_data equals the manifest hash, nonce is absent, PCR0-3 match, all 32 PCRs are present, and the PCR for the requested kind equals the extension of the commitment to (kind, manifest hash, attested key). Commitment pre-images are injective in (kind, manifest hash, key), so a setup commitment can equal a live one only through a SHA-384 collision.", "quantifier": "all documents, manifests, keys", "why_tests_cant": "all documents; injectivity over unbounded inputs", "anchors": ["src/qos_nsm/src/nitro/mod.rs: verify_attestation_doc_against_manifest_*, manifest_pcr_commitment"]}
{"id": "C30", "title": "Attestation syntax validation is exact and total", "statement": "The syntactic validators accept exactly the documents with non-empty module id, SHA384 digest, 1..32 PCRs with allowed indices and lengths, a non-empty CA bundle with 1..1024-byte certificates, non-zero timestamp and bounded optional fields.", "quantifier": "all documents", "why_tests_cant": "boundary behaviour over all sizes", "anchors": ["src/qos_nsm/src/nitro/syntactic_validation.rs"]}
{"id": "C31", "title": "Pivot environment is always well-formed and bounded", "statement": "Starting from an empty environment, any sequence of inserts and decodes yields at most 512 variables, each with a valid name (grammar, length) and value (no NUL, length), with unique names; a failing insert leaves the environment unchanged; a successful insert makes exactly that binding visible.", "quantifier": "all operation sequences", "why_tests_cant": "all sequences", "anchors": ["src/qos_core/src/protocol/services/boot/env.rs"]}
{"id": "C32", "title": "Manifest builder produces exactly what was configured", "statement": "ManifestBuilder.build succeeds if and only if all required fields are set and no field foreign to the chosen version is set; then every configured field appears unchanged in the manifest and unset optional fields take the documented defaults; the last setting of a field wins regardless of order.", "quantifier": "all sequences of builder calls", "why_tests_cant": "all call sequences", "anchors": ["src/qos_core/src/protocol/services/boot/manifest/builder.rs"]}
{"id": "C33", "title": "n choose k enumerates every subset once", "statement": "combinations(input, k) returns nothing for k = 0 or k > n; otherwise, unless computing the capacity of the result panics, it returns every k-element sub-list exactly once, in lexicographic order of positions, so binomial(n,k) many. For n <= 20 it never panics. (Finding: for n > 20 it always panics in builds with overflow checks, and when k or n-k reaches 66 it panics in every build, although the loop itself would be correct.)", "quantifier": "all inputs and k", "why_tests_cant": "all sizes", "anchors": ["src/qos_crypto/src/n_choose_k.rs: combinations"]}
{"id": "C34", "title": "The pivot starts only after provisioning and follows its restart policy", "statement": "The reaper launches the pivot only when the quorum key, pivot and manifest files all exist; with policy Never it is launched exactly once, with Always it is relaunched after every exit and the reaper does not quit; the bridges and resolver entries set up are exactly those in the manifest.", "quantifier": "all schedules of file appearance and all sequences of pivot exits", "why_tests_cant": "all schedules", "anchors": ["src/qos_core/src/reaper.rs"]}
{"id": "C35", "title": "A cancelled or failed client call never leaks its response to another call", "statement": "With the pooled socket client, each successful call returns the response to its own request, even when earlier calls on the same pooled connection timed out, were cancelled or failed midway.", "quantifier": "all interleavings of calls, timeouts, cancellations and late responses", "why_tests_cant": "timing dependent interleavings", "anchors": ["src/qos_core/src/client.rs", "src/qos_core/src/io/pool.rs: PoolGuard"]}
{"id": "C36", "title": "Requests are processed one at a time and connections are bounded", "statement": "However many connections are open, enclave request handling is serialised: the responses given to concurrent clients are those of some sequential order consistent with each connection order; and a listener never serves more than max_connections at once.", "quantifier": "all interleavings of connections", "why_tests_cant": "all schedules", "anchors": ["src/qos_core/src/server.rs", "src/qos_core/src/protocol/processor.rs"]}
{"id": "C37", "title": "Socket pools have distinct, stable addresses", "statement": "A pool of n sockets has n pairwise distinct addresses, expanding keeps the existing ones as a prefix, expanding to a smaller size changes nothing, and the i-th address is a function of the base address and i only.", "quantifier": "all base addresses and sizes", "why_tests_cant": "all sizes", "anchors": ["src/qos_core/src/io/pool.rs", "src/qos_core/src/io/mod.rs"]}
{"id": "C38", "title": "Key and envelope encodings are unambiguous", "statement": "P256Public bytes decode exactly when they are 130 bytes with two valid points and re-encode to themselves; encryption associated data and KDF pre-images are injective in (sender, receiver); ciphertext envelopes round-trip. A key pair is exactly what HKDF makes of its seed with three different fixed salts; a seed file is read exactly if it is the hexadecimal of 32 bytes, white space around aside; asymmetric and symmetric ciphertexts are accepted exactly in the documented byte layout.", "quantifier": "all byte strings and keys", "why_tests_cant": "all inputs", "anchors": ["src/qos_p256/src/lib.rs", "src/qos_p256/src/encrypt.rs"]}
{"id": "C39", "title": "Member uniqueness check is exact", "statement": "ensure_unique_members accepts a list if and only if all public keys decode and aliases, signing keys and encryption keys are each pairwise distinct; the verdict does not depend on the order of members.", "quantifier": "all member lists", "why_tests_cant": "all lists and permutations", "anchors": ["src/qos_core/src/protocol/services/boot.rs: ensure_unique_members"]}
{"id": "C40", "title": "Command line tokens are parsed strictly", "statement": "Without --help or --version, a command line is accepted if and only if it can be read as a sequence of declared tokens, each with a value exactly if it takes one (the value may be left out if a default is declared), each given at most the allowed number of times, with every required token given and all requires/forbids relations satisfied; the reading is unique; and every value read back is the one given on the command line or, if none is given, the declared default. A rejection names a reason that is true of the command line. --help is honoured whatever else is given, --version unless --help is. The enclave binary listens on the vsock or the unix socket given, never on a mixture, and uses the given files or the fixed default paths.", "quantifier": "all argument vectors and all token declarations", "why_tests_cant": "It ranges over all argument vectors and all declarations, including repeated tokens, missing values, values that look like options and combinations of requires/forbids.", "anchors": ["src/qos_core/src/parser.rs: Parser::parse, do_parse, check_input, TokenMap", "src/qos_core/src/cli.rs: EnclaveParser, EnclaveOpts"]}
{"id": "C41", "title": "The manifest hash identifies the manifest", "statement": "Two manifests of the same schema version whose hashed bytes (canonical JSON for V2, Borsh for V1 and V0) are equal are equal in every field; so a signature over a manifest hash approves one manifest of that version, up to SHA-256 collisions. The hashed bytes of a V2 manifest are never those of a V1 or V0 manifest (with a namespace name below 1.6 GB). Across V1 and V0 the hashed bytes can coincide.", "quantifier": "all manifests of every version", "why_tests_cant": "injectivity ranges over all pairs of manifests", "anchors": ["src/qos_core/src/protocol/services/boot/manifest.rs: VersionedManifest::manifest_hash, canonical_json_hash", "src/qos_core/src/protocol/mod.rs: QosHash"]}
{"id": "C42", "title": "Honest boots and provisionings complete", "statement": "With a device that behaves like the NSM model and a file system without failures, every boot request carrying enough approvals, no share-set approvals and the right pivot succeeds and stores exactly the requested envelope, pivot and setup key; and every posted share with a valid share-set approval that decrypts to a non-empty share is accepted: below the threshold the enclave goes on waiting, at the threshold, if the shares reconstruct the key named in the manifest, that key is stored and the enclave is provisioned.", "quantifier": "all histories that lead to the waiting phases, all envelopes, pivots, shares and randomness", "why_tests_cant": "Success for every admissible input and history; tests show success of a few runs.", "anchors": ["src/qos_core/src/protocol/services/boot.rs:put_manifest_and_pivot", "src/qos_core/src/protocol/services/provision.rs:provision"]}
{"id": "C43", "title": "The operator's files mean what they say", "statement": "The key set, patch set, release PCRs, role, pivot hash and Nitro configuration the client reads from a directory or file are exactly those the files describe (one member per .pub file with the alias before the first dot and the hex key in it, the number in the one quorum_threshold file, sorted), independent of the order in which the operating system lists the directory; and a question counts as confirmed exactly when the operator typed a yes after at most two unrecognised lines.", "quantifier": "all directories, listings, file contents and input lines", "why_tests_cant": "Parsing and ordering must be right for every directory listing order and every file content.", "anchors": ["src/qos_client/src/cli/services.rs: get_share_set, get_manifest_set, get_genesis_set, get_patch_set, find_threshold, find_file_paths, extract_qos_pcrs, find_pcr3, extract_pivot_hash, extract_nitro_config, PromptLoop", "src/qos_p256/src/lib.rs: P256Public::from_hex_file"]}
{"id": "C44", "title": "approve-manifest signs only what was checked and confirmed", "statement": "If approve-manifest writes anything, the manifest on disk agrees with the operator's own copies of the manifest set, share set, patch set, PCRs and role, pivot hash and quorum key, every remaining field except the pivot environment was shown and confirmed, and the file is an approval of exactly that manifest's hash by this member; conversely a matching manifest with all questions confirmed is approved, and a mismatch is refused before anything is asked. Two manifests that can be approved from the same files with the same confirmations differ at most in the pivot environment (which is never shown).", "quantifier": "all disks, manifests of every version, operator inputs and key pairs", "why_tests_cant": "The command must refuse every bad manifest among infinitely many; a test tries a few.", "anchors": ["src/qos_client/src/cli/services.rs: approve_manifest, approve_manifest_programmatic_verifications, approve_manifest_human_verifications"]}
{"id": "C45", "title": "generate-manifest writes the requested manifest", "statement": "generate-manifest (V1) and generate-manifest-v2 produce exactly the manifest that takes its sets, PCRs, pivot hash and quorum key from the named files and everything else from the command line, refuse a request whose optional parts do not fit the version, and the written file reads back as that manifest.", "quantifier": "all disks and all arguments", "why_tests_cant": "Every field of every manifest must come from the right source.", "anchors": ["src/qos_client/src/cli/services.rs: generate_manifest, generate_manifest_v2", "src/qos_core/src/protocol/services/boot/builder.rs: ManifestBuilder"]}
{"id": "C46", "title": "A share is only re-encrypted to a genuine, approved enclave", "statement": "If proxy-re-encrypt-share writes anything (without the unsafe flags), the attestation document is genuine now, chains to the AWS root, shows the envelope's manifest hash and PCRs, and the role in the operator's file; the envelope has enough valid manifest approvals; the operator's key is a share set member under the given alias; the operator confirmed namespace, nonce, role and approvers; and the share is encrypted to the ephemeral key of that very document, which its owner opens to exactly the operator's share. Conversely, in such a situation the command succeeds.", "quantifier": "all disks, documents, envelopes, shares, inputs and randomness", "why_tests_cant": "A share must not leak for any of infinitely many forged documents or envelopes.", "anchors": ["src/qos_client/src/cli/services.rs: proxy_re_encrypt_share, proxy_re_encrypt_share_programmatic_verifications, proxy_re_encrypt_share_human_verifications"]}
{"id": "C47", "title": "generate-manifest-envelope collects the approvals", "statement": "The envelope written by generate-manifest-envelope contains the manifest from the file and exactly the approvals in the directory, each a valid signature by a member of the manifest set over the manifest's hash, at least threshold many by different members; it is the envelope the enclave accepts at boot. Conversely, such a directory makes the command succeed, and the written file reads back as that envelope.", "quantifier": "all disks, listings and approval files", "why_tests_cant": "Any number and order of approval files, valid and invalid.", "anchors": ["src/qos_client/src/cli/services.rs: generate_manifest_envelope, find_approvals"]}
{"id": "C48", "title": "Genesis on the operators' side", "statement": "boot-genesis stores an output only if it answers the request for the local set and DR key and a genuine document of the local release with the local role vouches for its hash; after-genesis writes only the share of the entry with the member's own alias and key, after opening it and checking its hash, and after a correct ceremony always can; verify-genesis accepts exactly the hex text of a seed that has the recorded hash, reproduces the test signature and opens the test ciphertext, hence accepts what any threshold of the shares reconstructs, and accepts anything else only at a SHA-512 collision.", "quantifier": "all disks, enclave answers, ceremonies, members and seeds", "why_tests_cant": "Quantifies over all answers of a possibly malicious host and all ceremonies.", "anchors": ["src/qos_client/src/cli/services.rs: boot_genesis, after_genesis, verify_genesis"]}
{"id": "C50", "title": "The host relays messages unchanged and reports the enclave's state truthfully", "statement": "POST /message hands every body of at most 256 MiB to the enclave once and unchanged and returns its answer unchanged with status 200; a longer body never reaches the enclave (status 400) and a failed connection gives 500, each with a readable protocol error. /enclave-health answers 200 exactly in the provisioned and genesis phases, 503 exactly in the other phases and 500 when the enclave's answer is no status. In front of a real enclave /enclave-info reports the phase, exactly the stored manifest envelope and exactly the current ephemeral public key in every phase with an installed manifest, reports nothing but the phase before boot, and changes nothing. These endpoints are reached exactly at their documented paths below the base path (qos by default) and with their documented methods: another method on such a path is refused as that, any other path is not found; a client given the same base path sends its messages there.", "quantifier": "all bodies, all enclave behaviours, all histories of an enclave", "why_tests_cant": "Quantifies over every body and every history of the enclave behind the host.", "anchors": ["src/qos_host/src/host.rs: message, enclave_health, enclave_info"]}
{"id": "C49", "title": "A client in front of an enclave gets exactly the enclave's answer, and each command acts at most once", "statement": "A client whose requests go through the host to a real enclave reads, for every request that fits the 128 MiB frame, exactly the answer the enclave's protocol gives in its current state, and the enclave's state advances by exactly that one request; a longer request reaches nobody. The Borsh-first fallback of the forward-boot and export commands leaves the enclave exactly where a single JSON request would (the Borsh attempt is refused without effect), so the command acts once. The fallback chain of boot-standard acts exactly once whatever the answer, returns the document if the boot succeeded and otherwise reports an unexpected response.", "quantifier": "all enclaves, states, requests and answers", "why_tests_cant": "Quantifies over every request, every enclave state and every answer; a duplicated effect through a retry would only show for specific encodings.", "anchors": ["src/qos_client/src/lib.rs: request::post", "src/qos_client/src/cli/services.rs: post_request_with_encoding_fallback, boot_standard_attestation_doc_with_fallback", "src/qos_host/src/host.rs: message", "src/qos_core/src/protocol/processor.rs: process"]}
{"id": "C51", "title": "The operators' commands compose into a deployment", "statement": "If at least threshold different members of the manifest set each run approve-manifest and answer yes, then generate-manifest-envelope over the collected approvals writes an envelope the enclave's approval check accepts. boot-standard reports success, whoever answers, only for a genuine attestation document of an instance with the operator's role that shows the manifest of the named envelope and carries a usable ephemeral key. On a freshly started enclave over an honest device, boot-standard with an approved envelope for the measured image, the operator's role and the given pivot succeeds; get-attestation-doc then writes two files; any holders of shares of the quorum key, as many as the threshold, who run proxy-re-encrypt-share on these two files get an approval and a wrapped share each; and posting these with post-share is answered with 'not yet' for all but the last and 'reconstructed' for the last, after which the enclave is provisioned with exactly that quorum key.", "quantifier": "all manifests, sets, thresholds, holders, shares, keys, disks and enclaves over an honest device", "why_tests_cant": "Quantifies over every number of members and shares, every manifest and every enclave; the composition crosses five commands, the host, the wire format and the enclave.", "anchors": ["src/qos_client/src/cli/services.rs: approve_manifest, generate_manifest_envelope, boot_standard, get_attestation_doc, proxy_re_encrypt_share, post_share", "src/qos_host/src/host.rs: message", "src/qos_core/src/protocol/state.rs: ProtocolRoute"]}
{"id": "C52", "title": "The operator's tools undo each other", "statement": "generate-file-key writes a seed file from which the tools read back the key pair, and a public key file of that pair. p256-sign succeeds exactly when both files can be read and the output written, and p256-verify accepts a signature file exactly when the signature is valid for the payload under the key file; hence whatever p256-sign wrote, p256-verify accepts with the matching public key. What p256-asymmetric-encrypt wrote for a public key file is decrypted byte for byte with the matching seed file, for every plaintext below the size limit. get-ephemeral-key-hex writes the public key of the document as a key file. shamir-split succeeds exactly for a readable, non-empty secret and 2 <= threshold <= shares <= 255, and from any threshold or more of the files it wrote, in any order, shamir-reconstruct writes the secret back. The JSON printed by display reads back as the manifest or envelope displayed. json-to-borsh of a V1 manifest or envelope keeps the manifest, its hash and all approvals, refuses V2, and for V0 silently writes a V1 manifest whose signed hash input differs (a recorded finding).", "quantifier": "all keys, seeds, payloads, plaintexts, randomness, secrets, thresholds, choices of share files, manifests, envelopes and disks", "why_tests_cant": "Each is a round trip over arbitrary files, keys and subsets of shares; a test covers only the files it names.", "anchors": ["src/qos_client/src/cli/services.rs: generate_file_key, p256_sign, p256_verify, p256_asymmetric_encrypt, p256_asymmetric_decrypt, get_ephemeral_key_hex, shamir_split, shamir_reconstruct, display, json_to_borsh"]}
{"id": "C53", "title": "dangerous-dev-boot provisions a fresh enclave in one command", "statement": "On a fresh enclave over an honest device, with a readable pivot file and no ephemeral key override, dangerous-dev-boot succeeds: it sends exactly three requests (boot, two shares), and afterwards the enclave is provisioned with exactly the freshly generated quorum key, with the given pivot installed and the given arguments, restart policy and bridges, and debug mode off. Nothing about the attestation document is checked except that it can be decoded. The boot request fits into a frame unless pivot, arguments, bridges or root certificate are huge.", "quantifier": "all seeds, share coefficients, encryption randomness, pivots, arguments, bridges, restart policies and fresh enclaves", "why_tests_cant": "Quantifies over all randomness and all arguments; the run crosses client, host, wire format, enclave and secret sharing.", "anchors": ["src/qos_client/src/cli/services.rs: dangerous_dev_boot", "src/qos_core/src/protocol/services/provision.rs: provision", "src/qos_core/src/protocol/services/boot.rs: boot_standard"]}
{"id": "C54", "title": "Egress tunnel preserves packets", "statement": "Whatever sizes reads and writes have, each egress pump writes a prefix of the bytes it read, in order and unchanged, and when it waits for input everything complete has been written. The packet pump, on any stream of IPv4/IPv6 packets of at most 32000 bytes, never panics, always has room for the next read, and writes exactly one whole packet per write, in order, each as soon as it has arrived. So packets read from one tun interface leave the other one whole, unchanged and in order, however the connection cuts the stream; from any point the pump gets through what it holds without new input. Recorded deviations: a header declaring total length 0 makes the pump spin for ever; a packet longer than 32000 bytes ends it; an IPv6 payload length of 65496 or more overflows.", "quantifier": "all packet sequences, all cuttings of the stream into reads, all schedules of both pumps", "why_tests_cant": "Quantifies over all packet sequences and every way in which a stream may be split; needs an invariant of a ring-like buffer.", "anchors": ["src/qos_core/src/egress.rs: pipe_frames, pipe_all, next_frame"]}
{"id": "C55", "title": "The network proxy opens only what was asked for and passes bytes unchanged", "statement": "A session of the qos_net proxy makes at most one DNS query and at most one TCP connection, and both are determined by the first message on its connection: by address, exactly that address and port; by name, a query for exactly that name to exactly the given resolvers, then the first address of the answer at the requested port. What the enclave reads first is the answer to its request, taken for a connection exactly if one was made; everything after it was sent by the remote host, and everything the remote host got was written by the enclave after its request, in order and unchanged, with nothing missing if the session ends normally. Sessions with the same resolver configuration share one resolver. A listener never serves more sessions than configured, and while it runs a waiting one can be accepted; requests that can be served can get their connection, and once both ends have closed the session can end. Recorded deviation: one failed accept ends a listener for ever.", "quantifier": "all byte streams from enclave and remote hosts, all interleavings of any number of sessions, listeners and resolver constructions, all failures", "why_tests_cant": "Concurrent sessions, arbitrary splitting of streams and a double-checked cache: all schedules and histories.", "anchors": ["src/qos_net/src/proxy.rs: Proxy, ProxyServer, accept_loop_proxy, RequestProcessor", "src/qos_net/src/proxy_connection.rs: ProxyConnection, resolve_hostname, cached_resolver", "src/qos_net/src/proxy_stream.rs: ProxyStream::connect_by_name, connect_by_ip", "src/qos_net/src/proxy_msg.rs: ProxyMsg"]}
{"id": "C56", "title": "The operator programs run with exactly what their command line says", "statement": "qos_host, qos_bridge, the egress program and the qos_net proxy start exactly if the command line consists of known options that satisfy the declared conflicts and requirements and each value reads as what it stands for: the enclave socket is the given Unix path or the given cid and port with the given host flag, the listening address is the given IPv4 address and port, the time-out, pool size and connection limit are the given numbers or the documented defaults; otherwise the program stops before it opens anything. IPv4 addresses are accepted in exactly the usual dotted form. A vsock proxy always has exactly one socket.", "quantifier": "all lists of arguments, of any length and content", "why_tests_cant": "The space of command lines is infinite, and option interactions are quadratic in the options; only a theorem shows that no other spelling is accepted or read differently.", "anchors": ["src/qos_host/src/cli.rs: HostParser, HostOpts, CLI::execute", "src/qos_bridge/src/cli.rs: HostParser, HostOpts, Cli::execute_ingress, Cli::execute_egress", "src/qos_net/src/cli.rs: ProxyParser, ProxyOpts, CLI::execute"]}
{"id": "C57", "title": "Handing the quorum key to a new enclave with the operators' commands", "statement": "An honest hand-over works end to end: for an envelope that the manifest set approved and that may take over from the one installed in a provisioned enclave, boot-key-fwd at a fresh enclave writes an attestation document; export-key with that document at the old enclave, from any machine, writes a key file and leaves the old enclave unchanged; inject-key with that file at the new enclave, from any machine, succeeds, and the new enclave holds exactly the old enclave's key. Whoever answers, boot-key-fwd and export-key write only what was the answer to a request with exactly the named files, and inject-key reports success only if the key in the named file was accepted. The key file is exactly the documented JSON text.", "quantifier": "all envelopes, keys, enclave histories, operators' disks, answers of any endpoint", "why_tests_cant": "Composition of three commands, two hosts and two enclaves with arbitrary prior histories and arbitrary (also hostile) answers.", "anchors": ["src/qos_client/src/cli/services.rs: boot_key_fwd, export_key, inject_key, post_request_with_encoding_fallback", "src/qos_core/src/protocol/services/key.rs: export_key, inject_key, boot_key_forward, EncryptedQuorumKey"]}
{"id": "C58", "title": "The operator's command line runs what it says", "statement": "The client runs a command with given parameters exactly if the first argument names that command and the remaining arguments are its options: each known, with a value where one belongs, none twice (but --share), all needed ones there, not both a key file and a YubiKey; and the parameters are the ones these words say (URL, paths, numbers below their bounds, bracketed comma lists, restart policy in any case, bridges with different ports, resolvers, manifest version 1 or 2, flags). --help and --version do nothing else. A safety switch is on only if its word is among the arguments: without them approve-manifest, proxy-re-encrypt-share and boot-standard keep their guarantees. A command contacts only the URL it was told, and commands without a host contact nobody. A client and a host told the same address, port and base path meet at the right endpoint; a plain boot-standard line boots a waiting enclave behind the host.", "quantifier": "all argument lists, disks, operator answers, network behaviours", "why_tests_cant": "Tests parse a few fixed lines per command; the claim is an equivalence over all argument lists for all 34 commands.", "anchors": ["src/qos_client/src/cli/mod.rs: Command, ClientOpts, ClientRunner, handlers", "src/qos_core/src/parser.rs: CommandParser", "src/qos_host/src/host.rs: HostServer::path, serve"]}
{"id": "C59", "title": "The bridge server exposes exactly what the installed manifest says", "statement": "The bridge server on the host asks the host's /enclave-info until it reports a manifest envelope, and then runs, for every list of bridge entries: one TCP listener for each server entry with an IPv4 address, at that address and port (or at the overriding port), leading to the enclave socket of that port, and nothing else; one egress helper if and only if there is a client entry, started with arguments that the egress program accepts. It panics exactly if an entry cannot be served, with the bridges of the entries before it running. Before a boot and after a genesis it keeps polling; once a manifest is installed it can take only the bridges of a manifest that a quorum of the manifest set approved for this enclave, and takes them at the first poll that gets through. A connection to a listener arrives at the application port that its entry names and at no other.", "quantifier": "all lists of bridge entries, bridge configurations, sequences of replies, request histories of the enclave (with file faults and answers too long for a frame), both overflow modes", "why_tests_cant": "Entries, overrides, socket kinds and port numbers combine without bound; that no listener exists beyond those asked for, and that only an approved manifest can be used, are statements about all inputs and histories.", "anchors": ["src/qos_bridge/src/host.rs: BridgeServer::serve, run_bridges, run_ingress_bridge, run_egress_host_bridge", "src/qos_core/src/io/host_bridge.rs: HostBridge", "src/qos_core/src/io/mod.rs: SocketAddress::with_port", "src/qos_host/src/lib.rs: EnclaveInfo", "src/qos_core/src/egress.rs: run_looping"]}
{"id": "C60", "title": "A connection through the bridge is a faithful pipe", "statement": "On a connection through the host bridge and the enclave bridge, under every schedule of the two copying tasks, both ends and the network, and with failures at any point: the application is given only a prefix of what the client wrote, in order and without gaps, and the client only a prefix of what the application wrote. If neither task broke off, an end of stream seen by one side was written by the other and everything before it was delivered. From every state in which no task has failed both can still finish, and then everything written has arrived. If a task breaks off, the other side can see a clean end of a truncated stream. The bridge never works for ever by itself, and whenever it can do nothing more by itself and no task has failed, everything written so far has arrived on the other side together with every end: nobody has to write more or to close for what was written to be passed on.", "quantifier": "all schedules, chunk sizes, data, half-closes and failures of one connection", "why_tests_cant": "Interleavings of two copying tasks, half-closes and failures are unbounded; loss, duplication or reordering in one of them would be missed by runs of some.", "anchors": ["src/qos_core/src/io/host_bridge.rs: tcp_to_vsock, vsock_to_tcp", "src/qos_core/src/io/stream.rs: Stream (AsyncRead, AsyncWrite)"]}
{"id": "C61", "title": "DNS resolvers are addresses, and exactly the approved ones reach the pivot's resolver file", "statement": "A resolver on the operator's command line or in a manifest, and an address or resolver in a proxy request, is accepted exactly if its text is one of the texts of RFC 4291 for an IPv4 or IPv6 address, which is then that address. Addresses are written in the text recommended by RFC 5952, different addresses have different texts, and every address reads back as itself, so spelling an address differently does not make a different manifest. When a pivot has been started, /etc/resolv.conf was written before exactly if the approved manifest has a DNS configuration, and its lines name exactly the approved resolvers, in order, and nothing else.", "quantifier": "all texts, all addresses, all lists of resolvers, all enclave histories and schedules of the reaper, all runs of the network proxy", "why_tests_cant": "Address texts, lists and histories are unbounded; that no text smuggles another line into the resolver file is a statement about all of them.", "anchors": ["src/qos_core/src/protocol/services/boot/manifest/v2.rs: DnsConfig", "src/qos_core/src/reaper.rs: resolv_conf_with_nameservers, write_resolv_conf", "src/qos_client/src/cli/mod.rs: dns_resolvers", "src/qos_net/src/proxy_connection.rs: new_from_ip, resolve_hostname"]}
{"id": "C62", "title": "The launcher starts what its environment says and logs the console faithfully", "statement": "The program that runs the enclave on the host starts at most one enclave, with exactly the image path, CID, memory, number of CPUs and name its environment variables give (or their defaults), in debug mode exactly if DEBUG is true and with the console exactly if LOGS is true; with variables that make no sense it starts none. It ends only the enclave it started, and only after a signal, after which it exits with success. The health service answers 200 exactly if the first enclave described is running, else 503. However the console's output is cut into chunks, what is logged is exactly the non-empty lines in order, each once, without carriage returns at the end, an unfinished last line included when the console ends.", "quantifier": "all environments, all answers of the nitro library, all console outputs and all ways to cut them into chunks", "why_tests_cant": "Chunk boundaries and outputs are unbounded; the tests try the chunk sizes of one short text.", "anchors": ["src/qos_enclave/src/main.rs: EnclaveConsoleWriter, boot, healthy, health_service, shutdown, main"]}
{"id": "C63", "title": "The client never damages a YubiKey and never accepts a bad signature from one", "statement": "Whatever card is plugged in and however it answers: no command of the client puts a key into a slot unless the card was asked, immediately before, for the certificate in that slot and had none to show; every key put on the card requires the PIN and a touch for each use. The commands that only use a card (approving, re-encrypting, after-genesis, signing, showing the key) send it nothing but PIN checks, certificate reads, signing and key-agreement requests. A signature is handed out only if it is a signature of exactly the data that was to be signed under the key in the certificate the card showed; the only digest ever sent to be signed is that of the data. provision-yubikey writes the hexadecimal of the two keys the card shows; advanced-provision-yubikey succeeds only if the card shows the public key of the seed that was imported.", "quantifier": "all cards (arbitrary state machines), all answers, all commands and arguments, all PINs and data", "why_tests_cant": "There are no tests with a card at all, and a card can answer anything at any point.", "anchors": ["src/qos_client/src/yubikey.rs: generate_signed_certificate, import_key_and_generate_signed_certificate, sign_data, key_agreement, pair_public_key, shared_secret", "src/qos_client/src/cli/services.rs: PairOrYubi, provision_yubikey, advanced_provision_yubikey"]}
{"id": "C64", "title": "A YubiKey can take the place of a key file", "statement": "With a card that behaves as its manual says: provisioning a card out of the box succeeds, writes the public key of two secrets of the card's own making and leaves the card usable with the PIN; importing a seed leaves it usable with the secrets of the seed. Such a card can replace the key file with these secrets in after-genesis, approve-manifest and proxy-re-encrypt-share: success, questions and files are the same, except that an approval may carry another valid signature of the same manifest by the same member. approve-manifest and proxy-re-encrypt-share keep their promises (C44, C46) also with secrets that only the card knows. A wrong PIN costs one try, reveals and changes nothing. The PIN in a file is its first line. A client built with YubiKey support treats key files as one built without. A card whose signing slot has a certificate is refused; when only the other slot has one, the card is left half provisioned and every further attempt is refused; a key without a certificate is overwritten; yubikey-piv-reset always reports success and erases the card only if the PIN is blocked, or is not 000000 and at most three tries from it.", "quantifier": "all states of the card, all PINs, seeds, manifests, shares, disks and answers of the operator, all lawful cryptographic primitives", "why_tests_cant": "No test uses a card; the equivalence ranges over all card states and inputs.", "anchors": ["src/qos_client/src/yubikey.rs: all functions", "src/qos_client/src/cli/services.rs: PairOrYubi::from_inputs, sign, decrypt, public_key_bytes, pin_from_path, provision_yubikey, advanced_provision_yubikey, after_genesis, approve_manifest, proxy_re_encrypt_share, yubikey_sign, yubikey_public", "src/qos_client/src/cli/mod.rs: yubikey_piv_reset, yubikey_change_pin"]}
{"id": "C65", "title": "A client command writes only the files its command line names as outputs", "statement": "Whatever the command, its arguments, the files on disk, the answers of the enclave and the operator and (with smartcard support) the card: every file the client writes is the value of one of the command's output options, or lies under a fixed name in its output directory (the five genesis files, manifest_envelope unless a path is given, N.share, or an approval named after the alias). Files in a directory are directly in it, provided the alias given to approve-manifest contains no '/'. Status, verification, display and posting commands write nothing.", "quantifier": "all commands, command lines, disks, answers of host, operator and card", "why_tests_cant": "An absence claim over all inputs and all handlers.", "anchors": ["src/qos_client/src/cli/mod.rs: handlers", "src/qos_client/src/cli/services.rs: write_with_msg, approve_manifest, boot_genesis, shamir_split"]}
{"id": "C66", "title": "A client command that succeeds has done what it is for, with the files and host its options name", "statement": "For every command of qos_client and every command line, if the command ends with success (and was not asked for help or version) then its options are the ones it wants and it has done its job with exactly those: the right file was read for each option, the right request was answered by the host at the given address, what is written under each output option is the thing the option is for (e.g. p256-asymmetric-decrypt writes the decryption of --ciphertext-path under --master-seed-path to --plaintext-path; post-share's printed answer is the enclave's). YubiKey commands of the build without smartcard support never succeed.", "quantifier": "all commands, command lines, disks, and answers of host and operator", "why_tests_cant": "Swapped or mixed-up options and unread answers show only for particular files and answers; the claim is for all of them and for all commands.", "anchors": ["src/qos_client/src/cli/mod.rs: handlers, CLI::execute", "src/qos_client/src/cli/services.rs"]}
{"id": "C67", "title": "The signed-echo pivot signs exactly what was echoed or fetched, with the enclave's quorum key, unambiguously", "statement": "An HTTP request to the signed-echo application is answered with a signature exactly if it is POST /echo with a UTF-8 body of at most 2 MiB or GET /get_url of a URL that yields a 2xx status and a readable body, the quorum key file holds a key and the clock is not before the epoch. The returned signature verifies over the returned text under the returned key, and the text read as JSON shows exactly domain, message and time (or domain, url, status, body and time). A refusal names its cause (clock, key, or the status of the fetched page), and different causes have different texts. No text can be read as two different answers: different messages, times, URLs, statuses or bodies give different texts and an echoed message can never pass for a fetched page. In an enclave, whenever it answers, the key is the quorum key of the manifest of an approved boot. Its command line means what it says (last value wins, unknown arguments refused): it listens exactly if the host is an IPv4 address or an IPv6 address in brackets, on that address and port.", "quantifier": "all requests, key files, clocks, answers of the network, command lines, and all histories of the enclave and moments in them", "why_tests_cant": "The repository's one test signs one payload; unambiguity is about all pairs of payloads and the enclave claim about all histories.", "anchors": ["src/signed_echo/src/lib.rs: router, signed_echo, signed_get_url, sign_json_payload, fetch, AppError::into_response", "src/signed_echo/src/main.rs: Cli::parse, main"]}
{"id": "C68", "title": "Nothing is served and no pivot runs before the enclave's kernel is set up and its randomness comes from the Nitro device", "statement": "The first process of the enclave starts the server exactly if the Nitro module file is there, the kernel's current hardware random number generator is nsm-hwrng (or powering off fails), the loopback interface could be brought up with 127.0.0.1 and, when built with egress, every tunnel command worked, and the local CID is known. Before that it has asked for every listed file system, none allowing programs or set-user-id and only the device ones devices, the console, and the heartbeat to the hypervisor, has loaded the driver before looking at the randomness source, and has set no other interface flag than up. The server listens on the enclave's own CID with the files that everything else is about; whenever a pivot runs it is the one of an approved boot, and the machine is rebooted only after a pivot with the policy Never has exited.", "quantifier": "all answers of the kernel, builds with and without egress, schedules of the server, and histories of the enclave", "why_tests_cant": "The code runs as the first process of a machine and is not covered by any test; the claim is about every combination of kernel failures.", "anchors": ["src/init/init.rs: init_rootfs, init_console, boot, main", "src/init/setip.rs: init_localhost", "src/qos_aws/src/lib.rs: init_platform, nitro_heartbeat", "src/qos_system/src/lib.rs: mount, freopen, insmod, check_hwrng, poweroff, reboot, get_local_cid", "src/qos_core/src/egress.rs: init_egress_tun"]}
{"id": "C69", "title": "The enclave's device requests reach the Nitro driver unchanged, one session each, and its clock is the device's own", "statement": "Every call of the NSM provider opens one descriptor, sends exactly one request that says exactly what was asked (name and fields), closes it, and returns exactly what the driver answered; requests and responses survive conversion to the driver's types and back; a response the code does not know is an internal error and never an attestation; a request it does not know is not read. The time is the timestamp in the document that the driver returns for an attestation request without user data, nonce and key, or an error. Hence, in an enclave on the real device, every recorded response is the driver's answer to the recorded request, and a key is exported only if the peer's certificate chain is valid at the second given by the device's own document asked for at that moment.", "quantifier": "all drivers (answers depending on everything called before), sequences of provider calls, requests and responses, and all histories of the enclave", "why_tests_cant": "No test runs against the driver; the conversions are written out by hand four times, and a swapped case shows only for that request or response.", "anchors": ["src/qos_nsm/src/nsm.rs: Nsm::nsm_process_request, Nsm::timestamp_ms", "src/qos_nsm/src/types.rs: From<ErrorCode>, From<Digest>, From<Request>, From<NsmRequest>, From<Response>, From<NsmResponse>", "src/qos_core/src/protocol/services/key.rs: verify_and_extract_attestation_doc_from_der"]}
{"id": "C70", "title": "A ceremony and a deployment compose: honest operators always get the quorum key made, collected and provisioned", "statement": "On a waiting enclave over an honest device, boot-genesis for any set of members a ceremony can be held for (and a seed that yields a key) succeeds, for up to 255 members and with or without a disaster recovery key: it sends one request and writes exactly the files of a correct ceremony; the enclave ends in the genesis phase with its files untouched. Any members who take the document and the output to their own machines each get from after-genesis exactly one file, their share encrypted to their key, and any threshold many of these shares give back the secret. If the envelope of a later boot names this quorum key and threshold, then boot-standard, get-attestation-doc, proxy-re-encrypt-share by threshold many different members with the collected files, and post-share provision a second enclave with exactly the secret made at the ceremony.", "quantifier": "all sets of members and disaster recovery keys, seeds, names up to 1000 characters, orders and choices of members, envelopes, disks and histories of the first enclave", "why_tests_cant": "The end-to-end test runs one set of members on a mock device; message sizes, Shamir subsets, key relations and the two enclaves' states vary with every ceremony.", "anchors": ["src/qos_client/src/cli/services.rs: boot_genesis, after_genesis, boot_standard, get_attestation_doc, proxy_re_encrypt_share, post_share", "src/qos_core/src/protocol/services/genesis.rs: boot_genesis", "src/qos_core/src/protocol/services/provision.rs: provision"]}
{"id": "C71", "title": "The smartcard commands do to a card what they say, with the PIN that was given", "statement": "From the command line, on a well-behaved card: yubikey-sign prints the hexadecimal of a signature, by the card's signing key, of exactly the bytes the payload spells; a payload that is not hexadecimal is refused without touching the card; a wrong PIN signs nothing and costs one try. yubikey-public prints the card's public key. yubikey-change-pin replaces the PIN in the first file by that in the second, or fails, costing one try, and leaves keys and certificates alone. provision-yubikey makes an empty card usable with its own secrets and writes their public key; advanced-provision-yubikey makes it usable with the secrets of the seed file, under the PIN from the named file or, if none was named, from the terminal. yubikey-piv-reset always reports success.", "quantifier": "all cards (PIN, tries, slots, randomness), PINs, files, payloads and command lines that parse to the command", "why_tests_cant": "The tests need a physical card and are not run; two PIN files and two secrets can be swapped without a type error.", "anchors": ["src/qos_client/src/cli/services.rs: yubikey_sign, yubikey_public, provision_yubikey, advanced_provision_yubikey, pin_from_path", "src/qos_client/src/cli/mod.rs: yubikey_change_pin, yubikey_piv_reset, yubikey_sign", "src/qos_client/src/yubikey.rs: yubikey_change_pin, sign_data"]}
{"id": "C72", "title": "The enclave program starts an enclave with exactly the files, device and address it was told", "statement": "The enclave program runs an enclave with given key, manifest and pivot files, a given security module and a given address exactly if its arguments are an acceptable command line that asks for them; otherwise it prints help or version, ends at once, or (an acceptable command line that asks for nothing that can run) stays alive and never listens. With --mock-pcrs the simulated device starts with, for every register, the value of the last line of the file for it, and a file with any other line than `<hex> PCR<number>` (register below 32, 32, 48 or 64 bytes) or white space starts nothing. A release file that gives no register twice seeds the registers 0 to 2 that the client reads from the same file into manifests; with the role's register 3 in it too, the device is measured as such a manifest demands.", "quantifier": "all argument lists, file contents, both builds (with and without the mock feature), releases, roles and manifests", "why_tests_cant": "Files and command lines are unbounded; two programs read the same file with two different parsers and must agree on it.", "anchors": ["src/qos_core/src/cli.rs: CLI::execute, EnclaveOpts::nsm, EnclaveOpts::enclave_socket, seed_mock_pcrs", "src/qos_nsm/src/mock.rs: MockNsm::with_pcr", "src/qos_client/src/cli/services.rs: extract_qos_pcrs, lines_to_entries"]}
{"id": "C73", "title": "Manifest files, requests and hashes have exactly the documented fields", "statement": "A JSON document is read as a V0, V1 or V2 manifest or envelope exactly if it has the documented members, under their documented names (pcr0..pcr3, awsRootCertificate, manifestSet, shareSet, manifest_set_approvals in a V0 envelope, ...) with values in the documented notation (hexadecimal with optional 0x, numbers also as text, bridge tags, environment and resolver rules); V2 documents have no other top-level, pivot or DNS members. Whatever is read, each part of the manifest is the member of that name and of no other. A manifest or envelope is written as the document with these names in this order, stored as its canonical (V2) or compact (V1, V0) text; the Borsh form is the fields in this order with little-endian 32-bit lengths, and bytes are read as Borsh exactly if they are that form of a value. The hash that approvals sign is the SHA-256 of the canonical text (V2) or of the Borsh bytes (V1, V0). A file that declares a version is read as V2 only; otherwise V1 JSON, V0 JSON and Borsh of exactly one version are tried in this order.", "quantifier": "all byte strings, JSON documents, manifests and envelopes of every version", "why_tests_cant": "Documents are unbounded and the same manifest has many texts; a consistent renaming or reordering of fields passes every round-trip test and still makes two deployments disagree on what was approved.", "anchors": ["src/qos_core/src/protocol/services/boot.rs: NitroConfig, PivotConfig, PivotConfigV0, BridgeConfig, QuorumMember, ManifestSet, ShareSet, PatchSet, Namespace, Manifest, ManifestV0, Approval, ManifestEnvelope, ManifestEnvelopeV0, decode_borsh, Manifest::try_from_slice_compat, ManifestEnvelope::try_from_slice_compat", "src/qos_core/src/protocol/services/boot/manifest.rs: VersionedManifest::try_from_slice_compat, VersionedManifest::to_storage_vec, VersionedManifestEnvelope::try_from_slice_compat, VersionedManifestEnvelope::to_storage_vec, manifest_hash", "src/qos_core/src/protocol/services/boot/manifest/v2.rs: ManifestV2, PivotConfigV2, DnsConfig, ManifestEnvelopeV2, deserialize_v2_version", "src/qos_core/src/protocol/services/boot/env.rs: PivotEnv, PivotEnvValue", "src/qos_hex/src/lib.rs: serde", "src/qos_json/src/lib.rs: string_or_numeric"]}
{"id": "C74", "title": "Requests and answers of the enclave have exactly the documented form", "statement": "Bytes of at most 128 MiB are taken as a request in JSON exactly if they are JSON of a message: a member with the documented name of the message (or that name alone, for a message that carries nothing) holding the documented fields; in Borsh exactly if they are not that, and are the message's position followed by the bytes of its fields, and it is not about a key ceremony; otherwise the answer is the text of the deserialization error (or of the refusal of legacy ceremonies) and the enclave is not touched. A JSON request is answered with the canonical JSON text of the answer's document, a Borsh request with the answer's position and fields, or with the JSON text of the invalid-message error where the answer has no Borsh form. This holds for all messages, all 60-odd error codes, phases, device answers and ceremony outputs; the hash in a ceremony's attestation is that of the documented bytes of the output.", "quantifier": "all byte strings, messages, enclave states and environments", "why_tests_cant": "A consistent renaming, reordering or renumbering of variants or fields passes every round-trip test and breaks every other client, tool and stored record; documents are unbounded and the same message has many texts.", "anchors": ["src/qos_core/src/protocol/msg.rs: ProtocolMsg, JsonBytes, ProtocolMsg::from_wire, ProtocolMsg::to_wire", "src/qos_core/src/protocol/error.rs: ProtocolError", "src/qos_core/src/protocol/state.rs: ProtocolPhase", "src/qos_core/src/protocol/services/genesis.rs: GenesisSet, GenesisMemberOutput, MemberShard, GenesisOutput", "src/qos_core/src/protocol/processor.rs: ProtocolProcessor::process", "src/qos_nsm/src/types.rs: NsmResponse, NsmErrorCode, NsmDigest", "src/qos_p256/src/lib.rs: P256Error"]}
{"id": "C75", "title": "The pivot environment has one meaning in Borsh, in JSON and through its methods", "statement": "Bytes are read as a pivot environment exactly if they are the number of entries followed by, for each entry, a valid name, the variant number 0 and a valid value, and have at most 512 different names; each name then has the last value given for it. A name, a plain value or a value on its own is read exactly if it is valid. Every environment that any sequence of method calls and reads leads to is written as the bytes of its entries in name order and read back unchanged; different environments have different bytes and none is a prefix of another's. The methods, JSON and Borsh lead to exactly the same set of environments. Repeated or unordered entries are accepted, so bytes read need not be the bytes written.", "quantifier": "all byte strings, all environments, all sequences of operations", "why_tests_cant": "The limits interact (names, values, count, duplicates) and the claim is about every byte string and every history; a decoder that skips one validation passes all tests written with valid values.", "anchors": ["src/qos_core/src/protocol/services/boot/env.rs: PivotEnv, PivotEnvValue, PivotEnvPlainValue, PivotEnvVarName, BorshDeserialize"]}
{"id": "C76", "title": "The enclave's answers do not depend on its secrets", "statement": "Take two states of an enclave that differ in the content of the quorum-key file alone. Every request that is not an export is answered identically by both, and leaves them differing in that file alone, with the same requests to the device and the same other files; so is every sequence of such requests. An export is refused by both with the same error, or both answer, each with its own key encrypted to the same public key with the same randomness and signed. Likewise for two states that differ only in the shares collected so far and in the pending live key: no request but a further share or an injected key is answered differently, and a further share is not while the quorum is incomplete.", "quantifier": "all pairs of states that differ only in the secret, all requests and sequences of requests, all behaviours of file system, device and randomness", "why_tests_cant": "Non-interference compares all pairs of runs; a test sees single runs, and a leak would only show for the secrets, requests and failures that reach it.", "anchors": ["src/qos_core/src/protocol/state.rs: ProtocolState, handlers", "src/qos_core/src/protocol/services/key.rs: export_key", "src/qos_core/src/protocol/services/provision.rs: provision"]}
{"id": "C77", "title": "In debug mode the pivot's output is reprinted line by line, in order and complete", "statement": "Whatever the pivot writes to its two output streams, in whatever pieces, and in whatever order the streams are read: what is printed of a stream is, in order and without a gap, the lines the pivot wrote to it, each marked with the stream, as text without the line end (a line that is not UTF-8 is replaced by an error message and does not stop the rest); a last line without a newline is printed only once the stream is closed. A task that waits for a stream has printed all of its lines, and when the task ends it has printed everything of the stream whose end it found. It does not wait for the other stream: the last words of a pivot on its error stream can be lost.", "quantifier": "all byte streams, all ways to cut them into writes, all interleavings of writes, closes and reads of the two streams", "why_tests_cant": "The order in which ready streams are read is random and the cuts between writes are the system's; tests see a few of them.", "anchors": ["src/qos_core/src/reaper.rs: reprint_pivot_output"]}
{"id": "C78", "title": "JSON text is read exactly as RFC 8259 says", "statement": "Reading bytes as JSON gives a value exactly when the bytes are the UTF-8 of a JSON text that denotes the value under the grammar of RFC 8259: white space of four kinds and only between tokens, the eight short escapes, \\u escapes with surrogate pairs (half a pair is refused), no bare control characters, numbers without superfluous zeros, one value and nothing after it. No text denotes two values. An integer literal is an integer exactly when it fits in 64 bits, signed or unsigned; any other number, and -0, is a float. Arrays and objects are read up to 127 deep and refused beyond. Member names are kept as written, repeated ones included, for the typed readers to judge.", "quantifier": "all byte strings and all JSON values", "why_tests_cant": "The set of texts is infinite and the refusals matter as much as the acceptances; a reader that is lax or strict in one corner changes which manifests and messages are accepted and what their hash is.", "anchors": ["src/qos_json/src/lib.rs: from_slice", "src/qos_core/src/protocol/msg.rs: ProtocolMsg::from_wire", "src/qos_core/src/protocol/services/boot/manifest.rs: try_from_slice_compat"]}
{"id": "C79", "title": "The words on the screen determine what is approved", "statement": "The texts that approve-manifest prints determine every fact the operator confirms: two prompts print alike only if they ask the same question about the same value, for every namespace name, nonce, restart policy, argument list, debug flag, bridge list and resolver list, whatever characters they contain. Two runs of approve-manifest over the same local files that print the same texts and write an approval have approved manifests that agree in everything but the pivot's environment, which is never shown. Two runs of proxy-re-encrypt-share that print the same texts and write a file agree in the namespace name, nonce and IAM role, and in the aliases of the approvers if no alias contains a line break. Arguments never break out of their line; a namespace name or an alias with a line break does.", "quantifier": "all manifests, envelopes, local files, keys, answers, and every table of unprintable characters", "why_tests_cant": "Tests compare a few prompts with a few strings; injectivity is about all pairs of manifests, and an attacker chooses the strings that end up between the program's own words.", "anchors": ["src/qos_client/src/cli/services.rs: approve_manifest_human_verifications, proxy_re_encrypt_share_human_verifications, Prompter::prompt_is_yes"]}
{"id": "C80", "title": "The keys work with the standard algorithms", "statement": "With SHA-2, HMAC, HKDF, AES-256-GCM, and ECDH and deterministic ECDSA over NIST P-256 as their standards define them, for every master seed that gives a pair: every message below 2 GiB encrypts to the pair's public key and the pair decrypts the ciphertext to the message; every signature the pair makes verifies under its key; and a byte string decrypts to a message exactly if it is the encryption of that message to the pair's key with some randomness. The bytes accepted as a point are exactly the uncompressed encodings of the points of the curve, and exactly the public points of the valid secrets; two different secrets never have the same public key, and a key exchange with an accepted point never gives the point at infinity. Everything the other properties assume of the primitives (lengths, agreement of both ends of a key exchange, decryption inverting encryption, verification of signatures) is true of these algorithms. Signatures are not unique: to each valid one there is a second, computable without the secret.", "quantifier": "all seeds, secrets, messages, nonces, ciphertexts, signatures and byte strings", "why_tests_cant": "Vectors check a few keys; a carry, a missed point at infinity or an unreduced coordinate shows on one input in 2^32 or fewer. That both ends agree and that signatures verify follows from the group law of the curve, the primality of its field and the order of its base point.", "anchors": ["src/qos_p256/src/encrypt.rs: P256EncryptPair::decrypt, P256EncryptPublic::encrypt, AesGcm256Secret", "src/qos_p256/src/sign.rs: P256SignPair::sign, P256SignPublic::verify", "src/qos_p256/src/lib.rs: P256Pair, P256Public", "src/qos_crypto/src/lib.rs: sha_256, sha_384, sha_512"]}
{"id": "C81", "title": "The quorum key of a manifest is one key in every enclave that runs it", "statement": "Whenever an enclave's quorum key file exists, reading it gives a key pair whose public key is the quorum key of the stored manifest. With the standard algorithms: any two enclaves whose stored manifests name the same quorum key hold key pairs with the same encryption and signing secrets, so they decrypt the same byte strings to the same messages, refuse the same ones and sign every message identically, whichever requests, shares, devices and randomness led them there; enclaves whose manifests name different keys hold different seeds. Whoever has the manifest can encrypt any message below 2 GiB so that every such enclave's key decrypts it, and can check every signature such a key makes.", "quantifier": "all pairs of enclaves, request histories, crash points, files, devices, randomness, shares, messages and ciphertexts", "why_tests_cant": "Tests provision one enclave with one seed. That no other secret fits the public key in the manifest is a fact about the whole curve, and that no other key is ever stored one about every history and crash point.", "anchors": ["src/qos_core/src/protocol/services/provision.rs: provision", "src/qos_core/src/protocol/services/key.rs: inject_key", "src/qos_core/src/handles.rs: Handles::get_quorum_key, put_quorum_key", "src/qos_p256/src/lib.rs: P256Pair::from_hex_file, public_key, decrypt, sign"]}
{"id": "C82", "title": "Calls do not get stuck: left to itself the system comes to rest with every call answered", "statement": "Whatever state a pooled client and the socket server have reached, the work they can do by themselves (no new call, no other client acting, no time-out, no I/O error, every read and write moving at least one byte) comes to an end: no run works for ever without something from outside. When nothing more can be done, the pool has at least one stream, its addresses are listened on and other clients occupy fewer than all the permits of each listener, then every call has returned. A call that was waiting for a stream has then got the response to its own request, computed exactly once, unless its request or the response to it is above the size limit; nothing else makes it fail. The condition on other clients is needed: while as many idle connections as there are permits stay open, no waiting call is ever answered, because the server never ends a connection for being idle.", "quantifier": "all request processors, pools, numbers of listeners and permits, reachable states (with any history of time-outs, cancellations, failures and hostile clients), schedules and splittings of the byte streams", "why_tests_cant": "A deadlock between stream mutexes, permits, the state lock and half-closed connections shows only under some schedules; a test that hangs or passes shows one schedule.", "anchors": ["src/qos_core/src/client.rs: SocketClient::call", "src/qos_core/src/io/pool.rs: StreamPool::get, PoolGuard::drop", "src/qos_core/src/io/stream.rs: Stream::call, reset, send, recv", "src/qos_core/src/server.rs: PermittedStream::accept, accept_loop", "src/qos_core/src/protocol/processor.rs: ProtocolProcessor::process"]}
{"id": "C83", "title": "The network proxy does not get stuck: left to itself every request is answered and everything written arrives", "statement": "Whatever state the network proxy has reached, what it does by itself (nobody new connects, neither end of a session writes or closes, no I/O error, every read and write moves at least one byte; name servers answer or fail and connection attempts succeed or fail) comes to an end: it never works for ever without something from outside, with its time-outs or without them. When nothing more can be done, each session of a listener either waits to be accepted, and then its listener has failed or serves as many sessions as it may; or its enclave end is open and has not yet written a whole request, and nothing has been done for it; or it has been answered and is connected, everything written on either side has arrived on the other with every end, and not both sides have ended; or it is over. A session that has not ended and on which a whole request has been written is then answered with the right answer and served in full, unless it still waits at such a listener or the answer is above the size limit. With the 10 s time-out in force nobody waits for ever: a proxy that may serve at least one session per listener and whose listeners have not failed comes to rest only when every session has been accepted and is over.", "quantifier": "all reachable states (with any history of time-outs, failures and half-closed connections), listeners and permits, requests, answers of name servers, outcomes of connection attempts, schedules and splittings of the byte streams", "why_tests_cant": "A session that hangs, a permit that is not returned or a lost end of stream shows only under some schedule of accepts, cache races, partial reads and closes; a test shows one.", "anchors": ["src/qos_net/src/proxy.rs: Proxy::run, connect_and_stream, accept_loop_proxy", "src/qos_net/src/proxy_connection.rs: new_from_name, new_from_ip, cached_resolver", "src/qos_core/src/server.rs: PermittedStream::accept"]}
{"id": "C84", "title": "The egress tunnel comes up again after any failure, if both its processes are built to abort", "statement": "Take the two processes of the transparent egress (one in the enclave, one on the host), each restarted for ever by its supervisor. Whatever failures of pumps, connections and whole processes came before: what the programs then do by themselves comes to an end after a bounded number of steps, and if both are built so that a panic aborts the process, it ends only with both copying in both directions over the same connection; a working tunnel is torn down by nothing but a failure. A process built to abort never runs with one direction only. Negative (the host's images are built to unwind): when one direction of the host fails it goes on with the other for ever while the connection stays open, whatever packets come; and when the connection is lost it does not connect again until a packet comes in from the network, which then brings the tunnel up in three steps. Whatever connections break, wherever in a packet: every packet that comes out of the tunnel is one that went in, whole, unchanged and in order, so packets can only be missing; and none is missing of the connection that is up once both ends wait.", "quantifier": "all numbers and orders of failures, restarts, connections and packets, both panic modes, all backlog sizes", "why_tests_cant": "failures can hit either process at any point of the handshake and of the other's restart; that no combination leaves the two waiting for each other is a statement about all histories", "anchors": ["src/qos_core/src/egress.rs: enclave_egress, host_egress, copy_bidirectional, pipe_all, pipe_frames, run_looping", "src/qos_bridge/src/host.rs: run_egress_host_bridge", "src/qos_core/src/reaper.rs: run_egress_bridge", "Cargo.toml: profile.release-panic-abort", "src/images/qos_bridge_egress/Containerfile", "src/images/qos_enclave_egress/Containerfile"]}
