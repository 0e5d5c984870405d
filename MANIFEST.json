{
 "claims": [
  {
   "property": "C01",
   "status": "proved",
   "theorems": [
    "Qos.Lifecycle.transition_exact",
    "Qos.Lifecycle.status_reports_phase",
    "Qos.Lifecycle.phase_determined",
    "Qos.Lifecycle.phase_follows_graph",
    "Qos.Lifecycle.phases_follow_graph",
    "Qos.Lifecycle.phase_never_backwards",
    "Qos.Lifecycle.no_invalid_transition"
   ],
   "note": ""
  },
  {
   "property": "C02",
   "status": "proved",
   "theorems": [
    "Qos.Lifecycle.final_phase_frozen",
    "Qos.Lifecycle.final_phase_status",
    "Qos.Lifecycle.attestation_keeps_device"
   ],
   "note": ""
  },
  {
   "property": "C03",
   "status": "proved",
   "theorems": [
    "Qos.Lifecycle.unserved_rejected",
    "Qos.Lifecycle.served_accepted"
   ],
   "note": ""
  },
  {
   "property": "C04",
   "status": "proved",
   "theorems": [
    "Qos.Lifecycle.read_only_requests"
   ],
   "note": ""
  },
  {
   "property": "C05",
   "status": "proved",
   "theorems": [
    "Qos.check_approvals_exact",
    "Qos.check_approvals_sound",
    "Qos.check_approvals_complete",
    "Qos.check_approvals_distinct_signers",
    "Qos.check_approvals_ignores_share",
    "Qos.zero_threshold_needs_no_approval",
    "Qos.approval_verify_iff"
   ],
   "note": ""
  },
  {
   "property": "C06",
   "status": "proved",
   "theorems": [
    "Qos.stored_is_approved",
    "Qos.stored_exactly",
    "Qos.manifest_reported",
    "Qos.boot_is_permanent"
   ],
   "note": "every moment, including crash points and failed writes; the device, randomness and I/O outcomes are arbitrary"
  },
  {
   "property": "C07",
   "status": "proved",
   "theorems": [
    "Qos.rejected_boot",
    "Qos.no_files_without_commitment",
    "Qos.failed_boot_untouched"
   ],
   "note": ""
  },
  {
   "property": "C08",
   "status": "proved",
   "theorems": [
    "Qos.quorum_key_complete"
   ],
   "note": ""
  },
  {
   "property": "C09",
   "status": "proved",
   "theorems": [
    "Qos.quorum_key_written_once",
    "Qos.quorum_key_permanent",
    "Qos.put_existing_refused"
   ],
   "note": ""
  },
  {
   "property": "C10",
   "status": "proved",
   "theorems": [
    "Qos.provisioned_by_threshold"
   ],
   "note": ""
  },
  {
   "property": "C11",
   "status": "proved",
   "theorems": [
    "Qos.one_member_can_provision"
   ],
   "note": "the natural expectation is refuted by a concrete history; the guarantee that does hold is C10"
  },
  {
   "property": "C12",
   "status": "proved",
   "theorems": [
    "Qos.bank_locked_first",
    "Qos.device_holds_commitments"
   ],
   "note": ""
  },
  {
   "property": "C13",
   "status": "proved",
   "theorems": [
    "Qos.attested_key",
    "Qos.attestation_verifies",
    "Qos.Lifecycle.boot_document"
   ],
   "note": "with the repository's NSM model as the device"
  },
  {
   "property": "C14",
   "status": "proved",
   "theorems": [
    "Qos.MockNsm.locked_forever",
    "Qos.MockNsm.register_is_fold",
    "Qos.MockNsm.extend_reports_value",
    "Qos.MockNsm.lock_bank",
    "Qos.MockNsm.never_panics",
    "Qos.MockNsm.initial_sized"
   ],
   "note": ""
  },
  {
   "property": "C15",
   "status": "proved",
   "theorems": [
    "Qos.export_exact",
    "Qos.export_needs_old_quorum"
   ],
   "note": ""
  },
  {
   "property": "C16",
   "status": "proved",
   "theorems": [
    "Qos.forwarding_never_downgrades"
   ],
   "note": ""
  },
  {
   "property": "C17",
   "status": "proved",
   "theorems": [
    "Qos.inject_exact",
    "Qos.waiting_has_setup_key",
    "Qos.no_quorum_before"
   ],
   "note": ""
  },
  {
   "property": "C18",
   "status": "proved",
   "theorems": [
    "Qos.forwarding_lossless"
   ],
   "note": "under the stated laws of the cryptographic primitives"
  },
  {
   "property": "C19",
   "status": "proved",
   "theorems": [
    "Qos.genesis_iff",
    "Qos.genesis_recovers",
    "Qos.genesis_attested",
    "Qos.genesis_hash_binds",
    "Qos.genesis_shares_provision"
   ],
   "note": "under the stated laws of the cryptographic primitives and the documented scheme of vsss_rs"
  },
  {
   "property": "C20",
   "status": "proved",
   "theorems": [
    "Qos.Shamir.generate_iff",
    "Qos.Shamir.field_is_aes",
    "Qos.Shamir.shares_shape",
    "Qos.Shamir.threshold_shares_reconstruct"
   ],
   "note": "of the documented scheme of the external crate vsss_rs, whose source is not in the repository"
  },
  {
   "property": "C21",
   "status": "proved",
   "theorems": [
    "Qos.Shamir.below_threshold_reveals_nothing",
    "Qos.Shamir.one_explanation_per_secret"
   ],
   "note": "same remark"
  },
  {
   "property": "C22",
   "status": "proved",
   "theorems": [
    "Qos.Hex.hex_decode_encode",
    "Qos.Hex.hex_decode_encode_prefixed",
    "Qos.Hex.hex_decode_encode_limit",
    "Qos.Hex.hex_decodeToBuf_encode",
    "Qos.Hex.hex_encode_injective",
    "Qos.Hex.hex_encode_shape",
    "Qos.Hex.hex_decode_accepts_iff",
    "Qos.Hex.hex_decode_not_injective",
    "Qos.Hex.hex_canonicalise"
   ],
   "note": ""
  },
  {
   "property": "C23",
   "status": "proved",
   "theorems": [
    "Qos.Stream.send_emits_frame_prefix",
    "Qos.Stream.send_oversized_refused",
    "Qos.Stream.send_completes",
    "Qos.Stream.recv_delivers_exactly",
    "Qos.Stream.recv_truncated_stream",
    "Qos.Stream.recv_oversized_refused",
    "Qos.Stream.send_recv_end_to_end",
    "Qos.Stream.recv_ok_complete"
   ],
   "note": ""
  },
  {
   "property": "C24",
   "status": "proved",
   "theorems": [
    "Qos.Wire.process_total",
    "Qos.Wire.process_oversized",
    "Qos.Wire.process_undecodable",
    "Qos.Wire.fromWire_cases",
    "Qos.Wire.process_json",
    "Qos.Wire.process_borsh",
    "Qos.Wire.handle_answers",
    "Qos.Wire.call_roundtrip",
    "Qos.Wire.encodings_overlap_above_limit",
    "Qos.Wire.decoded_well_formed",
    "Qos.Wire.wire_kind",
    "Qos.Wire.json_accepts"
   ],
   "note": "Every input answered (no panic), errors in JSON leave the state alone, the answer has the encoding of the request, and a client reads back exactly the enclave's response. The size limit is necessary for the two encodings to be disjoint."
  },
  {
   "property": "C25",
   "status": "proved",
   "theorems": [
    "Qos.Borsh.borsh_wire_safe",
    "Qos.Borsh.fits_quorumMember",
    "Qos.Borsh.fits_namespace",
    "Qos.Borsh.fits_quorumSet",
    "Qos.Borsh.fits_approval",
    "Qos.Borsh.fits_pivotConfigV0",
    "Qos.Borsh.borsh_envelope_decode_iff",
    "Qos.Borsh.borsh_envelope_never_confused"
   ],
   "note": ""
  },
  {
   "property": "C26",
   "status": "proved",
   "theorems": [
    "Qos.Wire.borsh_accepts",
    "Qos.Wire.genesis_has_no_borsh",
    "Qos.Wire.v2_has_no_borsh",
    "Qos.Wire.jsonEnvelope_roundtrip",
    "Qos.Wire.borsh_envelope_requests_unreadable"
   ],
   "note": "Also a finding: the Borsh forms of BootStandardRequest, BootKeyForwardRequest and ExportKeyRequest can be written but never read."
  },
  {
   "property": "C27",
   "status": "proved",
   "theorems": [
    "Qos.storage_roundtrip",
    "Qos.storage_roundtrip_manifest",
    "Qos.plain_roundtrip",
    "Qos.storage_injective",
    "Qos.declared_version_never_downgraded",
    "Qos.declared_version_unknown_field_rejected",
    "Qos.declared_version_unknown_envelope_field_rejected",
    "Qos.wire_envelope_roundtrip",
    "Qos.wire_ok",
    "Qos.wire_reads_declared_v2_as_v1"
   ],
   "note": "files: exact; on the wire (serde untagged) the no-downgrade part is refuted by wire_reads_declared_v2_as_v1"
  },
  {
   "property": "C28",
   "status": "proved",
   "theorems": [
    "Qos.Json.canonical_defined_iff",
    "Qos.Json.canonical_eq_iff",
    "Qos.Json.canonical_order_invariant",
    "Qos.Json.canonical_null_invariant",
    "Qos.Json.canonical_array_null_kept",
    "Qos.Json.canonical_form",
    "Qos.Json.plain_roundtrip"
   ],
   "note": ""
  },
  {
   "property": "C29",
   "status": "proved",
   "theorems": [
    "Qos.Attest.verify_manifest_exact",
    "Qos.Attest.preimage_defined",
    "Qos.Attest.preimage_injective",
    "Qos.Attest.commitment_collision",
    "Qos.Attest.setup_live_not_interchangeable",
    "Qos.Attest.attested_key_unique",
    "Qos.Attest.goodDoc_matches"
   ],
   "note": ""
  },
  {
   "property": "C30",
   "status": "proved",
   "theorems": [
    "Qos.Attest.validate_exact",
    "Qos.Attest.validateDoc_cabundle",
    "Qos.Attest.fromDer_exact"
   ],
   "note": ""
  },
  {
   "property": "C31",
   "status": "proved",
   "theorems": [
    "Qos.Env.newName_iff",
    "Qos.Env.newValue_iff",
    "Qos.Env.env_always_well_formed",
    "Qos.Env.env_failed_insert_unchanged",
    "Qos.Env.env_insert_fails_iff",
    "Qos.Env.env_insert_visible",
    "Qos.Env.env_decode_iff",
    "Qos.Env.env_collect_last"
   ],
   "note": ""
  },
  {
   "property": "C32",
   "status": "proved",
   "theorems": [
    "Qos.Builder.build_v1_iff",
    "Qos.Builder.build_v2_iff",
    "Qos.Builder.build_error_iff",
    "Qos.Builder.build_last_wins",
    "Qos.Builder.setters"
   ],
   "note": ""
  },
  {
   "property": "C33",
   "status": "proved",
   "theorems": [
    "Qos.NChooseK.combinations_none",
    "Qos.NChooseK.combinations_exact",
    "Qos.NChooseK.choose_complete",
    "Qos.NChooseK.choose_lex",
    "Qos.NChooseK.capacity_ok",
    "Qos.NChooseK.combinations_overflow",
    "Qos.NChooseK.combinations_divides_by_zero"
   ],
   "note": "more than 20 elements panic in builds with overflow checks, and 66 or more chosen or left out panic in any build"
  },
  {
   "property": "C34",
   "status": "proved",
   "theorems": [
    "Qos.Reaper.run_shape",
    "Qos.Reaper.launch_only_when_ready",
    "Qos.Reaper.never_launched_twice",
    "Qos.Reaper.always_relaunched",
    "Qos.Reaper.never_aborts",
    "Qos.Reaper.launches_approved_pivot",
    "Qos.Reaper.ready_approved",
    "Qos.Reaper.setup_approved",
    "Qos.Reaper.launches_when_ready",
    "Qos.Reaper.provisioned_enclave_launches",
    "Qos.Reaper.high_port_never_launches",
    "Qos.Reaper.complete_runs"
   ],
   "note": "The reaper as a step machine over every schedule; run_shape gives the whole behaviour, launches_approved_pivot composes it with every enclave history"
  },
  {
   "property": "C35",
   "status": "proved",
   "theorems": [
    "Qos.Net.call_gets_own_response",
    "Qos.Net.streams_exclusive",
    "Qos.Net.late_response_run"
   ],
   "note": "Transition system of the pooled client, the connections and the socket server (Model/Net.lean); every interleaving, byte split, time-out, cancellation and I/O error. A call is processed at most once and a returned response is the one computed for that call. late_response_run is a concrete run with a cancelled call and a late response."
  },
  {
   "property": "C36",
   "status": "proved",
   "theorems": [
    "Qos.Net.serialised",
    "Qos.Net.connection_order",
    "Qos.Net.one_at_a_time",
    "Qos.Net.real_time_order",
    "Qos.Net.connections_bounded",
    "Qos.Net.permits_add_up",
    "Qos.Net.can_accept",
    "Qos.Net.can_answer",
    "Qos.Net.every_schedule_is_a_history"
   ],
   "note": "Every schedule is one sequential run, per-connection and real-time order respected; a listener serves at most max connections and loses no permit; for the enclave processor every schedule is a History of well-formed requests (so C06-C20 apply to concurrent clients). No fairness is claimed."
  },
  {
   "property": "C37",
   "status": "proved",
   "theorems": [
    "Qos.Pool.pool_addresses",
    "Qos.Pool.nth_unique",
    "Qos.Pool.expand_keeps",
    "Qos.Pool.listen_keeps"
   ],
   "note": ""
  },
  {
   "property": "C38",
   "status": "proved",
   "theorems": [
    "Qos.P256.public_fromBytes_iff",
    "Qos.P256.public_reencode",
    "Qos.P256.public_fromBytes_injective",
    "Qos.P256.public_of_pair",
    "Qos.P256.pair_seed",
    "Qos.P256.pair_scalars",
    "Qos.P256.pair_sign_verifies",
    "Qos.P256.aad_injective",
    "Qos.P256.kdf_injective",
    "Qos.P256.kdf_needs_fixed_length",
    "Qos.P256.aad_domain_separated",
    "Qos.P256.decrypt_encrypt",
    "Qos.P256.decrypt_only_envelopes",
    "Qos.P256.shared_secret_agrees",
    "Qos.P256.sym_decrypt_encrypt",
    "Qos.P256.hex_file_roundtrip",
    "Qos.P256.hex_file_accepts",
    "Qos.P256.encrypt_total",
    "Qos.P256.ciphertext_format",
    "Qos.P256.pair_exact",
    "Qos.P256.decrypt_exact",
    "Qos.P256.seed_file_exact",
    "Qos.P256.seed_file_unique",
    "Qos.P256.symmetric_encrypt_exact",
    "Qos.P256.symmetric_decrypt_exact"
   ],
   "note": ""
  },
  {
   "property": "C39",
   "status": "proved",
   "theorems": [
    "Qos.unique_members_iff",
    "Qos.unique_members_perm",
    "Qos.unique_members_error"
   ],
   "note": ""
  },
  {
   "property": "C40",
   "status": "proved",
   "theorems": [
    "Qos.Parser.accepts_iff",
    "Qos.Parser.reading_unique",
    "Qos.Parser.values_given_or_default",
    "Qos.Parser.help_version",
    "Qos.Parser.rejection_reason",
    "Qos.Parser.enclave_socket_options",
    "Qos.Parser.enclave_files",
    "Qos.Parser.options_program",
    "Qos.Parser.command_program",
    "Qos.Parser.default_does_not_satisfy_required",
    "Qos.Parser.unset_flag_reads_as_unregistered"
   ],
   "note": "All declarations and argument vectors, against an independent grammar of items. Two findings are theorems: a default does not satisfy required, and an unset flag reads as None rather than Some(false). Help texts are not modelled."
  },
  {
   "property": "C41",
   "status": "proved",
   "theorems": [
    "Qos.hashInput_injective",
    "Qos.hashInput_v2_separate",
    "Qos.hashInput_identifies",
    "Qos.hashInput_version_ambiguous"
   ],
   "note": "separation of V2 from the older versions is for namespace names below 1.6 GB (no message of that size is accepted)"
  },
  {
   "property": "C42",
   "status": "proved",
   "theorems": [
    "Qos.approved_boot_completes",
    "Qos.good_share_accepted",
    "Qos.enough_shares_provision"
   ],
   "note": ""
  },
  {
   "property": "C43",
   "status": "proved",
   "theorems": [
    "Qos.Client.lines_exact",
    "Qos.Client.set_exact",
    "Qos.Client.patch_set_exact",
    "Qos.Client.set_order_independent",
    "Qos.Client.readMembers_iff",
    "Qos.Client.findThreshold_iff",
    "Qos.Client.release_pcrs_exact",
    "Qos.Client.role_exact",
    "Qos.Client.pivot_hash_exact",
    "Qos.Client.nitro_exact",
    "Qos.Client.interview_exact",
    "Qos.Client.interview_declined",
    "Qos.Client.confirmed_not_declined",
    "Qos.Client.interview_confirmed",
    "Qos.Client.interview_yes",
    "Qos.Client.interview_refused",
    "Qos.Client.interview_iff"
   ],
   "note": "Exact in both directions against the readings of Spec/ClientFiles.lean. File names are Unicode text."
  },
  {
   "property": "C44",
   "status": "proved",
   "theorems": [
    "Qos.Client.approveChecks_iff",
    "Qos.Client.approve_safe",
    "Qos.Client.approval_name_flat",
    "Qos.Client.approve_complete",
    "Qos.Client.approve_refuses",
    "Qos.Client.approve_covers",
    "Qos.Client.env_not_reviewed",
    "Qos.Client.approve_exact"
   ],
   "note": "Safety, completeness and the exact coverage of the review. env_not_reviewed proves the gap: two manifests that differ in the pivot environment get the same review."
  },
  {
   "property": "C45",
   "status": "proved",
   "theorems": [
    "Qos.Client.generate_v1_exact",
    "Qos.Client.generate_v2_exact",
    "Qos.Client.generate_v1_written",
    "Qos.Client.generate_v2_written",
    "Qos.Client.generate_complete",
    "Qos.Client.toy_generated_v1"
   ],
   "note": "Exact in both directions; the written bytes read back as the manifest."
  },
  {
   "property": "C46",
   "status": "proved",
   "theorems": [
    "Qos.Client.proxyChecks_iff",
    "Qos.Client.proxy_safe",
    "Qos.Client.proxy_complete",
    "Qos.Client.proxy_exact"
   ],
   "note": "Without the unsafe flags; the certificate chain and COSE signature checks are abstract predicates as in C04."
  },
  {
   "property": "C47",
   "status": "proved",
   "theorems": [
    "Qos.Client.envelope_sound",
    "Qos.Client.envelope_complete",
    "Qos.Client.envelope_written",
    "Qos.Client.json_manifest_ok"
   ],
   "note": "Exact in both directions; envelope_written: the written file reads back."
  },
  {
   "property": "C48",
   "status": "proved",
   "theorems": [
    "Qos.Client.checkBootGenesis_ok",
    "Qos.Client.boot_genesis_safe",
    "Qos.Client.after_genesis_safe",
    "Qos.Client.after_genesis_complete",
    "Qos.Client.verify_genesis_exact",
    "Qos.Client.verify_after_ceremony"
   ],
   "note": "Against any behaviour of the host; composition with the enclave's ceremony theorem of C20 (Ceremony)."
  },
  {
   "property": "C49",
   "status": "proved",
   "theorems": [
    "Qos.Client.handle_read",
    "Qos.Client.post_exact",
    "Qos.Client.post_fits",
    "Qos.Client.fallback_exact",
    "Qos.Client.boot_request_exact"
   ],
   "note": "client composed with host and enclave models over one connection that does not fail"
  },
  {
   "property": "C50",
   "status": "proved",
   "theorems": [
    "Qos.Host.message_exact",
    "Qos.Host.health_exact",
    "Qos.Host.health_tells_phase",
    "Qos.Host.info_exact",
    "Qos.Host.info_installed",
    "Qos.Host.info_before_boot",
    "Qos.Host.info_fails_after_genesis",
    "Qos.Host.answers_exact",
    "Qos.Host.client_reaches",
    "Qos.Host.toy_routes"
   ],
   "note": "info_installed assumes the two answers fit into one 128 MiB frame and that the document decoder reads the device's document back. info_fails_after_genesis is a recorded finding (status 500 after genesis)."
  },
  {
   "property": "C51",
   "status": "proved",
   "theorems": [
    "Qos.Client.approvals_make_envelope",
    "Qos.Client.toy_deployment",
    "Qos.Client.boot_standard_safe",
    "Qos.Client.boot_standard_boots",
    "Qos.Client.get_attestation_doc_genuine",
    "Qos.Client.deployment_provisions",
    "Qos.Client.toy_provisioned"
   ],
   "note": "the document decoder and signature check are assumed to accept what the honest device signs (Vouched); one host, one connection that does not fail; toy_deployment and toy_provisioned are concrete runs meeting all hypotheses"
  },
  {
   "property": "C52",
   "status": "proved",
   "theorems": [
    "Qos.Client.generated_key_reads",
    "Qos.Client.sign_exact",
    "Qos.Client.verify_exact",
    "Qos.Client.signed_verifies",
    "Qos.Client.encrypt_exact",
    "Qos.Client.decrypt_exact",
    "Qos.Client.encrypted_decrypts",
    "Qos.Client.encrypt_succeeds",
    "Qos.Client.ephemeral_key_file",
    "Qos.Client.split_exact",
    "Qos.Client.split_reconstructs",
    "Qos.Client.display_reads_back",
    "Qos.Client.convert_v1_manifest",
    "Qos.Client.convert_v1_envelope",
    "Qos.Client.convert_v2_refused",
    "Qos.Client.convert_genesis_refused",
    "Qos.Client.convert_v0_changes_hash",
    "Qos.Client.convert_v0_envelope",
    "Qos.Client.fresh_key_signs"
   ],
   "note": "convert_v0_* record a finding: a V0 manifest is written as V1, so the copied approvals no longer sign it. Standard output is modelled for display --json only."
  },
  {
   "property": "C53",
   "status": "proved",
   "theorems": [
    "Qos.Client.dev_boot_provisions",
    "Qos.Client.dev_boot_success",
    "Qos.Client.dev_request_fits",
    "Qos.Client.toy_dev_boot"
   ],
   "note": "on a fresh enclave and one connection that does not fail; toy_dev_boot is a concrete run meeting all hypotheses"
  },
  {
   "property": "C54",
   "status": "proved",
   "theorems": [
    "Qos.Egress.frames_transparent",
    "Qos.Egress.all_transparent",
    "Qos.Egress.packets_preserved",
    "Qos.Egress.packets_drain",
    "Qos.Egress.tunnel_preserves_packets",
    "Qos.Egress.zero_length_hangs",
    "Qos.Egress.oversized_packet_stops",
    "Qos.Egress.jumbo_misframed"
   ],
   "note": "etherparse's lax IP slice is modelled from its documentation (not in the repo); tun writes take whole packets (steady); the last three theorems record findings"
  },
  {
   "property": "C55",
   "status": "proved",
   "theorems": [
    "Qos.Proxy.message_roundtrip",
    "Qos.Proxy.session_explained",
    "Qos.Proxy.dials_only_what_was_asked",
    "Qos.Proxy.queries_only_what_was_asked",
    "Qos.Proxy.answer_exact",
    "Qos.Proxy.pipe_lossless",
    "Qos.Proxy.one_resolver_per_configuration",
    "Qos.Proxy.sessions_bounded",
    "Qos.Proxy.can_accept",
    "Qos.Proxy.failed_accept_is_final",
    "Qos.Proxy.address_can_be_reached",
    "Qos.Proxy.name_can_be_reached",
    "Qos.Proxy.pipe_can_finish",
    "Qos.Proxy.toy_session",
    "Qos.Proxy.resolvers_kept",
    "Qos.Proxy.resolvers_counted",
    "Qos.Proxy.toy_resolver"
   ],
   "note": "address syntax, the resolver's answers and TCP are arbitrary (parameters or nondeterministic steps); the 10 s time-out can strike at any point"
  },
  {
   "property": "C56",
   "status": "proved",
   "theorems": [
    "Qos.HostCli.ipv4_exact",
    "Qos.HostCli.host_exact",
    "Qos.HostCli.bridge_exact",
    "Qos.HostCli.egress_exact",
    "Qos.HostCli.proxy_exact",
    "Qos.HostCli.vsock_proxy_has_one_socket"
   ],
   "note": "help and version texts are not modelled; the program name is assumed not to begin with two dashes"
  },
  {
   "property": "C57",
   "status": "proved",
   "theorems": [
    "Qos.Client.forwarding_provisions",
    "Qos.Client.boot_key_fwd_boots",
    "Qos.Client.export_key_exports",
    "Qos.Client.inject_key_exact",
    "Qos.Client.boot_key_fwd_safe",
    "Qos.Client.export_key_safe",
    "Qos.Client.inject_key_safe",
    "Qos.Client.key_file_exact",
    "Qos.Client.toy_forwarding"
   ],
   "note": "the devices' PKI is a parameter (the old enclave recognises the new device's documents); connections do not fail"
  },
  {
   "property": "C58",
   "status": "proved",
   "theorems": [
    "Qos.ClientCli.client_exact",
    "Qos.ClientCli.client_help",
    "Qos.ClientCli.help_only",
    "Qos.ClientCli.client_no_command",
    "Qos.ClientCli.client_runs",
    "Qos.ClientCli.approve_command_safe",
    "Qos.ClientCli.approve_command_complete",
    "Qos.ClientCli.proxy_command_safe",
    "Qos.ClientCli.boot_standard_command_safe",
    "Qos.ClientCli.boot_standard_command_boots",
    "Qos.ClientCli.contacts_only",
    "Qos.ClientCli.client_meets_host",
    "Qos.ClientCli.toy_boot_command",
    "Qos.ClientCli.toy_approve_command",
    "Qos.ClientCli.proxy_command_complete",
    "Qos.ClientCli.toy_proxy_command",
    "Qos.Host.route_exact"
   ],
   "note": "IpAddr parsing is a parameter; YubiKey commands stop (no smartcard feature); of printed text only results are modelled"
  },
  {
   "property": "C59",
   "status": "proved",
   "theorems": [
    "Qos.Bridge.bridges_exact",
    "Qos.Bridge.bridges_panic",
    "Qos.Bridge.bridges_panic_iff",
    "Qos.Bridge.listener_asked",
    "Qos.Bridge.override_one_port",
    "Qos.Bridge.host_bridge_exact",
    "Qos.Bridge.listener_reaches",
    "Qos.Bridge.port_reachable",
    "Qos.Bridge.turn_report",
    "Qos.Bridge.waits_without_manifest",
    "Qos.Bridge.bridges_approved",
    "Qos.Bridge.serve_first",
    "Qos.Bridge.serve_garbage",
    "Qos.Bridge.bridge_runs_installed",
    "Qos.Bridge.info_url_served",
    "Qos.Bridge.host_helper_starts",
    "Qos.Bridge.enclave_helper_starts",
    "Qos.Bridge.protocol_port_exposed"
   ],
   "note": "HTTP and binding of ports are outside the model; in the unrecoverable phase the host may still report a stored manifest"
  },
  {
   "property": "C60",
   "status": "proved",
   "theorems": [
    "Qos.Relay.nothing_invented",
    "Qos.Relay.everything_delivered",
    "Qos.Relay.app_sees_end",
    "Qos.Relay.client_sees_end",
    "Qos.Relay.can_complete",
    "Qos.Relay.truncated_end",
    "Qos.Relay.work_is_step",
    "Qos.Relay.work_ends",
    "Qos.Relay.settled_delivered",
    "Qos.Relay.left_alone"
   ],
   "note": "one connection at a time (connections share nothing); copy_bidirectional is modelled from its documentation"
  },
  {
   "property": "C61",
   "status": "proved",
   "theorems": [
    "Qos.Ip.parse_exact",
    "Qos.Ip.denotes_unique",
    "Qos.Ip.display_exact",
    "Qos.Ip.display_injective",
    "Qos.Ip.manifest_resolver",
    "Qos.Ip.manifest_resolvers",
    "Qos.Ip.resolv_conf_lines",
    "Qos.Ip.approved_resolvers_written",
    "Qos.Ip.proxy_dials_denoted"
   ],
   "note": "the address reader and writer are models of the standard library's, from its source"
  },
  {
   "property": "C62",
   "status": "proved",
   "theorems": [
    "Qos.Launcher.console_exact",
    "Qos.Launcher.framed_exists",
    "Qos.Launcher.message_unique",
    "Qos.Launcher.console_chunks_irrelevant",
    "Qos.Launcher.console_text",
    "Qos.Launcher.run_args_exact",
    "Qos.Launcher.starts_what_was_asked",
    "Qos.Launcher.ends_only_its_own",
    "Qos.Launcher.console_only_if_asked",
    "Qos.Launcher.signal_exits",
    "Qos.Launcher.starts",
    "Qos.Launcher.health_exact"
   ],
   "note": "nitro_cli is outside the model (its answers are arbitrary); signals before the program waits for them are not modelled"
  },
  {
   "property": "C63",
   "status": "proved",
   "theorems": [
    "Qos.Yubi.never_overwrites",
    "Qos.Yubi.using_changes_nothing",
    "Qos.Yubi.signature_verifies",
    "Qos.Yubi.signs_the_data",
    "Qos.Yubi.provision_writes_shown_key",
    "Qos.Yubi.import_checked",
    "Qos.Yubi.import_needs_secret",
    "Qos.Yubi.serial_exact"
   ],
   "note": "the card is an arbitrary machine; X.509 validity and names, and the PC/SC session, are not modelled"
  },
  {
   "property": "C64",
   "status": "proved",
   "theorems": [
    "Qos.Yubi.provision_works",
    "Qos.Yubi.provision_refuses",
    "Qos.Yubi.half_provisioned",
    "Qos.Yubi.key_without_certificate_lost",
    "Qos.Yubi.import_works",
    "Qos.Yubi.card_signs",
    "Qos.Yubi.card_shows",
    "Qos.Yubi.card_decrypts",
    "Qos.Yubi.wrong_pin",
    "Qos.Yubi.wrong_pin_signs_nothing",
    "Qos.Yubi.key_files_unchanged",
    "Qos.Yubi.card_replaces_key_file",
    "Qos.Yubi.approve_safe_card",
    "Qos.Yubi.proxy_safe_card",
    "Qos.Yubi.pin_file_exact",
    "Qos.Yubi.change_pin_exact",
    "Qos.Yubi.reset_exact",
    "Qos.Yubi.reset_reports_success_wrongly",
    "Qos.Yubi.toy_card",
    "Qos.Yubi.toy_card_proxy"
   ],
   "note": "the card's own behaviour is specified in Spec/Yubikey.lean (Card)"
  },
  {
   "property": "C65",
   "status": "proved",
   "theorems": [
    "Qos.ClientCli.writes_only",
    "Qos.ClientCli.writes_inside",
    "Qos.ClientCli.read_only_commands",
    "Qos.ClientCli.alias_escapes",
    "Qos.Yubi.writes_only"
   ],
   "note": "the hypotheses are met by toy_approve_command and alias_escapes the client with smartcard support"
  },
  {
   "property": "C66",
   "status": "proved",
   "theorems": [
    "Qos.ClientCli.success_exact",
    "Qos.ClientCli.no_yubikey_success"
   ],
   "note": "the meaning of success of each command is the table in Spec/ClientCommands.lean"
  },
  {
   "property": "C67",
   "status": "proved",
   "theorems": [
    "Qos.SignedEcho.answer_exact",
    "Qos.SignedEcho.status_exact",
    "Qos.SignedEcho.reads_unique",
    "Qos.SignedEcho.echo_text_unambiguous",
    "Qos.SignedEcho.getUrl_text_unambiguous",
    "Qos.SignedEcho.kinds_distinct",
    "Qos.SignedEcho.cli_exact",
    "Qos.SignedEcho.main_exact",
    "Qos.SignedEcho.enclave_answers",
    "Qos.SignedEcho.enclave_serves",
    "Qos.SignedEcho.refusal_blames",
    "Qos.SignedEcho.status_blamed",
    "Qos.SignedEcho.causes_distinct",
    "Qos.SockAddr.parse_exact",
    "Qos.SockAddr.denotes_unique"
   ],
   "note": "axum's routing and extractors and ureq are outside the model"
  },
  {
   "property": "C68",
   "status": "proved",
   "theorems": [
    "Qos.Init.reaper_started_iff",
    "Qos.Init.reaper_started",
    "Qos.Init.entropy_first",
    "Qos.Init.reboot_exact",
    "Qos.Init.pivot_exact",
    "Qos.Init.entropy_unchecked"
   ],
   "note": "the kernel's answers are outside the model and do not depend on earlier calls; failures of mounts, console and module load are only printed by the code"
  },
  {
   "property": "C69",
   "status": "proved",
   "theorems": [
    "Qos.NsmProvider.calls_exact",
    "Qos.NsmProvider.request_same",
    "Qos.NsmProvider.request_read",
    "Qos.NsmProvider.request_roundtrip",
    "Qos.NsmProvider.response_same",
    "Qos.NsmProvider.response_roundtrip",
    "Qos.NsmProvider.recorded_genuine",
    "Qos.NsmProvider.export_time_genuine"
   ],
   "note": "the driver crate is external (its answers are quantified over)"
  },
  {
   "property": "C70",
   "status": "proved",
   "theorems": [
    "Qos.Client.boot_genesis_complete",
    "Qos.Client.ceremony_held",
    "Qos.Client.ceremony_provisions",
    "Qos.Client.toy_ceremony_provisions"
   ],
   "note": "composition of the client (C48, C51) with the enclave (C20, C07); the toy theorem meets all hypotheses"
  },
  {
   "property": "C71",
   "status": "proved",
   "theorems": [
    "Qos.Yubi.pin_given",
    "Qos.Yubi.sign_command",
    "Qos.Yubi.sign_command_refuses",
    "Qos.Yubi.sign_command_wrong_pin",
    "Qos.Yubi.public_command",
    "Qos.Yubi.change_pin_command",
    "Qos.Yubi.provision_command",
    "Qos.Yubi.import_command",
    "Qos.Yubi.reset_command",
    "Qos.Yubi.toy_card_life"
   ],
   "note": "the card's behaviour is that of Card in Spec/Yubikey.lean; command lines are those of C58 (client_exact)"
  },
  {
   "property": "C72",
   "status": "proved",
   "theorems": [
    "Qos.EnclaveCli.seed_exact",
    "Qos.EnclaveCli.enclave_exact",
    "Qos.EnclaveCli.enclave_otherwise",
    "Qos.EnclaveCli.seeded_started",
    "Qos.EnclaveCli.release_seeds",
    "Qos.EnclaveCli.release_measured",
    "Qos.EnclaveCli.toy_seeded",
    "Qos.EnclaveCli.toy_hardware",
    "Qos.EnclaveCli.toy_idle",
    "Qos.EnclaveCli.toy_release",
    "Qos.EnclaveCli.readers_differ",
    "Qos.EnclaveCli.short_value_differs"
   ],
   "note": "printed text is not modelled; str::lines, trim, split_whitespace and integer parsing are transcribed from the standard library's documentation"
  },
  {
   "property": "C73",
   "status": "proved",
   "theorems": [
    "Qos.Format.manifest_v1_read",
    "Qos.Format.manifest_v0_read",
    "Qos.Format.manifest_v2_read",
    "Qos.Format.borsh_v1_read",
    "Qos.Format.borsh_v0_read",
    "Qos.Format.borsh_envelope_v1_read",
    "Qos.Format.borsh_envelope_v0_read",
    "Qos.Format.manifest_read",
    "Qos.Format.envelope_read",
    "Qos.Format.envelope_in_request",
    "Qos.Format.envelope_document",
    "Qos.Format.envelope_stored",
    "Qos.Format.manifest_stored",
    "Qos.Format.hashed_v2",
    "Qos.Format.hashed_v1",
    "Qos.Format.hashed_v0",
    "Qos.Format.legacy_manifest_read",
    "Qos.Format.legacy_envelope_read",
    "Qos.Format.sample_read",
    "Qos.Format.sample_written",
    "Qos.Format.nested_unknown_ignored"
   ],
   "note": "the derives of serde and Borsh are transcribed as combinators; integer variant indices, which serde_json never produces, are not modelled"
  },
  {
   "property": "C74",
   "status": "proved",
   "theorems": [
    "Qos.Format.message_document",
    "Qos.Format.message_written",
    "Qos.Format.message_read_json",
    "Qos.Format.message_read_borsh",
    "Qos.Format.message_refused",
    "Qos.Format.json_message_written",
    "Qos.Format.borsh_message_written",
    "Qos.Format.borsh_message_read",
    "Qos.Format.json_answered",
    "Qos.Format.borsh_answered",
    "Qos.Format.refused_answered",
    "Qos.Format.oversized_answered",
    "Qos.Format.json_text",
    "Qos.Format.genesis_hash"
   ],
   "note": "the derives of serde and Borsh are transcribed as combinators; integer variant indices, which serde_json never produces, are not modelled"
  },
  {
   "property": "C75",
   "status": "proved",
   "theorems": [
    "Qos.Format.env_borsh_read",
    "Qos.Format.env_parts_read",
    "Qos.Format.env_borsh_roundtrip",
    "Qos.Format.env_same_values",
    "Qos.Format.env_borsh_prefix_free",
    "Qos.Format.env_borsh_not_canonical"
   ],
   "note": "borsh 1.5.7 without de_strict_order; no message carries this form"
  },
  {
   "property": "C76",
   "status": "proved",
   "theorems": [
    "Qos.Secrecy.key_not_used",
    "Qos.Secrecy.answers_hide_key",
    "Qos.Secrecy.export_hides_key",
    "Qos.Secrecy.provisioned_hides_key",
    "Qos.Secrecy.shares_not_used",
    "Qos.Secrecy.earlier_shares_not_used"
   ],
   "note": "about the answers and the effects of the enclave, not about timing; ciphertexts are compared, their secrecy is the primitives'"
  },
  {
   "property": "C77",
   "status": "proved",
   "theorems": [
    "Qos.Reprint.printed_in_order",
    "Qos.Reprint.nothing_left",
    "Qos.Reprint.ended_complete",
    "Qos.Reprint.console_marks",
    "Qos.Reprint.last_words_lost"
   ],
   "note": "a read error other than invalid UTF-8 is not modelled"
  },
  {
   "property": "C78",
   "status": "proved",
   "theorems": [
    "Qos.JsonText.reads_exactly",
    "Qos.JsonText.refused_iff",
    "Qos.JsonText.text_denotes_one_value",
    "Qos.JsonText.nesting_bounded",
    "Qos.JsonText.written_read_iff",
    "Qos.JsonText.too_deep_refused",
    "Qos.JsonText.integer_read_iff",
    "Qos.JsonText.space_ignored"
   ],
   "note": "about the model of serde_json's reader; floats are kept as text, so one too large for an f64 is accepted here and refused by serde_json; serde_json is laxer inside members the typed reader ignores (see the trusted base)"
  },
  {
   "property": "C79",
   "status": "proved",
   "theorems": [
    "Qos.Client.prompt_determines",
    "Qos.Client.same_screen_same_manifest",
    "Qos.Client.same_screen_same_share",
    "Qos.Client.screen_texts",
    "Qos.Client.args_on_one_line",
    "Qos.Client.name_can_fake_a_prompt",
    "Qos.Client.alias_can_fake_an_approver"
   ],
   "note": "the Debug output of the standard library is modelled, with an arbitrary table of unprintable characters"
  },
  {
   "property": "C80",
   "status": "proved",
   "theorems": [
    "Qos.Standard.laws_hold",
    "Qos.Standard.round_trip",
    "Qos.Standard.signature_verifies",
    "Qos.Standard.secret_of_point",
    "Qos.Standard.public_key_determines_secrets",
    "Qos.Standard.valid_points",
    "Qos.Standard.every_point_has_a_secret",
    "Qos.Standard.exchange_never_degenerates",
    "Qos.Standard.decrypts_only_encryptions",
    "Qos.Standard.decrypts_iff_encrypted",
    "Qos.Standard.symmetric_decrypts_only_encryptions",
    "Qos.Standard.verify_iff",
    "Qos.Standard.signature_twin",
    "Qos.Standard.verify_twin"
   ],
   "note": "the algorithms are written from the standards and checked against the repository's vectors; RFC 6979's endless search for a nonce is cut after eight candidates; the crates themselves (constant time, parsing inside them) are not modelled"
  },
  {
   "property": "C81",
   "status": "proved",
   "theorems": [
    "Qos.Fleet.key_is_named",
    "Qos.Fleet.same_named_key_same_key",
    "Qos.Fleet.other_named_key_other_key",
    "Qos.Fleet.manifest_key_reaches_enclave",
    "Qos.Fleet.manifest_key_verifies"
   ],
   "note": "the symmetric (AES) secret is derived from the seed alone and is not determined by the public key, so nothing is claimed about it; Props/SameKeyRun.lean and SameKeyExample.lean boot and provision concrete enclaves with the standard algorithms"
  },
  {
   "property": "C82",
   "status": "proved",
   "theorems": [
    "Qos.Net.work_is_step",
    "Qos.Net.no_endless_work",
    "Qos.Net.works_to_settled",
    "Qos.Net.all_calls_return",
    "Qos.Net.call_fails_only_for_size",
    "Qos.Net.calls_answered",
    "Qos.Net.calls_answered_from",
    "Qos.Net.idle_connections_starve"
   ],
   "note": "no fairness is assumed: the statement is that every way of going on by itself ends, and how; concrete cases busy_run and starved_run in Props/NetStarve.lean"
  },
  {
   "property": "C83",
   "status": "proved",
   "theorems": [
    "Qos.Proxy.work_is_step",
    "Qos.Proxy.no_endless_work",
    "Qos.Proxy.comes_to_rest",
    "Qos.Proxy.settled_session",
    "Qos.Proxy.every_request_is_answered",
    "Qos.Proxy.everybody_is_served",
    "Qos.Proxy.silent_session",
    "Qos.Proxy.status_answered"
   ],
   "note": "no fairness is assumed: the statement is that every way of going on by itself ends, and how; silent_session and status_answered are concrete cases"
  },
  {
   "property": "C84",
   "status": "proved",
   "theorems": [
    "Qos.Tunnel.heals",
    "Qos.Tunnel.comes_to_rest",
    "Qos.Tunnel.no_endless_restarts",
    "Qos.Tunnel.works_stays",
    "Qos.Tunnel.never_half",
    "Qos.Tunnel.half_first",
    "Qos.Tunnel.rest_as_built",
    "Qos.Tunnel.one_way_for_ever",
    "Qos.Tunnel.waits_for_ever",
    "Qos.Tunnel.packet_helps",
    "Qos.Tunnel.packets_across_failures",
    "Qos.Tunnel.last_connection_complete",
    "Qos.Tunnel.toy_transfer",
    "Qos.Tunnel.up_run",
    "Qos.Tunnel.toy_one_way",
    "Qos.Tunnel.toy_lost"
   ],
   "note": "what a pump does with bytes is C54; that thread::scope waits for the other thread before a panic goes on is from its documentation; the last findings record the host images' panic mode"
  }
 ]
}