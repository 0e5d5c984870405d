C22 proved Qos.Hex: hex_decode_encode hex_decode_encode_prefixed hex_decode_encode_limit hex_decodeToBuf_encode hex_encode_injective hex_encode_shape hex_decode_accepts_iff hex_decode_not_injective hex_canonicalise |
C23 proved Qos.Stream: send_emits_frame_prefix send_oversized_refused send_completes recv_delivers_exactly recv_truncated_stream recv_oversized_refused send_recv_end_to_end recv_ok_complete |
C28 proved Qos.Json: canonical_defined_iff canonical_eq_iff canonical_order_invariant canonical_null_invariant canonical_array_null_kept canonical_form plain_roundtrip |
C31 proved Qos.Env: newName_iff newValue_iff env_always_well_formed env_failed_insert_unchanged env_insert_fails_iff env_insert_visible env_decode_iff env_collect_last |
C25 proved Qos.Borsh: borsh_wire_safe fits_quorumMember fits_namespace fits_quorumSet fits_approval fits_pivotConfigV0 borsh_envelope_decode_iff borsh_envelope_never_confused |
C27 proved Qos: storage_roundtrip storage_roundtrip_manifest plain_roundtrip storage_injective declared_version_never_downgraded declared_version_unknown_field_rejected declared_version_unknown_envelope_field_rejected wire_envelope_roundtrip wire_ok wire_reads_declared_v2_as_v1 | files: exact; on the wire (serde untagged) the no-downgrade part is refuted by wire_reads_declared_v2_as_v1
C41 proved Qos: hashInput_injective hashInput_v2_separate hashInput_identifies hashInput_version_ambiguous | separation of V2 from the older versions is for namespace names below 1.6 GB (no message of that size is accepted)
C05 proved Qos: check_approvals_exact check_approvals_sound check_approvals_complete check_approvals_distinct_signers check_approvals_ignores_share zero_threshold_needs_no_approval approval_verify_iff |
C38 proved Qos.P256: public_fromBytes_iff public_reencode public_fromBytes_injective public_of_pair pair_seed pair_scalars pair_sign_verifies aad_injective kdf_injective kdf_needs_fixed_length aad_domain_separated decrypt_encrypt decrypt_only_envelopes shared_secret_agrees sym_decrypt_encrypt hex_file_roundtrip hex_file_accepts encrypt_total ciphertext_format |
C38 proved Qos.P256: pair_exact decrypt_exact seed_file_exact seed_file_unique symmetric_encrypt_exact symmetric_decrypt_exact |
C39 proved Qos: unique_members_iff unique_members_perm unique_members_error |
C14 proved Qos.MockNsm: locked_forever register_is_fold extend_reports_value lock_bank never_panics initial_sized |
C29 proved Qos.Attest: verify_manifest_exact preimage_defined preimage_injective commitment_collision setup_live_not_interchangeable attested_key_unique goodDoc_matches |
C30 proved Qos.Attest: validate_exact validateDoc_cabundle fromDer_exact |
C01 proved Qos.Lifecycle: transition_exact status_reports_phase phase_determined phase_follows_graph phases_follow_graph phase_never_backwards no_invalid_transition |
C02 proved Qos.Lifecycle: final_phase_frozen final_phase_status attestation_keeps_device |
C03 proved Qos.Lifecycle: unserved_rejected served_accepted |
C04 proved Qos.Lifecycle: read_only_requests |
C06 proved Qos: stored_is_approved stored_exactly manifest_reported boot_is_permanent | every moment, including crash points and failed writes; the device, randomness and I/O outcomes are arbitrary
C07 proved Qos: rejected_boot no_files_without_commitment failed_boot_untouched |
C08 proved Qos: quorum_key_complete |
C09 proved Qos: quorum_key_written_once quorum_key_permanent put_existing_refused |
C10 proved Qos: provisioned_by_threshold |
C12 proved Qos: bank_locked_first device_holds_commitments |
C13 proved Qos: attested_key attestation_verifies | with the repository's NSM model as the device
C13 proved Qos.Lifecycle: boot_document |
C15 proved Qos: export_exact export_needs_old_quorum |
C16 proved Qos: forwarding_never_downgrades |
C17 proved Qos: inject_exact waiting_has_setup_key no_quorum_before |
C18 proved Qos: forwarding_lossless | under the stated laws of the cryptographic primitives
C20 proved Qos.Shamir: generate_iff field_is_aes shares_shape threshold_shares_reconstruct | of the documented scheme of the external crate vsss_rs, whose source is not in the repository
C21 proved Qos.Shamir: below_threshold_reveals_nothing one_explanation_per_secret | same remark
C42 proved Qos: approved_boot_completes good_share_accepted enough_shares_provision |
C11 proved Qos: one_member_can_provision | the natural expectation is refuted by a concrete history; the guarantee that does hold is C10
C19 proved Qos: genesis_iff genesis_recovers genesis_attested genesis_hash_binds genesis_shares_provision | under the stated laws of the cryptographic primitives and the documented scheme of vsss_rs
C33 proved Qos.NChooseK: combinations_none combinations_exact choose_complete choose_lex capacity_ok combinations_overflow combinations_divides_by_zero | more than 20 elements panic in builds with overflow checks, and 66 or more chosen or left out panic in any build
C37 proved Qos.Pool: pool_addresses nth_unique expand_keeps listen_keeps |
C32 proved Qos.Builder: build_v1_iff build_v2_iff build_error_iff build_last_wins setters |
C24 proved Qos.Wire: process_total process_oversized process_undecodable fromWire_cases process_json process_borsh handle_answers call_roundtrip encodings_overlap_above_limit decoded_well_formed wire_kind json_accepts | Every input answered (no panic), errors in JSON leave the state alone, the answer has the encoding of the request, and a client reads back exactly the enclave's response. The size limit is necessary for the two encodings to be disjoint.
C26 proved Qos.Wire: borsh_accepts genesis_has_no_borsh v2_has_no_borsh jsonEnvelope_roundtrip borsh_envelope_requests_unreadable | Also a finding: the Borsh forms of BootStandardRequest, BootKeyForwardRequest and ExportKeyRequest can be written but never read.
C34 proved Qos.Reaper: run_shape launch_only_when_ready never_launched_twice always_relaunched never_aborts launches_approved_pivot ready_approved setup_approved launches_when_ready provisioned_enclave_launches high_port_never_launches complete_runs | The reaper as a step machine over every schedule; run_shape gives the whole behaviour, launches_approved_pivot composes it with every enclave history
C35 proved Qos.Net: call_gets_own_response streams_exclusive late_response_run | Transition system of the pooled client, the connections and the socket server (Model/Net.lean); every interleaving, byte split, time-out, cancellation and I/O error. A call is processed at most once and a returned response is the one computed for that call. late_response_run is a concrete run with a cancelled call and a late response.
C36 proved Qos.Net: serialised connection_order one_at_a_time real_time_order connections_bounded permits_add_up can_accept can_answer every_schedule_is_a_history | Every schedule is one sequential run, per-connection and real-time order respected; a listener serves at most max connections and loses no permit; for the enclave processor every schedule is a History of well-formed requests (so C06-C20 apply to concurrent clients). No fairness is claimed.
C40 proved Qos.Parser: accepts_iff reading_unique values_given_or_default help_version rejection_reason enclave_socket_options enclave_files options_program command_program default_does_not_satisfy_required unset_flag_reads_as_unregistered | All declarations and argument vectors, against an independent grammar of items. Two findings are theorems: a default does not satisfy required, and an unset flag reads as None rather than Some(false). Help texts are not modelled.
C43 proved Qos.Client: lines_exact set_exact patch_set_exact set_order_independent readMembers_iff findThreshold_iff release_pcrs_exact role_exact pivot_hash_exact nitro_exact interview_exact interview_declined confirmed_not_declined interview_confirmed interview_yes interview_refused interview_iff | Exact in both directions against the readings of Spec/ClientFiles.lean. File names are Unicode text.
C44 proved Qos.Client: approveChecks_iff approve_safe approval_name_flat approve_complete approve_refuses approve_covers env_not_reviewed approve_exact | Safety, completeness and the exact coverage of the review. env_not_reviewed proves the gap: two manifests that differ in the pivot environment get the same review.
C45 proved Qos.Client: generate_v1_exact generate_v2_exact generate_v1_written generate_v2_written generate_complete toy_generated_v1 | Exact in both directions; the written bytes read back as the manifest.
C46 proved Qos.Client: proxyChecks_iff proxy_safe proxy_complete proxy_exact | Without the unsafe flags; the certificate chain and COSE signature checks are abstract predicates as in C04.
C47 proved Qos.Client: envelope_sound envelope_complete envelope_written json_manifest_ok | Exact in both directions; envelope_written: the written file reads back.
C48 proved Qos.Client: checkBootGenesis_ok boot_genesis_safe after_genesis_safe after_genesis_complete verify_genesis_exact verify_after_ceremony | Against any behaviour of the host; composition with the enclave's ceremony theorem of C20 (Ceremony).
C50 proved Qos.Host: message_exact health_exact health_tells_phase info_exact info_installed info_before_boot info_fails_after_genesis answers_exact client_reaches toy_routes | info_installed assumes the two answers fit into one 128 MiB frame and that the document decoder reads the device's document back. info_fails_after_genesis is a recorded finding (status 500 after genesis).
C49 proved Qos.Client: handle_read post_exact post_fits fallback_exact boot_request_exact | client composed with host and enclave models over one connection that does not fail
C51 proved Qos.Client: approvals_make_envelope toy_deployment boot_standard_safe boot_standard_boots get_attestation_doc_genuine deployment_provisions toy_provisioned | the document decoder and signature check are assumed to accept what the honest device signs (Vouched); one host, one connection that does not fail; toy_deployment and toy_provisioned are concrete runs meeting all hypotheses
C52 proved Qos.Client: generated_key_reads sign_exact verify_exact signed_verifies encrypt_exact decrypt_exact encrypted_decrypts encrypt_succeeds ephemeral_key_file split_exact split_reconstructs display_reads_back convert_v1_manifest convert_v1_envelope convert_v2_refused convert_genesis_refused convert_v0_changes_hash convert_v0_envelope fresh_key_signs | convert_v0_* record a finding: a V0 manifest is written as V1, so the copied approvals no longer sign it. Standard output is modelled for display --json only.
C53 proved Qos.Client: dev_boot_provisions dev_boot_success dev_request_fits toy_dev_boot | on a fresh enclave and one connection that does not fail; toy_dev_boot is a concrete run meeting all hypotheses
C54 proved Qos.Egress: frames_transparent all_transparent packets_preserved packets_drain tunnel_preserves_packets zero_length_hangs oversized_packet_stops jumbo_misframed | etherparse's lax IP slice is modelled from its documentation (not in the repo); tun writes take whole packets (steady); the last three theorems record findings
C55 proved Qos.Proxy: message_roundtrip session_explained dials_only_what_was_asked queries_only_what_was_asked answer_exact pipe_lossless one_resolver_per_configuration sessions_bounded can_accept failed_accept_is_final address_can_be_reached name_can_be_reached pipe_can_finish toy_session resolvers_kept resolvers_counted toy_resolver | address syntax, the resolver's answers and TCP are arbitrary (parameters or nondeterministic steps); the 10 s time-out can strike at any point
C56 proved Qos.HostCli: ipv4_exact host_exact bridge_exact egress_exact proxy_exact vsock_proxy_has_one_socket | help and version texts are not modelled; the program name is assumed not to begin with two dashes
C57 proved Qos.Client: forwarding_provisions boot_key_fwd_boots export_key_exports inject_key_exact boot_key_fwd_safe export_key_safe inject_key_safe key_file_exact toy_forwarding | the devices' PKI is a parameter (the old enclave recognises the new device's documents); connections do not fail
C58 proved Qos.ClientCli: client_exact client_help help_only client_no_command client_runs approve_command_safe approve_command_complete proxy_command_safe boot_standard_command_safe boot_standard_command_boots contacts_only client_meets_host toy_boot_command toy_approve_command proxy_command_complete toy_proxy_command | IpAddr parsing is a parameter; YubiKey commands stop (no smartcard feature); of printed text only results are modelled
C58 proved Qos.Host: route_exact |
C59 proved Qos.Bridge: bridges_exact bridges_panic bridges_panic_iff listener_asked override_one_port host_bridge_exact listener_reaches port_reachable turn_report waits_without_manifest bridges_approved serve_first serve_garbage bridge_runs_installed info_url_served host_helper_starts enclave_helper_starts protocol_port_exposed | HTTP and binding of ports are outside the model; in the unrecoverable phase the host may still report a stored manifest
C60 proved Qos.Relay: nothing_invented everything_delivered app_sees_end client_sees_end can_complete truncated_end work_is_step work_ends settled_delivered left_alone | one connection at a time (connections share nothing); copy_bidirectional is modelled from its documentation
C61 proved Qos.Ip: parse_exact denotes_unique display_exact display_injective manifest_resolver manifest_resolvers resolv_conf_lines approved_resolvers_written proxy_dials_denoted | the address reader and writer are models of the standard library's, from its source
C62 proved Qos.Launcher: console_exact framed_exists message_unique console_chunks_irrelevant console_text run_args_exact starts_what_was_asked ends_only_its_own console_only_if_asked signal_exits starts health_exact | nitro_cli is outside the model (its answers are arbitrary); signals before the program waits for them are not modelled
C63 proved Qos.Yubi: never_overwrites using_changes_nothing signature_verifies signs_the_data provision_writes_shown_key import_checked import_needs_secret serial_exact | the card is an arbitrary machine; X.509 validity and names, and the PC/SC session, are not modelled
C64 proved Qos.Yubi: provision_works provision_refuses half_provisioned key_without_certificate_lost import_works card_signs card_shows card_decrypts wrong_pin wrong_pin_signs_nothing key_files_unchanged card_replaces_key_file approve_safe_card proxy_safe_card pin_file_exact change_pin_exact reset_exact reset_reports_success_wrongly toy_card toy_card_proxy | the card's own behaviour is specified in Spec/Yubikey.lean (Card)
C65 proved Qos.ClientCli: writes_only writes_inside read_only_commands alias_escapes | the hypotheses are met by toy_approve_command and alias_escapes
C65 proved Qos.Yubi: writes_only | the client with smartcard support
C66 proved Qos.ClientCli: success_exact no_yubikey_success | the meaning of success of each command is the table in Spec/ClientCommands.lean
C67 proved Qos.SignedEcho: answer_exact status_exact reads_unique echo_text_unambiguous getUrl_text_unambiguous kinds_distinct cli_exact main_exact enclave_answers enclave_serves refusal_blames status_blamed causes_distinct | axum's routing and extractors and ureq are outside the model
C67 proved Qos.SockAddr: parse_exact denotes_unique |
C68 proved Qos.Init: reaper_started_iff reaper_started entropy_first reboot_exact pivot_exact entropy_unchecked | the kernel's answers are outside the model and do not depend on earlier calls; failures of mounts, console and module load are only printed by the code
C69 proved Qos.NsmProvider: calls_exact request_same request_read request_roundtrip response_same response_roundtrip recorded_genuine export_time_genuine | the driver crate is external (its answers are quantified over)
C70 proved Qos.Client: boot_genesis_complete ceremony_held ceremony_provisions toy_ceremony_provisions | composition of the client (C48, C51) with the enclave (C20, C07); the toy theorem meets all hypotheses
C71 proved Qos.Yubi: pin_given sign_command sign_command_refuses sign_command_wrong_pin public_command change_pin_command provision_command import_command reset_command toy_card_life | the card's behaviour is that of Card in Spec/Yubikey.lean; command lines are those of C58 (client_exact)
C72 proved Qos.EnclaveCli: seed_exact enclave_exact enclave_otherwise seeded_started release_seeds release_measured toy_seeded toy_hardware toy_idle toy_release readers_differ short_value_differs | printed text is not modelled; str::lines, trim, split_whitespace and integer parsing are transcribed from the standard library's documentation
C73 proved Qos.Format: manifest_v1_read manifest_v0_read manifest_v2_read borsh_v1_read borsh_v0_read borsh_envelope_v1_read borsh_envelope_v0_read manifest_read envelope_read envelope_in_request envelope_document envelope_stored manifest_stored hashed_v2 hashed_v1 hashed_v0 legacy_manifest_read legacy_envelope_read sample_read sample_written nested_unknown_ignored | the derives of serde and Borsh are transcribed as combinators; integer variant indices, which serde_json never produces, are not modelled
C74 proved Qos.Format: message_document message_written message_read_json message_read_borsh message_refused json_message_written borsh_message_written borsh_message_read json_answered borsh_answered refused_answered oversized_answered json_text genesis_hash | the derives of serde and Borsh are transcribed as combinators; integer variant indices, which serde_json never produces, are not modelled
C75 proved Qos.Format: env_borsh_read env_parts_read env_borsh_roundtrip env_same_values env_borsh_prefix_free env_borsh_not_canonical | borsh 1.5.7 without de_strict_order; no message carries this form
C76 proved Qos.Secrecy: key_not_used answers_hide_key export_hides_key provisioned_hides_key shares_not_used earlier_shares_not_used | about the answers and the effects of the enclave, not about timing; ciphertexts are compared, their secrecy is the primitives'
C77 proved Qos.Reprint: printed_in_order nothing_left ended_complete console_marks last_words_lost | a read error other than invalid UTF-8 is not modelled
C78 proved Qos.JsonText: reads_exactly refused_iff text_denotes_one_value nesting_bounded written_read_iff too_deep_refused integer_read_iff space_ignored | about the model of serde_json's reader; floats are kept as text, so one too large for an f64 is accepted here and refused by serde_json; serde_json is laxer inside members the typed reader ignores (see the trusted base)
C79 proved Qos.Client: prompt_determines same_screen_same_manifest same_screen_same_share screen_texts args_on_one_line name_can_fake_a_prompt alias_can_fake_an_approver | the Debug output of the standard library is modelled, with an arbitrary table of unprintable characters
C80 proved Qos.Standard: laws_hold round_trip signature_verifies secret_of_point public_key_determines_secrets valid_points every_point_has_a_secret exchange_never_degenerates decrypts_only_encryptions decrypts_iff_encrypted symmetric_decrypts_only_encryptions verify_iff signature_twin verify_twin | the algorithms are written from the standards and checked against the repository's vectors; RFC 6979's endless search for a nonce is cut after eight candidates; the crates themselves (constant time, parsing inside them) are not modelled
C81 proved Qos.Fleet: key_is_named same_named_key_same_key other_named_key_other_key manifest_key_reaches_enclave manifest_key_verifies | the symmetric (AES) secret is derived from the seed alone and is not determined by the public key, so nothing is claimed about it; Props/SameKeyRun.lean and SameKeyExample.lean boot and provision concrete enclaves with the standard algorithms
C82 proved Qos.Net: work_is_step no_endless_work works_to_settled all_calls_return call_fails_only_for_size calls_answered calls_answered_from idle_connections_starve | no fairness is assumed: the statement is that every way of going on by itself ends, and how; concrete cases busy_run and starved_run in Props/NetStarve.lean
C83 proved Qos.Proxy: work_is_step no_endless_work comes_to_rest settled_session every_request_is_answered everybody_is_served silent_session status_answered | no fairness is assumed: the statement is that every way of going on by itself ends, and how; silent_session and status_answered are concrete cases
C84 proved Qos.Tunnel: heals comes_to_rest no_endless_restarts works_stays never_half half_first rest_as_built one_way_for_ever waits_for_ever packet_helps packets_across_failures last_connection_complete toy_transfer up_run toy_one_way toy_lost | what a pump does with bytes is C54; that thread::scope waits for the other thread before a panic goes on is from its documentation; the last findings record the host images' panic mode
