{
 "claims": [
  {
   "property": "C01",
   "status": "proved",
   "theorems": [
    "Verif.Props.C01_first_contact"
   ],
   "note": "End to end through the API model: build, encrypt, parse, decrypt; chains and roots match."
  },
  {
   "property": "C02",
   "status": "proved",
   "theorems": [
    "Verif.Props.C02_conversation",
    "Verif.Props.C02_spec_accepts"
   ],
   "note": "Refinement to an abstract machine for every finite schedule. Hypotheses: distinct fresh ratchet keys, fewer than 2^32-1 events, and that a message of a forgotten epoch does not authenticate under an unrelated key (cryptographic assumption, explicit)."
  },
  {
   "property": "C03",
   "status": "proved",
   "theorems": [
    "Verif.Props.C03_window_accepts",
    "Verif.Props.C03_window_refuses"
   ],
   "note": "Both directions: accepted up to 2000 ahead, refused beyond with nothing written."
  },
  {
   "property": "C04",
   "status": "partial",
   "theorems": [
    "Verif.Props.C04_key_reuse_after_replay",
    "Verif.Props.C04_no_send_key_reuse_partial"
   ],
   "note": "False of the code: replay after promotion of an archived session rolls the sending chain back (witness proved). Proved: no reuse in any history, with crashes and write failures, in which messages are decrypted by the current session."
  },
  {
   "property": "C05",
   "status": "proved",
   "theorems": [
    "Verif.Props.C05_failed_decrypt_keeps_sessions"
   ],
   "note": "Every path, every store, every write failure."
  },
  {
   "property": "C06",
   "status": "partial",
   "theorems": [
    "Verif.Props.C06_replay_accepted_after_promotion",
    "Verif.Props.C06_at_most_once_partial"
   ],
   "note": "False of the code: a message is accepted again after its archived session was promoted (witness proved). Proved: an accepted message is refused as long as no archived session is promoted."
  },
  {
   "property": "C07",
   "status": "proved",
   "theorems": [
    "Verif.Props.C07_bounded_state"
   ],
   "note": "All histories with crashes and failing writes. The number of skipped message keys per chain is not bounded by the code and not claimed."
  },
  {
   "property": "C08",
   "status": "proved",
   "theorems": [
    "Verif.Props.C08_skipped_keys_exact"
   ],
   "note": "Stored keys are exactly the skipped, not yet used ones, for every order of messages."
  },
  {
   "property": "C09",
   "status": "proved",
   "theorems": [
    "Verif.Props.C09_plaintext_authenticated",
    "Verif.Props.C09_prekey_plaintext_authenticated"
   ],
   "note": "Inversion of the accepting path for both message types."
  },
  {
   "property": "C10",
   "status": "proved",
   "theorems": [
    "Verif.Props.C10_sessions_independent"
   ],
   "note": "All histories; session file names proved injective."
  },
  {
   "property": "C11",
   "status": "proved",
   "theorems": [
    "Verif.Props.C11_delete_all"
   ],
   "note": "All stores, any listing."
  },
  {
   "property": "C12",
   "status": "partial",
   "theorems": [
    "Verif.Props.C12_lists_other_recipients",
    "Verif.Props.C12_listing_partial"
   ],
   "note": "False of the code: devices of other recipients are listed (witness). Proved: every device with a session is listed."
  },
  {
   "property": "C13",
   "status": "partial",
   "theorems": [
    "Verif.Props.C13_unreadable_is_replaced",
    "Verif.Props.C13_load_partial"
   ],
   "note": "False of the code: an unreadable session file gives a fresh record. Proved: exact outcome for every file content."
  },
  {
   "property": "C14",
   "status": "proved",
   "theorems": [
    "Verif.Props.C14_trust_on_first_use"
   ],
   "note": "All histories."
  },
  {
   "property": "C15",
   "status": "partial",
   "theorems": [
    "Verif.Props.C15_failed_message_pins_identity",
    "Verif.Props.C15_identity_partial"
   ],
   "note": "False of the code: a message failing authentication still pins its identity key (witness). Proved: identity is only written for a trusted key, and exactly when."
  },
  {
   "property": "C16",
   "status": "partial",
   "theorems": [
    "Verif.Props.C16_wrong_prekey_removed",
    "Verif.Props.C16_prekey_once_partial"
   ],
   "note": "False of the code: an old message in a new envelope removes an unrelated prekey (witness). Proved: the prekey of an accepted first message is removed, the last-resort key never."
  },
  {
   "property": "C17",
   "status": "partial",
   "theorems": [
    "Verif.Props.C17_prekey_zero_unusable",
    "Verif.Props.C17_signed_prekey_zero_unusable",
    "Verif.Props.C17_published_prekey_usable_partial"
   ],
   "note": "False of the code for ids 0 (two witnesses). Proved for all nonzero ids."
  },
  {
   "property": "C18",
   "status": "partial",
   "theorems": [
    "Verif.Props.C18_crash_loses_first_message",
    "Verif.Props.C18_crash_after_store_loses_message",
    "Verif.Props.C18_crash_atomic_partial"
   ],
   "note": "False of the code at two crash points (witnesses). Proved for the others."
  },
  {
   "property": "C19",
   "status": "proved",
   "theorems": [
    "Verif.Props.C19_bad_signature_no_effect",
    "Verif.Props.C19_success_was_signed"
   ],
   "note": "Both directions."
  },
  {
   "property": "C20",
   "status": "proved",
   "theorems": [
    "Verif.Props.C20_repeated_prekey_message"
   ],
   "note": "All stores holding a session for the base key."
  },
  {
   "property": "C21",
   "status": "proved",
   "theorems": [
    "Verif.Props.C21_calls_serialise",
    "Verif.Props.C21_no_deadlock",
    "Verif.Props.C21_concurrent_encryptions_distinct"
   ],
   "note": "Threads interleaved at every file access; the three locked cipher calls. Store and results equal a sequential execution whose order extends over time; no deadlock; concurrent encryptions never share a header. A single file access is atomic in the model."
  },
  {
   "property": "C22",
   "status": "partial",
   "theorems": [
    "Verif.Props.C22_concurrent_build_loses_encryption",
    "Verif.Props.C22_concurrent_encryption_loses_build",
    "Verif.Props.C22_builds_of_other_peers_partial"
   ],
   "note": "False of the code: BuildSenderSession takes no lock; two witnesses (lost encryption, lost build). Proved: with no other call for the same peer, any interleaving of builds and cipher calls is equivalent to a sequential one."
  },
  {
   "property": "C23",
   "status": "proved",
   "theorems": [
    "Verif.Props.C23_whisper_round_trip",
    "Verif.Props.C23_whisper_layout",
    "Verif.Props.C23_whisper_injective"
   ],
   "note": "Proved for all inputs; also exact byte layout and injectivity."
  },
  {
   "property": "C24",
   "status": "proved",
   "theorems": [
    "Verif.Props.C24_prekey_round_trip"
   ],
   "note": "Proved for all ids with nonzero signed prekey id."
  },
  {
   "property": "C25",
   "status": "partial",
   "theorems": [
    "Verif.Props.C25_parsers_can_panic",
    "Verif.Props.C25_whisper_parser_total_partial",
    "Verif.Props.C25_prekey_parser_total_partial"
   ],
   "note": "False of the code: panics on empty prekey message and on key fields of wrong length (witness proved). Proved: all other inputs are total."
  },
  {
   "property": "C26",
   "status": "proved",
   "theorems": [
    "Verif.Props.C26_record_round_trip",
    "Verif.Props.C26_injective",
    "Verif.Props.C26_restart",
    "Verif.Props.C26_parsed_regId"
   ],
   "note": "Byte-level encoder/decoder of session records (nested proto3, zero fields omitted, negative ids sign-extended). Round trip for all records with 32-bit numbers; every record reachable by any history of calls is such a record, and survives being written (encrypted or not) and read after a restart. Lengths below 2^64 assumed."
  },
  {
   "property": "C27",
   "status": "proved",
   "theorems": [
    "Verif.Props.C27_symmetric_round_trip"
   ],
   "note": "All AES key sizes, IVs and lengths."
  },
  {
   "property": "C28",
   "status": "partial",
   "theorems": [
    "Verif.Props.C28_decrypt_can_panic",
    "Verif.Props.C28_decrypt_outcomes_partial"
   ],
   "note": "False of the code: empty input and some single-block inputs panic. Proved: exact characterisation of all outcomes."
  },
  {
   "property": "C29",
   "status": "proved",
   "theorems": [
    "Verif.Props.C29_padding_round_trip",
    "Verif.Props.C29_padding_hides_length"
   ],
   "note": "All messages."
  },
  {
   "property": "C30",
   "status": "proved",
   "theorems": [
    "Verif.Props.C30_store_round_trip",
    "Verif.Props.C30_store_round_trip_password",
    "Verif.Props.C30_read_implies_mac",
    "Verif.Props.C30_bad_mac_refused"
   ],
   "note": "Round trip, read implies valid MAC, wrong MAC refused."
  },
  {
   "property": "C31",
   "status": "partial",
   "theorems": [
    "Verif.Props.C31_truncated_file_panics",
    "Verif.Props.C31_truncated_file_refused_partial"
   ],
   "note": "False of the code: truncation below 32 bytes panics (proved for every file). Proved: other truncations are refused unless the MAC collides."
  },
  {
   "property": "C32",
   "status": "proved",
   "theorems": [
    "Verif.Props.C32_attachment_round_trip",
    "Verif.Props.C32_attachment_accepted_implies_mac",
    "Verif.Props.C32_altered_attachment_refused",
    "Verif.Props.C32_attachments_all_or_nothing",
    "Verif.Props.C32_profile_avatar_never_accepted"
   ],
   "note": "Round trip, integrity, all-or-nothing. Also proved: profile avatars are never accepted."
  },
  {
   "property": "C33",
   "status": "proved",
   "theorems": [
    "Verif.Props.C33_provisioning_round_trip"
   ],
   "note": "Opened by a separate specification of the new device."
  },
  {
   "property": "C34",
   "status": "partial",
   "theorems": [
    "Verif.Props.C34_unauthenticated_bytes_processed",
    "Verif.Props.C34_transport_outcomes_partial",
    "Verif.Props.C34_transport_round_trip"
   ],
   "note": "False of the code: unauthenticated bytes are handed on (proved for every such input). Proved: the exact two outcomes and the authenticated round trip."
  },
  {
   "property": "C35",
   "status": "partial",
   "theorems": [
    "Verif.Props.Sign.C35_verifies",
    "Verif.Props.Sign.C35_reusable_partial",
    "Verif.Props.Sign.C35_signature_clobbered",
    "Verif.Props.Sign.C35_second_verification_fails"
   ],
   "note": "The curve arithmetic and ed25519.Verify are parameters with stated laws (group, encoding, Montgomery/Edwards correspondence). Verification masks the caller's signature in place: for half the keys a second verification of the same array is rejected (C35_signature_clobbered, C35_second_verification_fails)."
  },
  {
   "property": "C36",
   "status": "partial",
   "theorems": [
    "Verif.Props.Fingerprint.C36_same_outcome",
    "Verif.Props.Fingerprint.C36_same_number_partial",
    "Verif.Props.Fingerprint.C36_equal_users_crash"
   ],
   "note": "Both sides always get the same outcome; it is a number exactly when some group differs. For users whose six groups coincide (e.g. comparing with oneself) both sides crash (C36_equal_users_crash)."
  },
  {
   "property": "C37",
   "status": "proved",
   "theorems": [
    "Verif.Props.Fingerprint.C37_format",
    "Verif.Props.Fingerprint.C37_key_order",
    "Verif.Props.Fingerprint.C37_commits",
    "Verif.Props.Fingerprint.C37_sort_algorithm_irrelevant"
   ],
   "note": "SHA-512 is a parameter of output length 64. Go sorts the caller's slice in place (not modelled); C37_sort_algorithm_irrelevant shows the choice of sorting algorithm is unobservable."
  },
  {
   "property": "C38",
   "status": "proved",
   "theorems": [
    "Verif.Props.Fingerprint.C38_round_trip",
    "Verif.Props.Fingerprint.C38_scan_created",
    "Verif.Props.Fingerprint.C38_match_iff",
    "Verif.Props.Fingerprint.C38_injective"
   ],
   "note": "The repository has no comparison function; the comparison is the spec-level predicate Matches on the scanned message."
  },
  {
   "property": "C39",
   "status": "proved",
   "theorems": [
    "Verif.Props.PreKeys.C39_id_recovered",
    "Verif.Props.PreKeys.C39_which_names",
    "Verif.Props.PreKeys.C39_names_distinct",
    "Verif.Props.PreKeys.C39_name_order",
    "Verif.Props.PreKeys.C39_load_after_stores",
    "Verif.Props.PreKeys.C39_remove",
    "Verif.Props.PreKeys.C39_listing",
    "Verif.Props.PreKeys.C39_order_needs_bound",
    "Verif.Props.PreKeys.C39_generated_ids_in_range"
   ],
   "note": "File name layer and directory listing; file writes atomic. Which names are read as which id, for files of any origin: `C39_which_names`."
  },
  {
   "property": "C40",
   "status": "partial",
   "theorems": [
    "Verif.Props.PreKeys.C40_published_state_partial",
    "Verif.Props.PreKeys.C40_wrong_last_resort"
   ],
   "note": "Holds when the batch stays below the reserved id; for start ids within 100 of 0xFFFFFF the last-resort key is overwritten or another key is published in its place (C40_wrong_last_resort)."
  },
  {
   "property": "C41",
   "status": "proved",
   "theorems": [
    "Verif.Props.Encoding.C41_key_round_trip",
    "Verif.Props.Encoding.C41_signature_round_trip",
    "Verif.Props.Encoding.C41_key_refusal",
    "Verif.Props.Encoding.C41_key_wrong_shape",
    "Verif.Props.Encoding.C41_signature_refusal",
    "Verif.Props.Encoding.C41_alphabet",
    "Verif.Props.Encoding.C41_decoding_never_panics",
    "Verif.Props.Encoding.C41_injective"
   ],
   "note": "encoding/base64 is modelled (line breaks ignored, non-strict trailing bits)."
  },
  {
   "property": "C42",
   "status": "proved",
   "theorems": [
    "Verif.Props.Encoding.C42_uuid_reversible",
    "Verif.Props.Encoding.C42_uuid_injective",
    "Verif.Props.Encoding.C42_uuid_forms_agree",
    "Verif.Props.Encoding.C42_hex_injective",
    "Verif.Props.Encoding.C42_hexToUUID_injective"
   ],
   "note": "Reading back is a separate spec function."
  },
  {
   "property": "C43",
   "status": "proved",
   "theorems": [
    "Verif.Props.Receive.C43_acked_in_order",
    "Verif.Props.Receive.C43_wire_order",
    "Verif.Props.Receive.C43_all_written"
   ],
   "note": "Under the hypothesis that processing does not crash the process (C47 shows crashes are possible). Writer/listener interleavings covered by C43_wire_order and C43_all_written."
  },
  {
   "property": "C44",
   "status": "partial",
   "theorems": [
    "Verif.Props.Receive.C44_failed_message_acked",
    "Verif.Props.Receive.C44_undecryptable_acked",
    "Verif.Props.Receive.C44_unreadable_not_acked_partial"
   ],
   "note": "Refuted: every failed request is acknowledged (C44_failed_message_acked, C44_undecryptable_acked). What holds: frames that are not websocket messages, or whose processing crashes, are not acknowledged."
  },
  {
   "property": "C45",
   "status": "partial",
   "theorems": [
    "Verif.Props.Receive.C45_data_delivered",
    "Verif.Props.Receive.C45_attachments_delivered",
    "Verif.Props.Receive.C45_transcript_delivered",
    "Verif.Props.Receive.C45_reads_delivered",
    "Verif.Props.Receive.C45_notices_delivered",
    "Verif.Props.Receive.C45_ciphertext_partial",
    "Verif.Props.Receive.C45_prekey_partial",
    "Verif.Props.Receive.C45_legacy_message_lost"
   ],
   "note": "Refuted for the legacy address form (C45_legacy_message_lost: decrypted, session advanced, error returned, nothing dispatched). Proved for CIPHERTEXT from sources not starting with + and for PREKEY_BUNDLE from all sources."
  },
  {
   "property": "C46",
   "status": "proved",
   "theorems": [
    "Verif.Props.Receive.C46_exclusive",
    "Verif.Props.Receive.C46_nothing"
   ],
   "note": "All contents, all states."
  },
  {
   "property": "C47",
   "status": "partial",
   "theorems": [
    "Verif.Props.Receive.C47_contents_that_crash",
    "Verif.Props.Receive.C47_frames_that_crash",
    "Verif.Props.Receive.C47_complete_content_partial"
   ],
   "note": "Refuted at content level (C47_contents_that_crash) and at the listener (C47_frames_that_crash). Proved for contents whose dereferenced fields are present."
  },
  {
   "property": "C48",
   "status": "partial",
   "theorems": [
    "Verif.Props.Receive.C48_end_session_partial",
    "Verif.Props.Receive.C48_incoming_data",
    "Verif.Props.Receive.C48_combined_flags_ignored"
   ],
   "note": "Proved for flags equal to END_SESSION and a non-empty sender; refuted for END_SESSION combined with another flag (C48_combined_flags_ignored)."
  },
  {
   "property": "C49",
   "status": "partial",
   "theorems": [
    "Verif.Props.Send.C49_requests_follow_replies",
    "Verif.Props.Send.C49_next_devices",
    "Verif.Props.Send.C49_stale_rebuilt",
    "Verif.Props.Send.C49_converges_partial",
    "Verif.Props.Send.C49_unregistered_device_blocks",
    "Verif.Props.Send.C49_attempts_unbounded",
    "Verif.Props.Send.C49_message"
   ],
   "note": "Requests follow replies for all runs; stale sessions rebuilt and others continued; convergence within three attempts against every stable server, given that listed devices without session are registered. Refuted without that: C49_unregistered_device_blocks. Attempts are unbounded against an unstable server (C49_attempts_unbounded)."
  },
  {
   "property": "C50",
   "status": "proved",
   "theorems": [
    "Verif.Props.Send.C50_one_entry_per_device",
    "Verif.Props.Send.C50_content_decodes"
   ],
   "note": "Per-device statement needs no device listed twice (the list of device ids is otherwise still matched in order)."
  },
  {
   "property": "C51",
   "status": "partial",
   "theorems": [
    "Verif.Props.Send.C51_carries_partial",
    "Verif.Props.Send.C51_legacy_group_dropped"
   ],
   "note": "Proved for body, timestamp, expiry, attachment, flags and v2 group context; refuted for legacy groups, whose context is never put in the message (C51_legacy_group_dropped)."
  },
  {
   "property": "C52",
   "status": "partial",
   "theorems": [
    "Verif.Props.GroupsV1.C52_update",
    "Verif.Props.GroupsV1.C52_quit_partial",
    "Verif.Props.GroupsV1.C52_duplicate_stays",
    "Verif.Props.GroupsV1.C52_incoming_ignored"
   ],
   "note": "The update and quit functions do this (quit: if no member is listed twice); refuted: C52_duplicate_stays, and neither function is reached from a received message (C52_incoming_ignored)."
  },
  {
   "property": "C53",
   "status": "partial",
   "theorems": [
    "Verif.Props.GroupsV1.C53_leave_partial",
    "Verif.Props.GroupsV1.C53_still_there"
   ],
   "note": "Quits sent to all others and group gone after a restart; refuted until then: still found and written to (C53_still_there)."
  },
  {
   "property": "C54",
   "status": "proved",
   "theorems": [
    "Verif.GroupsV2.C54_only_administrators",
    "Verif.GroupsV2.C54_parts_need_administrator"
   ],
   "note": "For ModifyGroup with any validators and any outcome (C54_only_administrators), and for the parts of a change (C54_parts_need_administrator)."
  },
  {
   "property": "C55",
   "status": "proved",
   "theorems": [
    "Verif.GroupsV2.C55_unique_membership",
    "Verif.GroupsV2.C55_accepted",
    "Verif.GroupsV2.C55_invite_overlap",
    "Verif.GroupsV2.C55_rejected_overlap"
   ],
   "note": "Holds for every change that goes through. Inviting taken alone can list someone twice (C55_invite_overlap), and so can a rejected change (C55_rejected_overlap)."
  },
  {
   "property": "C56",
   "status": "partial",
   "theorems": [
    "Verif.GroupsV2.C56_rejected_title_stays",
    "Verif.GroupsV2.C56_not_saved",
    "Verif.GroupsV2.C56_refused_part_partial"
   ],
   "note": "Refuted: a rejected change of title stays in memory, for every group (C56_rejected_title_stays). Nothing rejected is saved to disk, and refused single parts change nothing."
  },
  {
   "property": "C57",
   "status": "partial",
   "theorems": [
    "Verif.GroupsV2.C57_never_accepted",
    "Verif.GroupsV2.C57_accepted_with_limits_partial"
   ],
   "note": "Refuted: ModifyGroup accepts no change at all (C57_never_accepted), because its validator has all limits zero. With real limits, administrators' changes of a group's properties are accepted and exact."
  },
  {
   "property": "C58",
   "status": "partial",
   "theorems": [
    "Verif.GroupsV2.C58_right_gained",
    "Verif.GroupsV2.C58_right_lost",
    "Verif.GroupsV2.C58_join_then_edit",
    "Verif.GroupsV2.C58_no_right_gained_partial"
   ],
   "note": "Refuted: groupImmut is the group itself, so later parts see earlier ones (C58_right_gained, C58_right_lost, C58_join_then_edit). Proved part: in ModifyGroup as it is, someone who is no administrator gains no right to edit."
  },
  {
   "property": "C59",
   "status": "proved",
   "theorems": [
    "Verif.GroupsV2.C59_final_validation",
    "Verif.GroupsV2.C59_description_limit"
   ],
   "note": "Exact characterisation of the accepted groups. The description limit is the title's (C59_description_limit)."
  },
  {
   "property": "C60",
   "status": "proved",
   "theorems": [
    "Verif.Props.Sync.C60_one_reading",
    "Verif.Props.Sync.C60_stream_splits",
    "Verif.Props.Sync.C60_written",
    "Verif.Props.Sync.C60_too_long",
    "Verif.Props.Sync.C60_contact_stream"
   ],
   "note": "The stream written has exactly one reading as length-prefixed records, namely the encodable items in order; records of 2^35 bytes and more panic."
  },
  {
   "property": "C61",
   "status": "proved",
   "theorems": [
    "Verif.Props.Discovery.C61_query_numbers",
    "Verif.Props.Discovery.C61_query_built",
    "Verif.Props.Discovery.C61_attribution"
   ],
   "note": "Query words, reply positions and the marking as registered, for every address book and reply."
  },
  {
   "property": "C62",
   "status": "partial",
   "theorems": [
    "Verif.Props.Profile.C62_exact",
    "Verif.Props.Profile.C62_round_trip_partial",
    "Verif.Props.Profile.C62_too_long",
    "Verif.Props.Profile.C62_zero_lost",
    "Verif.Props.Profile.C62_no_panic"
   ],
   "note": "False of the code for names ending in a zero byte (proved for all of them). Proved: exact result for every name; longer names refused; no input panics."
  },
  {
   "property": "C63",
   "status": "partial",
   "theorems": [
    "Verif.Props.Crayfish.C63_reply_lost",
    "Verif.Props.Crayfish.C63_later_reply_lost",
    "Verif.Props.Crayfish.C63_replies_swapped",
    "Verif.Props.Crayfish.C63_own_reply_partial",
    "Verif.Props.Crayfish.C63_returns_partial"
   ],
   "note": "False of the code: a reply handled before the channel is stored is lost and the call never returns (all continuations); concurrent callers swap replies. Proved for one goroutine and schedules without that race, over unboundedly many calls: own reply, no deadlock, termination measure."
  },
  {
   "property": "C64",
   "status": "partial",
   "theorems": [
    "Verif.Props.C64_late_message_breaks_newer_session",
    "Verif.Props.C64_other_sessions_partial",
    "Verif.Props.C64_other_sessions_prekey_partial"
   ],
   "note": "Refuted as stated (C64_late_message_breaks_newer_session): the attempt on the current session performs a ratchet step that is kept. Proved: which sessions of the stored record are untouched, and what a failed attempt may change in the others, for whisper messages and for prekey messages of a known session."
  },
  {
   "property": "C66",
   "status": "partial",
   "theorems": [
    "Verif.Props.Send.C66_bundle_is_the_reply",
    "Verif.Props.Send.C66_session_from_reply_partial",
    "Verif.Props.Send.C66_bad_prekey_crashes",
    "Verif.Props.Send.C66_other_device_overwritten"
   ],
   "note": "Sessions made from replies are for the device named in the reply and signature-checked; refuted: malformed one-time prekey crashes (C66_bad_prekey_crashes), a reply for another device replaces that device's session and crashes (C66_other_device_overwritten)."
  },
  {
   "property": "C67",
   "status": "partial",
   "theorems": [
    "Verif.Props.Send.C67_transcript_partial",
    "Verif.Props.Send.C67_failed_transcript_crashes"
   ],
   "note": "Holds unless sending the transcript crashes; refuted: any error of the transcript is a nil dereference (C67_failed_transcript_crashes)."
  },
  {
   "property": "C68",
   "status": "proved",
   "theorems": [
    "Verif.Props.Send.C68_one_timestamp"
   ],
   "note": "All runs, retries and the transcript."
  },
  {
   "property": "C69",
   "status": "proved",
   "theorems": [
    "Verif.Props.GroupsV1.C69_recipients",
    "Verif.Props.GroupsV1.C69_addressed",
    "Verif.Props.GroupsV1.C69_empty_group"
   ],
   "note": "All groups with members and all outcomes of the sends."
  },
  {
   "property": "C70",
   "status": "partial",
   "theorems": [
    "Verif.Props.GroupsV1.C70_create_partial",
    "Verif.Props.GroupsV1.C70_own_number_twice"
   ],
   "note": "Proved when the user does not name their own number; refuted otherwise (C70_own_number_twice). The restart part is that the file holds the group."
  },
  {
   "property": "C71",
   "status": "partial",
   "theorems": [
    "Verif.GroupsV2.C71_invite_refused",
    "Verif.GroupsV2.C71_add_refused",
    "Verif.GroupsV2.C71_request_refused",
    "Verif.GroupsV2.C71_add_partial"
   ],
   "note": "Refuted for inviting, adding and asking to join, with any limits. Adding assumes that encrypted ids are not sixteen bytes long (they have 65). Proved part: what ApplyAddMembers does when it succeeds."
  },
  {
   "property": "C72",
   "status": "partial",
   "theorems": [
    "Verif.Props.Sync.C72_uuid_check_partial",
    "Verif.Props.Sync.C72_bar_accepted",
    "Verif.Props.Sync.C72_others_left_out"
   ],
   "note": "False of the code: the variant position also accepts the character |. Proved: accepts every v4 UUID, and nothing else but that."
  },
  {
   "property": "C73",
   "status": "partial",
   "theorems": [
    "Verif.Props.Discovery.C73_forgotten",
    "Verif.Props.Discovery.C73_address_book_kept_partial"
   ],
   "note": "False of the code: contacts outside the address book are dropped (proved universally). Proved: address book contacts are kept."
  },
  {
   "property": "C74",
   "status": "partial",
   "theorems": [
    "Verif.Props.Discovery.C74_lost_at_restart",
    "Verif.Props.Discovery.C74_registered_survive_partial"
   ],
   "note": "False of the code: after a restart no unregistered contact is found under its number and at most one is left (proved universally). Proved: registered contacts survive."
  },
  {
   "property": "C75",
   "status": "proved",
   "theorems": [
    "Verif.Props.Discovery.C75_request",
    "Verif.Props.Discovery.C75_reply"
   ],
   "note": "Request opens for every attested enclave; reply of an enclave is read."
  },
  {
   "property": "C76",
   "status": "partial",
   "theorems": [
    "Verif.Props.Discovery.C76_one_number_spoils_all",
    "Verif.Props.Discovery.C76_refresh_succeeds_partial",
    "Verif.Props.Discovery.C76_grouped_number_spoils",
    "Verif.Props.Discovery.C76_foreign_skipped_partial"
   ],
   "note": "False of the code: any contact whose number is written in groups of digits with separators makes the refresh fail for all (C76_grouped_number_spoils). Proved: it succeeds if all usable numbers are numerals; contacts without a number, or with a byte no number has, are skipped without harm."
  },
  {
   "property": "C77",
   "status": "partial",
   "theorems": [
    "Verif.Props.Attest.C77_attestation_crashes",
    "Verif.Props.Attest.C77_null_response",
    "Verif.Props.Discovery.C77_short_reply_crashes",
    "Verif.Props.Discovery.C77_bad_nonce_crashes",
    "Verif.Props.Discovery.C77_reply_partial"
   ],
   "note": "False of the code: short replies, nonces of another length, null answers and null responses panic; the attestation answers that crash are characterised exactly (C77_attestation_crashes). Proved: replies with a 12 byte nonce never panic while being decrypted."
  },
  {
   "property": "C78",
   "status": "partial",
   "theorems": [
    "Verif.Props.Start.C78_same_key",
    "Verif.Props.Start.C78_same_key_first",
    "Verif.Props.Start.C78_names_readable"
   ],
   "note": "False of the code: math/rand unseeded, every installation holds the same key (proved for all)."
  },
  {
   "property": "C79",
   "status": "partial",
   "theorems": [
    "Verif.Props.Start.C79_nonce_reused",
    "Verif.Props.Start.C79_one_process_partial"
   ],
   "note": "False of the code across starts (proved for all pairs). Proved within one process: successive nonces come from successive places of the sequence."
  },
  {
   "property": "C80",
   "status": "partial",
   "theorems": [
    "Verif.Props.Start.C80_key_replaced",
    "Verif.Props.Start.C80_stored_key_ignored",
    "Verif.Props.Start.C80_later_restarts_partial"
   ],
   "note": "False of the code at the first restart; the stored key is always ignored. Proved: later restarts keep it."
  },
  {
   "property": "C81",
   "status": "partial",
   "theorems": [
    "Verif.Props.Profile.C81_ciphertext_returned",
    "Verif.Props.Profile.C81_name_never_shown",
    "Verif.Props.Profile.C81_succeeds",
    "Verif.Props.Profile.C81_with_credential_partial",
    "Verif.Props.Profile.C81_shown_is_decrypted",
    "Verif.Props.Profile.C81_about_without_name"
   ],
   "note": "GetProfile returns the ciphertext (proved for all answers). Proved for GetProfileAndCredential with a name; and whatever the answer, what it shows of a named profile is what the answer decrypts to under the profile key."
  },
  {
   "property": "C82",
   "status": "partial",
   "theorems": [
    "Verif.Props.Start.C82_credential_stale"
   ],
   "note": "False of the code for every number of restarts (proved by induction)."
  },
  {
   "property": "C83",
   "status": "partial",
   "theorems": [
    "Verif.Props.Profile.C83_missing_is_empty",
    "Verif.Props.Profile.C83_broken_reply_partial"
   ],
   "note": "False of the code: status never looked at. Proved: transport and decoding failures are reported."
  },
  {
   "property": "C84",
   "status": "partial",
   "theorems": [
    "Verif.Props.Profile.C84_only_that_contact_partial",
    "Verif.Props.Profile.C84_other_contact_overwritten",
    "Verif.Props.Profile.C84_empty_key"
   ],
   "note": "False of the code: the answer's UUID decides which contact is replaced. Proved when it is the one asked for."
  },
  {
   "property": "C85",
   "status": "partial",
   "theorems": [
    "Verif.Props.Profile.C85_short_avatar_crashes",
    "Verif.Props.Profile.C85_avatar_partial"
   ],
   "note": "False of the code: avatars of 1-11 bytes panic. Proved for all others."
  },
  {
   "property": "C86",
   "status": "partial",
   "theorems": [
    "Verif.Props.GroupFiles.C86_groups",
    "Verif.Props.Paths.C86_sessions_partial",
    "Verif.Props.Paths.C86_identities_partial",
    "Verif.Props.Paths.C86_avatars_partial",
    "Verif.Props.Paths.C86_session_of_another",
    "Verif.Props.Paths.C86_avatar_anywhere",
    "Verif.Props.Paths.C86_server_writes_files"
   ],
   "note": "False of the code: ids with a slash reach the session file of another peer, and avatars any file (C86_session_of_another, C86_avatar_anywhere, C86_server_writes_files). Proved: for ids without a slash, files are in their directories and distinct; files of groups are so for every group id (C86_groups)."
  },
  {
   "property": "C87",
   "status": "partial",
   "theorems": [
    "Verif.Props.Start.C87_expired_kept",
    "Verif.Props.Start.C87_renewed_partial",
    "Verif.Props.Start.C87_unreadable_crashes"
   ],
   "note": "False of the code: milliseconds compared with seconds; unreadable certificates end the program. Proved: missing certificates and ones below the seconds bound are renewed."
  },
  {
   "property": "C88",
   "status": "partial",
   "theorems": [
    "Verif.Props.Start.C88_access_keys_agree_partial",
    "Verif.Props.Start.C88_error_dropped",
    "Verif.Props.Start.C88_which_keys"
   ],
   "note": "Agreement proved for keys of AES length; for others the error is dropped."
  },
  {
   "property": "C89",
   "status": "proved",
   "theorems": [
    "Verif.Props.Profile.C89_only_the_key"
   ],
   "note": "All contact lists."
  },
  {
   "property": "C90",
   "status": "proved",
   "theorems": [
    "Verif.Props.Sign.C90_private_keys"
   ],
   "note": "For all 32-byte inputs; Clamped is stated on the bytes, independently of the code's masks."
  },
  {
   "property": "C91",
   "status": "partial",
   "theorems": [
    "Verif.Props.Register.C91_contact_partial"
   ],
   "note": "Composition of registration, storage, text encoding, signatures, bundle and key agreement. Missing: prekey ids 0 (refuted by C17), a batch within 100 of the reserved id (C40), and starts that fail after the last-resort key is written (C92). The signature law P.verify = Sign.verify is a hypothesis, met by the example."
  },
  {
   "property": "C92",
   "status": "partial",
   "theorems": [
    "Verif.Props.Register.C92_never_published",
    "Verif.Props.Register.C92_crash",
    "Verif.Props.Register.C92_signed_not_stored",
    "Verif.Props.Register.C92_finished_partial"
   ],
   "note": "Refuted: C92_never_published (server refuses the prekeys), C92_crash (death after the last-resort key is written), C92_signed_not_stored (error of the signed prekey's write dropped). Proved for histories where each start dies before that key is written or runs to its end."
  },
  {
   "property": "C93",
   "status": "proved",
   "theorems": [
    "Verif.Props.Register.C93_restart",
    "Verif.Props.Register.C93_new_data"
   ],
   "note": "Any world, any later starts. The encryption of the files under the storage password is not part of this model (C30 covers it)."
  },
  {
   "property": "C94",
   "status": "partial",
   "theorems": [
    "Verif.Props.GroupStore.C94_crash_iff_partial",
    "Verif.Props.GroupStore.C94_unknown_group_crashes"
   ],
   "note": "Refuted: C94_unknown_group_crashes (a message naming an unknown group the server does not hand out ends the program, at every redelivery, for any number of restarts). C94_crash_iff_partial says exactly when a message crashes the program. YAML is taken to be faithful, zkgroup is a parameter."
  },
  {
   "property": "C95",
   "status": "partial",
   "theorems": [
    "Verif.Props.GroupStore.C95_update_mirrors_partial",
    "Verif.Props.GroupStore.C95_no_answer",
    "Verif.Props.GroupStore.C95_bad_answer_wipes"
   ],
   "note": "Refuted: C95_bad_answer_wipes (an answer whose title does not decrypt empties the group in memory; asking for its members then crashes). Proved: what a successful update stores, and that one without an answer changes nothing. Profile keys of members are modelled but not in the statement."
  },
  {
   "property": "C96",
   "status": "partial",
   "theorems": [
    "Verif.Props.GroupStore.C96_first_lookup_partial",
    "Verif.Props.GroupStore.C96_after_message",
    "Verif.Props.GroupStore.C96_second_lookup_fails"
   ],
   "note": "Refuted: C96_second_lookup_fails. Proved: the first lookup after a start and every group a message was received for since."
  },
  {
   "property": "C97",
   "status": "partial",
   "theorems": [
    "Verif.Props.GroupStore.C97_send_partial",
    "Verif.Props.GroupStore.C97_sent_to_self",
    "Verif.Props.GroupStore.C97_encrypted_members"
   ],
   "note": "Refuted: C97_sent_to_self (the sender is among the recipients of every message sent). Proved: order, content and who gets the message when a delivery fails; a non-member sends nothing."
  },
  {
   "property": "C98",
   "status": "partial",
   "theorems": [
    "Verif.Props.GroupStore.C98_join_partial",
    "Verif.Props.GroupStore.C98_refusal_ignored",
    "Verif.Props.GroupStore.C98_empty_invitation_crashes"
   ],
   "note": "Refuted: C98_refusal_ignored, C98_empty_invitation_crashes. Proved: exactly when joining reports success, and that the status then is the one of the server's next answer, if there is one."
  },
  {
   "property": "C99",
   "status": "partial",
   "theorems": [
    "Verif.Props.GroupStore.C99_covered_days_partial",
    "Verif.Props.GroupStore.C99_failed_fetch_retried",
    "Verif.Props.GroupStore.C99_never_renewed"
   ],
   "note": "Refuted: C99_never_renewed. Proved for the days the first answer covers; a failed request is repeated."
  },
  {
   "property": "C100",
   "status": "partial",
   "theorems": [
    "Verif.Props.GroupStore.C100_signed_partial",
    "Verif.Props.GroupStore.C100_not_bound",
    "Verif.Props.GroupStore.C100_shown_again"
   ],
   "note": "Refuted: C100_not_bound (old changes and those of other groups are accepted), C100_shown_again (a change is stored and reported again). Proved: a change that says anything is signed, and what is reported is what it says under the group's key."
  },
  {
   "property": "C101",
   "status": "partial",
   "theorems": [
    "Verif.Props.GroupStore.C101_any_sender",
    "Verif.Props.GroupStore.C101_group_of_key_partial"
   ],
   "note": "Refuted: C101_any_sender. Proved: a message is shown in the group of its master key only."
  },
  {
   "property": "C102",
   "status": "proved",
   "theorems": [
    "Verif.GroupsV2.C102_new_members",
    "Verif.GroupsV2.C102_invitations",
    "Verif.GroupsV2.C102_requests"
   ],
   "note": "Stated over the decrypted actions of a change; zkgroup is a parameter."
  },
  {
   "property": "C103",
   "status": "partial",
   "theorems": [
    "Verif.Props.GroupsV1.C103_change_partial",
    "Verif.Props.GroupsV1.C103_unknown",
    "Verif.Props.GroupsV1.C103_not_saved",
    "Verif.Props.GroupsV1.C103_removed_not_told"
   ],
   "note": "False of the code: removed members are not told, and a group that could not be saved is changed in memory (C103_removed_not_told, C103_not_saved). Proved: name, members, file, who is told, and the refusal of unknown ids."
  },
  {
   "property": "C104",
   "status": "proved",
   "theorems": [
    "Verif.Props.Attest.C104_end_to_end"
   ],
   "note": "The service is a party with its own private keys; the Diffie-Hellman and AES-GCM laws are assumed of the primitives."
  },
  {
   "property": "C105",
   "status": "partial",
   "theorems": [
    "Verif.Props.Attest.C105_any_party",
    "Verif.Props.Attest.C105_not_looked_at",
    "Verif.Props.Attest.C105_addressees_partial"
   ],
   "note": "False of the code: quote and signature are not looked at, any party is taken for the enclave (C105_any_party, C105_not_looked_at). Proved: envelopes are addressed only to keys of answers, at most three."
  },
  {
   "property": "C106",
   "status": "proved",
   "theorems": [
    "Verif.Props.C106_any_encoding",
    "Verif.Props.C106_end_to_end"
   ],
   "note": "Assumed: fresh ratchet keys are distinct, no stale message authenticates (as in C02), fewer than 2^32 events; the envelope is what the server makes of an accepted message. The peer may have several devices, known in any order. Messages with any flags may be sent; those that end the session are delivered in C118. Acts with others are in C120."
  },
  {
   "property": "C107",
   "status": "proved",
   "theorems": [
    "Verif.Props.C107_data",
    "Verif.Props.C107_transcript",
    "Verif.Props.C107_ack",
    "Verif.Props.C107_frame",
    "Verif.Props.C107_envelope",
    "Verif.Props.C107_receipt",
    "Verif.Props.C107_reads",
    "Verif.Props.C107_request",
    "Verif.Props.C107_call",
    "Verif.Props.C107_typing",
    "Verif.Props.C107_foreign",
    "Verif.Props.C107_attachment_last",
    "Verif.Props.C107_parts_in_pieces",
    "Verif.Props.C107_pieces"
   ],
   "note": "Contents written by the client, acknowledgements, and the frames and envelopes a server writes."
  },
  {
   "property": "C108",
   "status": "proved",
   "theorems": [
    "Verif.Props.Http.C108_sent_is_received",
    "Verif.Props.Http.C108_host_ignored",
    "Verif.Props.Http.C108_framing"
   ],
   "note": "The server is a specification with other users at work; JSON and the server's plan of keys and addresses are parameters (Plan.Sound)."
  },
  {
   "property": "C109",
   "status": "partial",
   "theorems": [
    "Verif.Props.Http.C109_no_message_partial",
    "Verif.Props.Http.C109_success_partial",
    "Verif.Props.Http.C109_no_crash_partial",
    "Verif.Props.Http.C109_refusal_crashes",
    "Verif.Props.Http.C109_no_address_crashes"
   ],
   "note": "Refuted: an unchecked refusal crashes the program. Proved: what success means, no message after an error, no crash if the addresses have two slashes."
  },
  {
   "property": "C110",
   "status": "proved",
   "theorems": [
    "Verif.Props.Http.C110_content_servers_only"
   ],
   "note": "Redirects by the content servers are not modelled."
  },
  {
   "property": "C111",
   "status": "partial",
   "theorems": [
    "Verif.Props.Http.C111_addresses",
    "Verif.Props.Http.C111_crash_iff_partial",
    "Verif.Props.Http.C111_pointer_crashes",
    "Verif.Props.Http.C111_answer_crashes"
   ],
   "note": "Refuted by a pointer ending in % and by any short answer; the exact condition is proved."
  },
  {
   "property": "C112",
   "status": "partial",
   "theorems": [
    "Verif.Props.Http.C112_upload_hosts_partial",
    "Verif.Props.Http.C112_password_to_content_server",
    "Verif.Props.Http.C112_any_certificate",
    "Verif.Props.Http.C112_attachments_unchecked",
    "Verif.Props.Http.C112_as_given",
    "Verif.Props.Http.C112_websocket_partial",
    "Verif.Props.Http.C112_own_credentials_partial",
    "Verif.Props.Http.C112_encrypted"
   ],
   "note": "Refuted: the content server is given the password, and certificates are not checked. Proved: where uploads go, that the servers that are not configured are asked over TLS and under their own names only (C112_encrypted), and that the websocket is checked."
  },
  {
   "property": "C113",
   "status": "partial",
   "theorems": [
    "Verif.Props.Http.C113_agent_not_announced",
    "Verif.Props.Http.C113_proxy_announced",
    "Verif.Props.Http.C113_nothing_else_partial"
   ],
   "note": "Refuted: the proxy setting is announced instead of the user agent."
  },
  {
   "property": "C114",
   "status": "proved",
   "theorems": [
    "Verif.Props.Http.C114_anonymous"
   ],
   "note": ""
  },
  {
   "property": "C115",
   "status": "partial",
   "theorems": [
    "Verif.Props.Http.C115_device_reads_partial",
    "Verif.Props.Http.C115_missing_code_sent",
    "Verif.Props.Http.C115_failure_reported_partial"
   ],
   "note": "Refuted: a missing code is sent as an empty one. Proved: what the new device reads, and that success means that the server accepted the envelope."
  },
  {
   "property": "C116",
   "status": "partial",
   "theorems": [
    "Verif.Props.Http.C116_code_given_twice",
    "Verif.Props.Http.C116_failure_keeps_code",
    "Verif.Props.Http.C116_fresh_code_partial"
   ],
   "note": "Refuted: the code is remembered across attempts. Proved: with nothing remembered the device gets the code just issued."
  },
  {
   "property": "C117",
   "status": "partial",
   "theorems": [
    "Verif.Props.Http.C117_checked_partial",
    "Verif.Props.Http.C117_unlink_always_succeeds",
    "Verif.Props.Http.C117_json",
    "Verif.Props.Http.C117_unlink_asked",
    "Verif.Props.Http.C117_list_always_succeeds",
    "Verif.Props.Http.C117_list_nothing"
   ],
   "note": "Refuted for UnlinkDevice and LinkedDevices; proved for the others."
  },
  {
   "property": "C118",
   "status": "partial",
   "theorems": [
    "Verif.Props.C118_fresh_start_partial",
    "Verif.Props.C118_talk_again_partial",
    "Verif.Props.C118_end_session",
    "Verif.Props.C118_overtaken_end_loses"
   ],
   "note": "Proved for any schedule before, an ending that the receiver accepts (the conversation of C02 would), and any schedule after; EndSession itself for any state. Refuted when a message of the new session overtakes the end of the old one: the new session is deleted and later messages are lost (C118_overtaken_end_loses)."
  },
  {
   "property": "C119",
   "status": "partial",
   "theorems": [
    "Verif.Props.C119_without_session_partial",
    "Verif.Props.C119_late_messages_partial",
    "Verif.Props.C119_shown_again"
   ],
   "note": "Proved for messages that need a session and for first messages whose one-time prekey is used up. Refuted for a first message built on the last-resort prekey: replayed after the reset it is shown again and answers to it are lost (C119_shown_again)."
  },
  {
   "property": "C120",
   "status": "partial",
   "theorems": [
    "Verif.Props.C120_one_act",
    "Verif.Props.C120_conversation_partial"
   ],
   "note": "Proved for any schedule of acts with others that do not tell to end the session with the peer, present no other identity key for the peer, and do not use up the prekey of the conversation's first message (Act.Apart, Elsewhere). Refuted without the first of these: C121_forged_transcript."
  },
  {
   "property": "C121",
   "status": "partial",
   "theorems": [
    "Verif.Props.C121_needs_sync_part_partial",
    "Verif.Props.C121_sender_ignored",
    "Verif.Props.C121_stranger_ends_sessions",
    "Verif.Props.C121_forged_transcript"
   ],
   "note": "Holds as far as only contents with a sync part have such effects (C121_needs_sync_part_partial). Refuted for the rest: the sender is not looked at (C121_sender_ignored), and any correspondent can end the sessions with any account (C121_stranger_ends_sessions, C121_forged_transcript)."
  },
  {
   "property": "C122",
   "status": "partial",
   "theorems": [
    "Verif.Props.C122_same_safety_number",
    "Verif.Props.C122_number_partial",
    "Verif.Props.C122_codes_match",
    "Verif.Props.C122_match_means_same_keys",
    "Verif.Props.C122_unknown_contact",
    "Verif.Props.C122_same_groups_crash"
   ],
   "note": "The number exists unless all six groups of both users coincide (C36)."
  },
  {
   "property": "C123",
   "status": "partial",
   "theorems": [
    "Verif.Props.C123_later_runs_read",
    "Verif.Props.C123_missing_file",
    "Verif.Props.C123_encrypted_partial",
    "Verif.Props.C123_separate_keys_partial",
    "Verif.Props.C123_setting",
    "Verif.Props.C123_empty_password_writes_plaintext",
    "Verif.Props.C123_wrong_password",
    "Verif.Props.C123_turning_encryption_on_crashes",
    "Verif.Props.C123_turning_encryption_off_unnoticed",
    "Verif.Props.C123_moved_file_accepted"
   ],
   "note": "Proved: later runs read; files are ciphertext under nonempty passwords; another password is refused; a file nobody wrote is reported. Refuted: empty password, switching encryption on or off, moved files."
  },
  {
   "property": "C124",
   "status": "proved",
   "theorems": [
    "Verif.GroupsV2.C124_carried_out",
    "Verif.GroupsV2.C124_goes_through",
    "Verif.GroupsV2.C124_accepted",
    "Verif.GroupsV2.C124_administrators_change",
    "Verif.GroupsV2.C124_proofs_checked",
    "Verif.GroupsV2.C124_epoch"
   ],
   "note": "Exact effect of every change that goes through, and the converse for administrators; the first checks read ids and keys only from checked presentations. ModifyGroup itself uses limits of zero (C57), so the theorems about acceptance are for given limits."
  },
  {
   "property": "C125",
   "status": "partial",
   "theorems": [
    "Verif.GroupsV2.C125_accepting_changes_nothing",
    "Verif.GroupsV2.C125_accepting_needs_proof_partial"
   ],
   "note": "False: accepting only edits the encrypted list. Partial theorem: who can get an acceptance through."
  },
  {
   "property": "C126",
   "status": "partial",
   "theorems": [
    "Verif.Gateway.C126_at_most_once",
    "Verif.Gateway.C126_attachment_partial",
    "Verif.Gateway.C126_old_contents",
    "Verif.Gateway.C126_upload_lost"
   ],
   "note": "Proved for the addressee, the text and the report. The attachment is the upload only if no longer file of that name is in /tmp and it can be stored; otherwise the end of the old file is sent with it (`C126_old_contents`), or nothing is (`C126_upload_lost`), and success is reported all the same."
  },
  {
   "property": "C127",
   "status": "partial",
   "theorems": [
    "Verif.Gateway.C127_only_own_files",
    "Verif.Gateway.C127_cleaned_partial",
    "Verif.Gateway.C127_left_behind",
    "Verif.Gateway.C127_others_file_lost"
   ],
   "note": "Proved that no other file changes. Refuted: an upload without text or addressee stays in /tmp (`C127_left_behind`); a file that was there before is overwritten and removed (`C127_others_file_lost`)."
  },
  {
   "property": "C128",
   "status": "partial",
   "theorems": [
    "Verif.Gateway.C128_kind_partial",
    "Verif.Gateway.C128_new_groups",
    "Verif.Gateway.C128_old_groups"
   ],
   "note": "Proved for groups of the new kind and for persons. Refuted for every group of the old kind: its identifier has 32 digits, the expression asks for 64 (`C128_old_groups`)."
  },
  {
   "property": "C129",
   "status": "partial",
   "theorems": [
    "Verif.Gateway.C129_forgotten_partial",
    "Verif.Gateway.C129_uuid_kept",
    "Verif.Gateway.C129_untrusted_reported"
   ],
   "note": "Proved for the report, and for identities of digits. Refuted for every UUID: the expression accepts digits only (`C129_uuid_kept`)."
  },
  {
   "property": "C130",
   "status": "partial",
   "theorems": [
    "Verif.Gateway.C130_no_answer_iff_partial",
    "Verif.Gateway.C130_crashes",
    "Verif.Gateway.C130_json_partial",
    "Verif.Gateway.C130_status",
    "Verif.Gateway.C130_not_json"
   ],
   "note": "Exactly when no answer comes: the message is no text (`C130_crashes`). Answers are JSON if the error texts have no quotes, backslashes or control characters; refuted otherwise (`C130_not_json`)."
  },
  {
   "property": "C131",
   "status": "partial",
   "theorems": [
    "Verif.Gateway.C131_echo_partial",
    "Verif.Gateway.C131_echo_private",
    "Verif.Gateway.C131_silent",
    "Verif.Gateway.C131_peer_fixed",
    "Verif.Gateway.C131_first_is_peer",
    "Verif.Props.Shown.C131_sealed"
   ],
   "note": "Proved for persons and groups of the old kind, and that the peer stays. Refuted for groups of the new kind: the echo goes to the sender alone (`C131_echo_private`)."
  },
  {
   "property": "C132",
   "status": "partial",
   "theorems": [
    "Verif.Gateway.C132_shown_partial",
    "Verif.Gateway.C132_twice",
    "Verif.Gateway.C132_published_partial",
    "Verif.Gateway.C132_wrong_name"
   ],
   "note": "Exact counts. Refuted: without `-raw` each text is shown twice (`C132_twice`); everything is published under the name of the first peer (`C132_wrong_name`)."
  },
  {
   "property": "C133",
   "status": "partial",
   "theorems": [
    "Verif.Gateway.C133_message_partial",
    "Verif.Gateway.C133_nameless",
    "Verif.Gateway.C133_new_group_partial",
    "Verif.Gateway.C133_update_group_partial",
    "Verif.Gateway.C133_stops_iff",
    "Verif.Gateway.C133_update_stops",
    "Verif.Gateway.C133_colon"
   ],
   "note": "Proved for arguments without colons in names. Refuted: without an addressee the text goes to a contact without a name (`C133_nameless`); `-updategroup` without a colon crashes (`C133_stops_iff`); a colon in a name (`C133_colon`)."
  },
  {
   "property": "C134",
   "status": "partial",
   "theorems": [
    "Verif.Props.C134_shown_partial",
    "Verif.Props.C134_end_not_shown"
   ],
   "note": "Proved for all schedules of whole clients, for messages that are not ends of sessions and that the server says to have linked devices. Refuted for ends of sessions: the transcript names no number, handling it fails and nothing is shown (`C134_end_not_shown`)."
  },
  {
   "property": "C135",
   "status": "partial",
   "theorems": [
    "Verif.Props.C135_contacts_partial",
    "Verif.Props.C135_own_key_recorded"
   ],
   "note": "Proved that nothing else changes: the sender's key by a message with the flag, or the recipient's by a transcript with it. The second is refuted as intended: the transcript carries the user's own key, which is recorded for the recipient, or for the contact without a number (`C135_own_key_recorded`)."
  },
  {
   "property": "C136",
   "status": "partial",
   "theorems": [
    "Verif.Props.C136_first_to_itself",
    "Verif.Props.C136_not_to_itself_partial"
   ],
   "note": "Proved once the own device is not in the list and the server does not call it missing. Refuted for the first transcript: the list is taken to be device 1, also on device 1 (`C136_first_to_itself`); the server's answer corrects it."
  },
  {
   "property": "C137",
   "status": "partial",
   "theorems": [
    "Verif.Props.Config.C137_survives_partial",
    "Verif.Props.Config.C137_account_partial",
    "Verif.Props.Config.C137_last_value_partial",
    "Verif.Props.Config.C137_loading_partial",
    "Verif.Props.Config.C137_registration_partial",
    "Verif.Props.Config.C137_interrupted",
    "Verif.Props.Config.C137_own_not_saved"
   ],
   "note": "Proved for applications that use `ReadConfig`, for all histories whose writes succeed. Refuted: an interrupted write leaves an empty file, which the next start takes for a configuration (`C137_interrupted`); with a configuration of the application's own nothing is ever saved, and registration fails after the server gave the account (`C137_own_not_saved`)."
  },
  {
   "property": "C138",
   "status": "partial",
   "theorems": [
    "Verif.Props.Config.C138_file_partial",
    "Verif.Props.Config.C138_not_used"
   ],
   "note": "Proved that the file keeps what the user wrote. Refuted: the configuration in use does not change, and the next change overwrites the file (`C138_not_used`)."
  },
  {
   "property": "C139",
   "status": "partial",
   "theorems": [
    "Verif.Props.Config.C139_authority_partial",
    "Verif.Props.Config.C139_absent",
    "Verif.Props.Config.C139_unreadable"
   ],
   "note": "Proved if no authority is named or its file is readable. Refuted: an absent file means the built-in authority (`C139_absent`), an unreadable one every authority of the system (`C139_unreadable`). HTTP requests check no certificate at all, see C112."
  },
  {
   "property": "C140",
   "status": "partial",
   "theorems": [
    "Verif.Props.Backend.C140_configured_partial",
    "Verif.Props.Backend.C140_crash",
    "Verif.Props.Backend.C140_can_crash"
   ],
   "note": "Refuted: without a configuration every schedule that goes on crashes (`C140_crash`). With one the instance is made."
  },
  {
   "property": "C141",
   "status": "partial",
   "theorems": [
    "Verif.Props.Backend.C141_found_partial",
    "Verif.Props.Backend.C141_here_ignored",
    "Verif.Props.Backend.C141_litter"
   ],
   "note": "Proved for the search path and the source tree, and that what is started is there. Refuted: a program at `./crayfish` is never started (`C141_here_ignored`); if there is none, an empty file is made and the client ends (`C141_litter`)."
  },
  {
   "property": "C142",
   "status": "partial",
   "theorems": [
    "Verif.Props.Backend.C142_in_order_partial",
    "Verif.Props.Backend.C142_kept_partial",
    "Verif.Props.Backend.C142_lost",
    "Verif.Props.Backend.C142_early"
   ],
   "note": "Proved: at most once and in order in every run; nothing is lost while the connection does not break. Refuted: requests made without a connection never arrive (`C142_lost`); before the first connection they crash the client (`C142_early`)."
  },
  {
   "property": "C143",
   "status": "partial",
   "theorems": [
    "Verif.Props.Backend.C143_old_account",
    "Verif.Props.Backend.C143_account_partial"
   ],
   "note": "Proved for runs without a registration. Refuted for the others: the account is the one of the configuration at the start (`C143_old_account`)."
  },
  {
   "property": "C144",
   "status": "proved",
   "theorems": [
    "Verif.Props.C144_in_order"
   ],
   "note": "The server's side is an assumption (Spec/Mailbox). From C106 and an invariant of the abstract conversation: messages that arrive in order are accepted, whatever the redeliveries."
  },
  {
   "property": "C145",
   "status": "partial",
   "theorems": [
    "Verif.Props.C145_lost",
    "Verif.Props.C145_in_order_partial"
   ],
   "note": "Refuted for every message in every schedule: if the program ends after the session was stored and before the handler of the application is called, the message is taken for a duplicate at every later delivery and never shown (`C145_lost`). Proved for interruptions before anything is stored or after the handler returned."
  },
  {
   "property": "C146",
   "status": "proved",
   "theorems": [
    "Verif.Props.C146_everyone",
    "Verif.Props.C146_shared_prekey"
   ],
   "note": "Assumptions as in C106 for each conversation; every client is of an account of its own. `C146_shared_prekey` shows that the condition on one-time prekeys is needed."
  },
  {
   "property": "C147",
   "status": "partial",
   "theorems": [
    "Verif.Props.Listening.C147_acknowledged_partial",
    "Verif.Props.Listening.C147_stops_partial",
    "Verif.Props.Listening.C147_returns_partial",
    "Verif.Props.Listening.C147_overlap_crashes",
    "Verif.Props.Listening.C147_wrong_connection",
    "Verif.Props.Listening.C147_stop_ignored"
   ],
   "note": "Proved for applications that call `StartListening` only when no other call is in progress and `StopListening` only when none is connecting, for all schedules. Refuted otherwise, since all calls share the variable `wsconn`: two calls that connect at the same time crash the program (`C147_overlap_crashes`), after a quick stop and start an acknowledgement goes over the wrong connection (`C147_wrong_connection`), and a stop while connecting reports success and has no effect (`C147_stop_ignored`)."
  },
  {
   "property": "C148",
   "status": "partial",
   "theorems": [
    "Verif.Props.C148_only_asked_partial",
    "Verif.Props.C148_no_sync_partial",
    "Verif.Props.C148_update_read",
    "Verif.Props.C148_null_read",
    "Verif.Props.C148_anyone_makes_write",
    "Verif.Props.C148_verified_reported",
    "Verif.Props.C148_anyone_crashes",
    "Verif.Props.C148_request_answered"
   ],
   "note": "Proved for all frames: every request made while handling is to the user's own account after a request for contacts or groups, or to the account named in a verification, and device lists of no others change (`C148_only_asked_partial`); a frame without a sync part makes no request (`C148_no_sync_partial`). Refuted beyond that, since the sender of a sync message is not looked at: anyone makes the client write to any account they name (`C148_anyone_makes_write`) and, when the answer cannot be sent, ends it with a nil dereference (`C148_anyone_crashes`)."
  },
  {
   "property": "C149",
   "status": "partial",
   "theorems": [
    "Verif.Props.C149_whole_partial",
    "Verif.Props.C149_late_partial",
    "Verif.Props.C149_again_partial",
    "Verif.Props.C149_gap",
    "Verif.Props.C149_gap_received"
   ],
   "note": "Proved for readers that do not fail (`C149_whole_partial`), that fail after 1024 bytes (`C149_late_partial`) or fail again when reading goes on (`C149_again_partial`). Refuted for the rest: `MIMETypeFromReader` drops the error of `io.CopyN`, so after a single failure within the first 1024 bytes a file with a gap is uploaded and received as if whole (`C149_gap`, `C149_gap_received`)."
  },
  {
   "property": "C150",
   "status": "partial",
   "theorems": [
    "Verif.Props.C150_told_partial",
    "Verif.Props.C150_success_partial",
    "Verif.Props.C150_failure_partial",
    "Verif.Props.C150_wrong_access_key",
    "Verif.Props.C150_found_by_number",
    "Verif.Props.C150_accepted_but_error",
    "Verif.Props.C150_before_setup"
   ],
   "note": "Proved: what is told (`C150_told_partial`), success (`C150_success_partial`), that a failed call leaves the configuration (`C150_failure_partial`). Refuted: the access key told is computed from the private identity key and not the profile key (`C150_wrong_access_key`); the user is made discoverable whatever they chose (`C150_found_by_number`); after an error the server may have accepted (`C150_accepted_but_error`); before setup the call crashes (`C150_before_setup`)."
  },
  {
   "property": "C151",
   "status": "partial",
   "theorems": [
    "Verif.Props.C151_asked_partial",
    "Verif.Props.C151_ignored",
    "Verif.Props.C151_crashes"
   ],
   "note": "Proved: the request is sent to the user's account and read there as a request for contacts (`C151_asked_partial`). Refuted beyond that: every answer is ignored (`C151_ignored`), and a failure to send crashes the program (`C151_crashes`)."
  },
  {
   "property": "C152",
   "status": "partial",
   "theorems": [
    "Verif.Props.C152_stored_keys_partial",
    "Verif.Props.C152_first_messages_stay_readable",
    "Verif.Props.C152_read_message_stays_readable"
   ],
   "note": "Proved for every schedule of C02, for the responder's session in full and for the initiator's from epoch 11 on (`C152_stored_keys_partial`). Refuted for the initiator before: the session opens every message they sent before the first answer (`C152_first_messages_stay_readable`, every schedule), and for a session archived and promoted again (`C152_read_message_stays_readable`). Only keys computable by the forward key schedule are considered, from the session record only."
  },
  {
   "property": "C153",
   "status": "partial",
   "theorems": [
    "Verif.Props.C153_first_messages",
    "Verif.Props.C153_crossing_partial",
    "Verif.Props.C153_second_messages_cross",
    "Verif.Props.C153_refusals_partial",
    "Verif.Props.C153_read_twice"
   ],
   "note": "Proved: both first messages are read (`C153_first_messages`), and after Alice's second message has been read by Bob before they send one, every schedule agrees with the abstract machine of C02: those in which nothing is to be refused (`C153_crossing_partial`), and all others if the sessions given up open no message that is to be refused and, as in C02, no message of a forgotten epoch authenticates by chance (`C153_refusals_partial`). Refuted when the second messages cross too (`C153_second_messages_cross`): both are read, then nothing is readable in either direction. Refuted also for a later message that comes twice: it is read twice (`C153_read_twice`). Assumed in the partial theorems: the newer session of Bob does not open the message of the older one (no law of the primitives implies it)."
  },
  {
   "property": "C154",
   "status": "partial",
   "theorems": [
    "Verif.Props.C154_refusals_partial",
    "Verif.Props.C154_start_over_partial",
    "Verif.Props.C154_late_message_breaks_new_session"
   ],
   "note": "Proved for arbitrary older records on both sides (also unreadable files): for every schedule in the new session in which no message is one to be refused, with no cryptographic assumption (`C154_start_over_partial`), and for every schedule, assuming that no older session opens a message that is to be refused and, as in C02, that no message of a forgotten epoch authenticates by chance (`C154_refusals_partial`). Refuted when a message of the older session arrives after the first of the new one: it is read, but afterwards the peer's answers are unreadable (`C154_late_message_breaks_new_session`). Excluded: a session file that is read but does not parse (LoadSession then fails)."
  },
  {
   "property": "C155",
   "status": "partial",
   "theorems": [
    "Verif.Props.C155_dialogue_partial",
    "Verif.Props.C155_registration_succeeds",
    "Verif.Props.C155_told_three_times",
    "Verif.Props.C155_told_at_every_start",
    "Verif.Props.C155_handler_needed",
    "Verif.Props.C155_any_answer_is_an_account",
    "Verif.Props.C155_refusal_not_heard",
    "Verif.Props.C155_refused_code_waits"
   ],
   "note": "Proved for all answers and failures: order and number of questions, what the requests carry, where the saved account comes from, told only after the keys are published, a registered client does none of it (`C155_dialogue_partial`); a proper answer gives the account (`C155_registration_succeeds`). Refuted: told once (`C155_told_three_times`, `C155_told_at_every_start`), the handler optional (`C155_handler_needed`), an account only if confirmed (`C155_any_answer_is_an_account`), the code only after an accepted request (`C155_refusal_not_heard`), a refusal reported (`C155_refused_code_waits`). Names of JSON fields are compared exactly in the model."
  },
  {
   "property": "C156",
   "status": "partial",
   "theorems": [
    "Verif.Props.C156_apart_partial",
    "Verif.Props.C156_groups_apart_partial",
    "Verif.Props.C156_alone",
    "Verif.Props.C156_first_message_clashes",
    "Verif.Props.C156_changed_devices_clash",
    "Verif.Props.C156_answer_clashes",
    "Verif.Props.C156_refresh_clashes",
    "Verif.Props.C156_group_message_clashes",
    "Verif.Props.C156_new_group_clashes"
   ],
   "note": "Proved for any number of goroutines that write to people whose devices are known and stay the same, while one listens to texts and profile keys (`C156_apart_partial`); for any number that write to such people and to legacy groups of them, and answer requests for the groups (`C156_groups_apart_partial`); and for one goroutine whatever it does (`C156_alone`). Refuted universally for: a first message to anyone beside any other message (`C156_first_message_clashes`), other devices named by the server (`C156_changed_devices_clash`), answering a request of an own device beside a message (`C156_answer_clashes`), refreshing contacts or writing to a legacy group beside a received profile key (`C156_refresh_clashes`, `C156_group_message_clashes`), making a group beside a request for groups (`C156_new_group_clashes`). The map of new groups and accesses to other shared variables are not modelled."
  },
  {
   "property": "C157",
   "status": "partial",
   "theorems": [
    "Verif.Props.C157_crash_iff",
    "Verif.Props.C157_companion_partial",
    "Verif.Props.C157_unreadable_survived",
    "Verif.Props.C157_not_whole_crashes",
    "Verif.Props.C157_unasked_answers_deafen"
   ],
   "note": "Proved for every run in which requests and answers carry their part with a type and answers come to a waiting call; anything else, also text that is not JSON, may arrive in between (`C157_companion_partial`, `C157_unreadable_survived`). The crashes are characterised exactly (`C157_crash_iff`). Refuted: a message that says it is a request or an answer without carrying one, or with one without a type, crashes the client (`C157_not_whole_crashes`); two answers that nobody waits for block the reader for ever (`C157_unasked_answers_deafen`). Objects in which a name occurs twice are left out of the theorems."
  },
  {
   "property": "C158",
   "status": "partial",
   "theorems": [
    "Verif.Props.C158_kept_keys_partial",
    "Verif.Props.C158_kept_exactly",
    "Verif.Props.C158_unbounded"
   ],
   "note": "Proved over all histories: at most 2000 keys for each message of that address that was accepted, in each of at most 41 states; refused messages and other addresses add nothing (`C158_kept_keys_partial`). In a conversation of two clients the number is given exactly: the messages older than the newest one read and not read themselves, in the chains still there (`C158_kept_exactly`). Refuted: there is no bound, `k` messages make the client keep `n * k` keys for every `n` up to 2000 (`C158_unbounded`)."
  },
  {
   "property": "C159",
   "status": "partial",
   "theorems": [
    "Verif.Props.C159_as_prescribed_partial",
    "Verif.Props.C159_absent_prekey_named"
   ],
   "note": "Proved for every schedule of two clients: each message sent is the one computed by an independent description of the protocol (`Spec/Protocol.lean`) from the keys, the turn, the number and the text alone: derivations with their info texts, layout of the fields, padding, MAC, the counter of the previous chain and the pre-key envelope of the first messages (`C159_as_prescribed_partial`). Missing: where the recipient has no one-time pre-key left, the first messages name pre-key 0 instead of none, refuted by `C159_absent_prekey_named`."
  },
  {
   "property": "C160",
   "status": "partial",
   "theorems": [
    "Verif.Props.GroupFiles.C160_groups_survive_partial",
    "Verif.Props.GroupFiles.C160_update_survives_partial",
    "Verif.Props.GroupFiles.C160_all_groups_forgotten"
   ],
   "note": "Proved for all directories whose path does not contain the text `avatar`: the groups known after a restart are exactly those written, as written (`C160_groups_survive_partial`), and an update taken in is among them (`C160_update_survives_partial`). Refuted for every other directory: all groups are forgotten (`C160_all_groups_forgotten`)."
  },
  {
   "property": "C161",
   "status": "proved",
   "theorems": [
    "Verif.Props.C161_ready",
    "Verif.Props.C161_first_contact",
    "Verif.Props.C161_conversation",
    "Verif.Props.C161_registered"
   ],
   "note": "`C161_ready`: the readiness conditions of the responder are invariant under every history. Hence `C161_first_contact`, `C161_conversation`, and with the registration of C92 `C161_registered`. The condition `Spared` allows messages that name the prekey and are refused by decryption; an example shows that it cannot be dropped."
  },
  {
   "property": "C162",
   "status": "partial",
   "theorems": [
    "Verif.Props.C162_only_fewer",
    "Verif.Props.C162_never_renewed",
    "Verif.Props.C162_reachable_partial"
   ],
   "note": "Refuted for all histories: calls only take prekeys away and never change the signed one (`C162_only_fewer`), and no later start writes or publishes anything (`C162_never_renewed`). What holds: the prekey of last resort and the signed prekey stay (`C162_reachable_partial`), so the client stays reachable (C161)."
  },
  {
   "property": "C163",
   "status": "partial",
   "theorems": [
    "Verif.Props.C163_takes_the_place_partial",
    "Verif.Props.C163_document_loses_last"
   ],
   "note": "`Spec/Ratchet.lean` is the algorithm of the document, function by function (RatchetInitAlice, RatchetInitBob, RatchetEncrypt, RatchetDecrypt, SkipMessageKeys, DHRatchet). Proved for every schedule, with the peer on either side: what is read, the bytes on the wire and the client's store are those of two clients (`C163_takes_the_place_partial`). Missing: the peer must write and read the length of the previous chain as Signal's implementations do; for a peer that follows the letter of the document the claim is false (`C163_document_loses_last`). Schedules are excluded in which a message to the peer is more than five chains old or more than 2000 messages of a chain are missing when the next begins: there the peer keeps more or less than a client would. An initiating peer is assumed to have got a one-time prekey (C159). Cryptographic assumptions: those of C02, and that no message read before authenticates under another key (the document's algorithm has no other defence against repetition)."
  },
  {
   "property": "C164",
   "status": "partial",
   "theorems": [
    "Verif.Props.GroupView.C164_report_partial",
    "Verif.Props.GroupView.C164_no_editor"
   ],
   "note": "`Spec/GroupView.lean` gives the view of a group, what a change does to it and when actions carry a change, from the protocol's message definition. Proved: joins, leaves, roles, invitations and the revision are reported exactly, and the report leads to the same view as the change from every view if and only if the change withdraws and accepts no invitation and leaves the title alone. Missing: those, and who made the change (`C164_no_editor`): the code decrypts only four kinds of action. Access rules, avatar, timer, description, requesting and banned members are not in the view; the code reports none of them. New members are taken in the form the server sends (no presentation)."
  },
  {
   "property": "C165",
   "status": "partial",
   "theorems": [
    "Verif.Props.Listing.C165_list_partial",
    "Verif.Props.Listing.C165_other_directory",
    "Verif.Props.Listing.C165_new_groups_missing",
    "Verif.Props.Listing.C165_one_bad_file"
   ],
   "note": "Proved for the default storage directory and every history that began with an empty directory: the map answered is that of the files of legacy groups, ids and present names, and every group listed was made by the application (`C165_list_partial`). Refuted: with another storage directory the answer has nothing to do with the groups, and without a directory `.storage/groups` the handler crashes (`C165_other_directory`); new groups are never listed (`C165_new_groups_missing`); one unreadable file hides all groups after it (`C165_one_bad_file`). The JSON encoding of the map is not modelled."
  },
  {
   "property": "C166",
   "status": "partial",
   "theorems": [
    "Verif.Props.GroupTalk.C166_same_group_partial"
   ],
   "note": "Proved: as many messages as members, in order, each to its member; the content, marshalled by the one client and parsed by the other, has text, timer and time; the group context is read back exactly, and the message is shown in the group with the same id or the receiving client crashes, which it does not if it has the group on disk with title and members. Missing: the crash (C94, refuted there), and that the sender is not sent a copy (C97, refuted there). Sessions, envelopes and delivery between the two contents are C106 and C146, where the context is carried as it is."
  },
  {
   "property": "C167",
   "status": "partial",
   "theorems": [
    "Verif.Props.Console.C167_answers_partial",
    "Verif.Props.Console.C167_console_partial",
    "Verif.Props.Console.C167_pipe_loses",
    "Verif.Props.Console.C167_long_line"
   ],
   "note": "Proved for a terminal (no read goes beyond the end of a line) and lines shorter than 4096 bytes: exactly the lines that are not empty are sent, in order, and questions get the next lines (`C167_console_partial`, `C167_answers_partial`). Refuted: of what one read gets, everything after the first line is lost (`C167_pipe_loses`), and a longer line is cut into several messages (`C167_long_line`). At the end of the input the whole process is ended, which is part of the partial theorems."
  },
  {
   "property": "C168",
   "status": "partial",
   "theorems": [
    "Verif.Props.GroupCopies.C168_copies_partial",
    "Verif.Props.GroupCopies.C168_shown_for_each_member"
   ],
   "note": "Proved: the exact list of what the other device shows, for every state of it and every answer of the server: one copy for each member for whom a transcript was asked for, in order, with text, time, timer, profile key and attachments as sent, and in the group if the device finds it (`C168_copies_partial`). Refuted: with a server that asks for transcripts the message is shown once for each member, and in no group if the device does not find the group in its map, although it may be on disk (`C168_shown_for_each_member`). Sessions and envelopes between the devices are C134."
  },
  {
   "property": "C169",
   "status": "partial",
   "theorems": [
    "Verif.Props.C169_answer_or_crash",
    "Verif.Props.C169_contact_kept_partial",
    "Verif.Props.C169_name_and_picture_lost"
   ],
   "note": "Proved: when a contact is returned it is kept under its UUID, no other contact changes, number, profile key and texts stay, and a picture written to disk is the one decrypted (`C169_contact_kept_partial`). Refuted: an error is never returned, and the program ends exactly when there is not a full answer with a picture, so for every profile without picture, number without account and lost connection (`C169_answer_or_crash`, an equivalence for all inputs); a picture that does not decrypt with the text of the identity key replaces the one kept by nothing, and the name by the encrypted one (`C169_name_and_picture_lost`). Left out: the JSON answer `null`, answers broken in the middle, spare capacity of the slice of the identity key."
  },
  {
   "property": "C170",
   "status": "partial",
   "theorems": [
    "Verif.Props.Shown.C170_time",
    "Verif.Props.Shown.C170_alike",
    "Verif.Props.Shown.C170_half_day",
    "Verif.Props.Shown.C170_moment_partial",
    "Verif.Props.Shown.C170_far",
    "Verif.Props.Shown.C170_screen_partial",
    "Verif.Props.Shown.C170_forged",
    "Verif.Props.Shown.C170_forged_twice",
    "Verif.Props.Shown.C170_line_partial",
    "Verif.Props.Shown.C170_whole_partial",
    "Verif.Props.Shown.C170_ambiguous",
    "Verif.Props.Shown.C170_name_partial",
    "Verif.Props.Shown.C170_nameless"
   ],
   "note": "Proved: the time shown is the day of the week, the hour on a clock of twelve hours and the minute (`C170_time`), and which moments look alike (`C170_alike`, an equivalence); up to 2262 it is the moment the sender gave (`C170_moment_partial`); without line breaks the terminal tells the lines in order (`C170_screen_partial`); a private line from somebody whose name has no space tells time, name and text (`C170_line_partial`), and so does the whole line the program prints for it (`C170_whole_partial`); a source that is the number of a contact is shown by name (`C170_name_partial`). Refuted: morning and afternoon look alike (`C170_half_day`); later moments are shown as past ones (`C170_far`); one message can show as several by anybody (`C170_forged`, `C170_forged_twice`, for all messages and contacts); names with spaces (`C170_ambiguous`); the source is never a number, so that names are never shown, nor groups, nor anything of senders who hide from the server (`C170_nameless`, for whatever arrives). The latter are also answered to nobody in echo mode (`C131_sealed`). Left out: control sequences of the terminal, the title of the window, attachments."
  },
  {
   "property": "C171",
   "status": "partial",
   "theorems": [
    "Verif.Props.Echo.C171_answers_partial",
    "Verif.Props.Echo.C171_rest_partial",
    "Verif.Props.Echo.C171_silent",
    "Verif.Props.Echo.C171_for_ever",
    "Verif.Props.Echo.C171_no_bound"
   ],
   "note": "Proved: if no program in echo mode has written to another one, then under every order of delivery what was delivered and what is to come are the messages and one answer each (`C171_answers_partial`), deliveries are bounded and at rest each was delivered once (`C171_rest_partial`); without echo mode nothing is sent (`C171_silent`). Refuted: one message between two programs in echo mode is answered for ever, whatever its text (`C171_for_ever`), with runs of every length (`C171_no_bound`). That messages arrive as they were sent is C106, C146; groups of the old kind are never handed over by the library (C170), and groups of the new kind are C131."
  },
  {
   "property": "C172",
   "status": "partial",
   "theorems": [
    "Verif.Props.Setup.C172_certificate_partial",
    "Verif.Props.Setup.C172_unreachable",
    "Verif.Props.Setup.C172_refusal_taken",
    "Verif.Props.Setup.C172_null_crashes",
    "Verif.Props.Setup.C172_identity_partial",
    "Verif.Props.Setup.C172_without_identity",
    "Verif.Props.Setup.C172_late"
   ],
   "note": "Proved: a certificate in the answer is stored, after exactly one request (`C172_certificate_partial`); no answer is reported (`C172_unreachable`); a start that reports success has the identity key if it registered or had a certificate before (`C172_identity_partial`). Refuted: neither the status nor the error of decoding is looked at, so every refusal counts as an empty certificate and the start as a success (`C172_refusal_taken`); the answer `null` crashes the program (`C172_null_crashes`); the error of the identity key is overwritten when there was no certificate, so that the start is a success without a key (`C172_without_identity`), and with a certificate it is reported only after a new profile key was stored and sent (`C172_late`)."
  },
  {
   "property": "C173",
   "status": "partial",
   "theorems": [
    "Verif.Props.ContactFile.C173_kept_partial",
    "Verif.Props.ContactFile.C173_stored",
    "Verif.Props.ContactFile.C173_unreadable",
    "Verif.Props.ContactFile.C173_damaged",
    "Verif.Props.ContactFile.C173_death",
    "Verif.Props.ContactFile.C173_unread",
    "Verif.Props.ContactFile.C173_reading",
    "Verif.Props.ContactFile.C173_put_back"
   ],
   "note": "Proved for all histories in which the file can be read and no write of it breaks off (writes may fail), with contacts that can be told apart: all contacts stay, only profile keys change, each to one announced in that name, and only those who announced a key are added (`C173_kept_partial`); an update that reports success is in the file (`C173_stored`), and nothing but such an update changes the file (`C173_reading`). Refuted: a file that cannot be read counts as empty and is replaced at the next announcement (`C173_unreadable`), as is one that is damaged (`C173_damaged`), so a death while writing loses all contacts (`C173_death`); before the contacts are read, and in echo mode always, no key is stored (`C173_unread`), and reading them puts the old key back (`C173_put_back`). Refreshing from the directory is C73, C74."
  },
  {
   "property": "C174",
   "status": "partial",
   "theorems": [
    "Verif.Props.C174_healing_partial",
    "Verif.Props.C174_window"
   ],
   "note": "First sentence proved for every schedule and every cut of it: all message keys follow from one first root key and the key pairs drawn, one for each change of direction; the session stored at the cut holds root key and private key of its owner's epoch; from two epochs later on each private key is the draw of a delivery after the cut (`C174_healing_partial`). Last sentence refuted, for every schedule: the copy opens what its owner sends next and every message of the next epoch (`C174_window`). That keys which take in an unknown private key cannot be guessed is no law of `Prims`."
  },
  {
   "property": "C175",
   "status": "partial",
   "theorems": [
    "Verif.Props.GroupAttach.C175_everyone_partial",
    "Verif.Props.GroupAttach.C175_uploaded_first",
    "Verif.Props.GroupAttach.C175_only_if_uploaded"
   ],
   "note": "First sentence proved for groups of the new kind, under the assumptions of C108 about the servers and of C166 about the group (`C175_everyone_partial`); their clients may crash (C94). Whatever the servers answer, a message goes out only after the content server has taken the whole encrypted file, and carries its keys and digest (`C175_only_if_uploaded`). Second sentence refuted: the file is uploaded before the group is looked at, so that for every group that is unknown or left the encrypted file is on the content server and the call fails (`C175_uploaded_first`). The recipients in groups of the old kind are C69."
  },
  {
   "property": "C176",
   "status": "partial",
   "theorems": [
    "Verif.Props.BackendEnd.C176_goes_on_partial",
    "Verif.Props.BackendEnd.C176_fatal_iff",
    "Verif.Props.BackendEnd.C176_not_restarted"
   ],
   "note": "First two parts proved for pipes that end in a read of its own, as those of the operating system do (`C176_goes_on_partial`), with the exact condition under which a clean end of the companion ends the client (`C176_fatal_iff`). Third part refuted: nothing starts the companion again, so in no schedule does a request reach one after its end, though requests are still taken without an error and their callers wait (`C176_not_restarted`)."
  },
  {
   "property": "C177",
   "status": "partial",
   "theorems": [
    "Verif.Props.Hidden.C177_like_open_partial",
    "Verif.Props.Hidden.C177_shown_again",
    "Verif.Props.Hidden.C177_identity_not_compared"
   ],
   "note": "Proved: once the companion has opened it, the same effect on the stored state, the same result and the same calls of the application, up to the sender's name (`C177_like_open_partial`; that the group code does not use the name is groupsv2.go:239-318). Refuted: the name is empty; the message is shown as often as the companion opens it, since the client keeps no record of it (`C177_shown_again`); and identities the client has pinned or the user has compared do not matter (`C177_identity_not_compared`). Whether the companion refuses repetitions and changed keys is outside the repository."
  },
  {
   "property": "C178",
   "status": "partial",
   "theorems": [
    "Verif.Props.BackendStop.C178_quiet_partial",
    "Verif.Props.BackendStop.C178_listener_ends",
    "Verif.Props.BackendStop.C178_told",
    "Verif.Props.BackendStop.C178_too_early",
    "Verif.Props.BackendStop.C178_goes_on"
   ],
   "note": "Success is reported exactly when the companion is interrupted (`C178_told`), and the listener ends within five steps of its own once the flag is set (`C178_listener_ends`). Quiet afterwards is proved for calls while the listener is not on the way to a connection: no connection from the call on, and only messages that had arrived are read (`C178_quiet_partial`). Refuted: a call during an attempt to connect reports success, then the connection is made and any number of messages is read (`C178_goes_on`); a call before the first attempt fails, and after it every call fails, so that the companion is never interrupted (`C178_too_early`)."
  },
  {
   "property": "C179",
   "status": "partial",
   "theorems": [
    "Verif.Props.Deadline.C179_given_up",
    "Verif.Props.Deadline.C179_kept_partial",
    "Verif.Props.Deadline.C179_kept_sharp",
    "Verif.Props.Deadline.C179_backlog",
    "Verif.Props.Deadline.C179_progress"
   ],
   "note": "The second half is proved without restriction (`C179_given_up`). The first half is proved, for any number of pings, when an answer takes `r` and the messages between two answers take `b` to handle, `r + b` below six seconds (`C179_kept_partial`), and the bound is sharp (`C179_kept_sharp`). Refuted otherwise: answers are noticed only behind the messages that wait, so whenever these take a minute together the connection is given up with everything behind them unread, though every ping has been answered (`C179_backlog`); of the messages that wait, those that fit into the minute are read (`C179_progress`). What the websocket reads ahead, at most 1024 bytes, is not modelled."
  },
  {
   "property": "C180",
   "status": "partial",
   "theorems": [
    "Verif.Props.Logging.C180_level",
    "Verif.Props.Logging.C180_handled_partial",
    "Verif.Props.Logging.C180_contents_written",
    "Verif.Props.Logging.C180_key_written",
    "Verif.Props.Logging.C180_sender_written"
   ],
   "note": "The level is decided as stated, unknown names meaning information (`C180_level`). Proved for contents with a part that has a handler and for contents that cannot be parsed (`C180_handled_partial`). Refuted otherwise: all other contents are logged in full as an error, hence at every setting (`C180_contents_written`), among them every message that hands over the key of someone's group messages (`C180_key_written`); the sender of each sealed message is logged unless the level is set to warnings or errors (`C180_sender_written`). The lines of the handlers themselves are not modelled."
  },
  {
   "property": "C181",
   "status": "partial",
   "theorems": [
    "Verif.Props.Avatars.C181_latest_partial",
    "Verif.Props.Avatars.C181_saved",
    "Verif.Props.Avatars.C181_lost",
    "Verif.Props.Avatars.C181_removed_stays",
    "Verif.Props.Avatars.C181_removal_unnoticed",
    "Verif.Props.Avatars.C181_other_account",
    "Verif.Props.Avatars.C181_never_made",
    "Verif.Props.Avatars.C181_not_made"
   ],
   "note": "Proved for all sequences of calls with plain names, without another `Setup` and without files left half written, whichever directories and files can be made (`C181_latest_partial`); saving succeeds with a working disk (`C181_saved`). Refuted otherwise: a write that fails has already emptied the old file (`C181_lost`); no picture cannot be saved, so that the old one stays (`C181_removed_stays`), and a profile that comes without a picture changes nothing (`C181_removal_unnoticed`); the directory of the first account is kept for every later one (`C181_other_account`); and if making the directory fails once it is never tried again (`C181_never_made`, reached by `C181_not_made`). Names that are not plain: C86."
  },
  {
   "property": "C182",
   "status": "partial",
   "theorems": [
    "Verif.Props.Redis.C182_published_partial",
    "Verif.Props.Redis.C182_all",
    "Verif.Props.Redis.C182_silent",
    "Verif.Props.Redis.C182_clients",
    "Verif.Props.Redis.C182_text_written",
    "Verif.Props.Redis.C182_text_hidden"
   ],
   "note": "Published are exactly the texts of the messages that arrive while redis can be reached, once and in order (`C182_published_partial`), all of them without interruptions (`C182_all`). Refuted: the result of `Publish` is dropped, the log being the same with and without an interruption (`C182_silent`); a client of redis is made for each message and never closed (`C182_clients`); each text is logged at the default level (`C182_text_written`), though not at the levels for warnings and errors (`C182_text_hidden`). Under which name it is published: C132. Messages without text are published too."
  }
 ]
}