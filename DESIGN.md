# Formal model of signal-golang/textsecure (Lean 4)

Source modelled: `/repo` (read as text only; never built or run).
Properties: `properties.jsonl`. Status per property: `MANIFEST.json`.
Log of wrong programs tried: `seeded/LOG.jsonl`.

Build: `cd lean && lake build`. Modules: `Verif/Model/*` the code, `Verif/Spec/*` specifications
written without the model's helpers, `Verif/Proof/*` lemmas, `Verif/Props/*` the property theorems and, beside
them, concrete cases that meet their hypotheses.

## Trusted base

* Lean 4.33.0 kernel. Every theorem named in `MANIFEST.json` depends on at most `propext`,
  `Classical.choice` and `Quot.sound` (checked with `#print axioms`; many need fewer). There are no axioms of
  our own, no `sorry` or `admit`, no `native_decide`, no `bv_decide`. `decide +kernel` is used for closed
  facts (witnesses of refutations, examples, facts about all 256 bytes); it is checked by the kernel.
* Mathlib (imported one module at a time) for lists, permutations, groups; only proved facts of it are used.
* The reading of the Go text. Every definition of the model cites the file and lines it models and
  says what is simplified. Nothing ties the model to compiled code.
* Assumed laws of things outside the repository. They are *fields of a structure passed as a parameter*,
  never axioms, and each structure has a concrete instance, so no theorem is vacuous:
  * `Prims` (`Verif/Prims.lean`): HMAC-SHA256, SHA-256/512, HKDF, AES block functions,
    Curve25519, signature verification. Laws: output lengths, `aesDec k (aesEnc k b) = b` on 16-byte blocks,
    `dh a (pub b) = dh b (pub a)`. No collision-resistance or unforgeability law is assumed (for
    functions on all byte strings such laws would be inconsistent). Where a claim needs one, it is an explicit
    hypothesis of the theorem about the messages at hand (`NoForgery` in C02, "unless the MAC collides" in C31).
    Instance: `Prims.toy`.
  * `Sign.Ed` (`Verif/Model/Sign.lean`): the curve group, its encoding and the Montgomery/Edwards
    correspondence. Instance: `Props.Sign.toyEd`.
  * `Gcm` (`Verif/Model/Gcm.lean`): opening what was sealed gives it back; lengths. Instance: `Gcm.toy`.
* Modelled concretely rather than assumed: the protobuf wire format, base64, hex, decimal formats, CBC and
  padding, the regular expressions used, sorting of file names.
* File system: a map from file names to contents. One `WriteFile` or `Remove` is atomic (torn writes are
  modelled for C31 only). Failing writes are modelled where the code looks at, or drops, their errors.
* Randomness is an explicit argument of every function that draws it. `math/rand` (profile keys and nonces) is a
  fixed sequence, since the code never seeds it.
* Go panics (index out of range, nil dereference, explicit `panic`, `log.Fatal`) are explicit outcomes
  (`Res.panic`), never totalised away.

## What is modelled

| Module | Code |
|---|---|
| `Bytes`, `Prims` | byte strings, crypto parameter structure |
| `Model/Cbc` | axolotl/crypto.go, symmetric part of crypto.go |
| `Model/Wire` | protobuf wire format |
| `Model/Keys`, `Model/Messages` | axolotl/keys.go, axolotl/messages.go |
| `Model/Session` | axolotl/ratchet.go, in-memory part of axolotl/session.go |
| `Model/Api` | axolotl/session.go:375-701 over the stores of store.go: builders and ciphers, with ordered writes |
| `Model/Record` | session record (de)serialisation |
| `Model/Concurrent` | the same calls as sequences of file accesses, interleaved, with the mutex |
| `Model/Names`, `Model/Files` | file names; encrypted store files, attachments, provisioning, transport, message padding |
| `Model/PreKeys` | prekeys.go, prekey part of store.go, axolotl/prekeys.go |
| `Model/Register` | registration part of `Setup`, `registerDevice`, identity files, signed prekey files |
| `Model/Fingerprint`, `Model/Encoding`, `Model/Sign` | fingerprint/, key and uuid text encodings, curve25519sign/ |
| `Model/Receive` | websocket.go listener and writer, textsecure.go:470-673, handler.go, incoming half of sync.go |
| `Model/Send` | `makePreKeyBundle`, server.go:749-956, sender.go |
| `Model/GroupsV1`, `Model/GroupsV2` | groups.go; groupsv2/ groupAuth, groupChange, groupModify, groupValidator |
| `Model/Regex`, `Model/Contacts`, `Model/Sync` | sync.go:150, server.go:643 patterns; contacts/contacts.go; outgoing half of sync.go |
| `Model/Gcm`, `Model/Discovery` | contactDiscoveryCrypto/, `GetRegisteredContacts` |
| `Model/Profile`, `Model/Start` | profiles/, crypto/aesgcm.go, profile and certificate part of `Setup`, unidentifiedAccess/ |
| `Model/Crayfish` | request/reply pattern of crayfish/ |
| `Model/GroupStore` | groupsv2/ (copies of new groups: lookup, update from the server, messages, changes, joining, credentials), `sendGroupV2Helper` |
| `Model/Attest` | contactsDiscovery/remoteAttestationUtil.go, the whole of `GetRegisteredContacts` (server.go) |
| `Model/Paths` | the paths of store.go and profiles/avatars.go, with `filepath.Join` of the Go library |
| `Model/Content` | the protocol buffers of message contents, envelopes and websocket frames (the code generated from protobuf/*.proto, as far as the client uses the fields), `getAttachmentLocation` (attachments.go), `sendAck` (websocket.go) |
| `Model/Http`, `Spec/Http` | transport/transport.go (addresses and headers of all requests), attachments.go (upload, download), `SendAttachment`, `SendVoiceNote`, link.go, and of server.go: codes, linking and unlinking devices, `GetMyUUID`, checked `PUT`s. `Spec/Http` is the service and the content server |
| `Model/Identity` | `MyIdentityKey`, `ContactIdentityKey`, `GetFingerprint` (store.go) |
| `Model/AtRest` | `setupStore`, `newStore`, `readFile`, `writeFile` (store.go) over several runs |
| `Model/Gateway`, `Spec/Gateway` | cmd/textsecure/main.go: the HTTP gateway (without `/groups`), `messageHandler`, the command line (without the flags of linked devices). `Spec/Gateway` has an automaton for JSON |
| `Spec/Linked` | two devices of one account over `sendMessage` (sender.go) and `handleSyncSent` (sync.go): what was written and what should be shown |
| `Model/Config` | config.go, profile.go, the saving of the configuration in textsecure.go and server.go; rootCa/rootca.go. YAML is a parameter with a round-trip law |
| `Model/Backend` | crayfish/backend.go: finding and starting the companion, the connection to it and its writers (without pings and `Stop`) |
| `Model/Outbox`, `Model/Answers` | the state of `Model/Send` as the receive path uses it; the messages sent in answer (sync.go, handler.go) |
| `Model/Reader`, `Model/Account`, `Model/Listening` | readers of attachments (mime type, reading whole); the account attributes (server.go); `StartListening` and `StopListening` (websocket.go) |
| `Model/Companion`, `Model/Dialogue`, `Model/Setup` | reading what the companion sends (crayfish/backend.go:288-372); the dialogue of a registration (textsecure.go, crayfish/register.go); the start as a whole with transport/unidentifiedCert.go |
| `Model/Maps` | the maps all goroutines share, as sequences of accesses (sender.go, server.go, contacts/contacts.go, groups.go) |
| `Model/GroupTalk`, `Model/GroupAttach` | the group context of messages between clients; `SendGroupAttachment`, `SendGroupVoiceNote` (groups.go) |
| `Model/BackendEnd` | output and end of the companion process (crayfish/backend.go:137-193) |
| `Model/BackendStop` | stopping the companion process (crayfish/backend.go:264-386) |
| `Model/Deadline` | pings and the read deadline of both connections (websocket.go:19-29, 107-229; crayfish/backend.go:40-50, 228-348) |
| `Model/Logging` | the log level and the lines on the way to the handlers (textsecure.go:235-260, 640-672; handler.go:11-39) |
| `Model/Avatars` | the pictures of contacts on disk (profiles/avatars.go:41-118) |
| `Model/Redis` | publishing what arrives (cmd/textsecure/main.go:146-158, 260-264) |
| `Model/ByNumber`, `Model/ContactFile` | profiles looked up by number (profiles/profile.go); the file of contacts over several starts (contacts/contacts.go) |
| `Model/Console`, `Model/Shown`, `Model/Echo`, `Model/Listing` | of cmd/textsecure/main.go: reading the console, what is shown of a message, echo mode, the list of groups |
| `Spec/Conversation`, `Spec/Network`, `Spec/Mailbox`, `Spec/Crossing`, `Spec/StartOver`, `Spec/OldSessions` | two or more clients over a network that loses, repeats and reorders; mailboxes of the server; sessions begun at the same time or anew |
| `Spec/Ratchet`, `Spec/Protocol`, `Spec/Theft`, `Spec/Healing`, `Spec/Growth` | the published protocol; the keys that follow from a stored session, and from the key pairs drawn; what is kept for skipped messages |
| other modules under `Spec` | what a property asks for, apart from the model: named after the module they belong to |
Not modelled: the HTTP, TLS, JSON and YAML libraries (their outcomes are parameters; of HTTP, the parsing of addresses, the names of headers and basic authentication are modelled), zkgroup, the crayfish
process itself, certificate-chain checking (the code for SGX quotes is commented out in the repository), logging, rendering of QR codes, the
application's callbacks (an opaque outcome), the clock (a parameter), the Go memory model (memory is taken
to be sequentially consistent), resource limits.

## Conventions

* "Refuted" means that the property as stated is false of the code. The disagreement is a theorem: the negation
  with a concrete witness, or for all inputs of some kind. What does hold is proved next to it; a theorem
  whose name ends in `_partial` proves only part of the property, and its comment says what is missing.
* A call is the list of its persistent writes in order, and a result. Dying after `k` writes is `take k`.
* Counters are `Nat` with an explicit `% 2^32` where Go wraps.


## Disagreements between properties and code

Each is a theorem; witnesses are in its statement.

* **C04** A sending key is used twice: replaying a message of an archived session promotes it and rolls the sending chain back (`C04_key_reuse_after_replay`).
* **C06** A message is accepted twice, by the same promotion of an archived session (`C06_replay_accepted_after_promotion`).
* **C12** `GetSubDeviceSessions` lists devices of other recipients (`C12_lists_other_recipients`).
* **C13** An unreadable session file is silently replaced by an empty session (`C13_unreadable_is_replaced`).
* **C15** A prekey message that fails authentication still pins its identity key (`C15_failed_message_pins_identity`).
* **C16** An old message in a new envelope removes an unrelated one-time prekey (`C16_wrong_prekey_removed`).
* **C17** Prekeys with id 0 are generated and published but first messages that use them fail (`C17_prekey_zero_unusable`, `C17_signed_prekey_zero_unusable`).
* **C18** A crash between the writes of a first message loses it for good (`C18_crash_loses_first_message`, `C18_crash_after_store_loses_message`).
* **C22** `BuildSenderSession` takes no lock: lost updates (`C22_concurrent_build_loses_encryption`, `C22_concurrent_encryption_loses_build`).
* **C25** The message parsers panic on empty input and on keys of wrong length (`C25_parsers_can_panic`).
* **C28** Decryption panics on the empty string and on bad padding bytes (`C28_decrypt_can_panic`).
* **C31** A store file truncated below 32 bytes panics (`C31_truncated_file_panics`).
* **C32** Profile avatars are never accepted by the attachment code (`C32_profile_avatar_never_accepted`; the property itself holds).
* **C34** If the MAC of an incoming transport message is wrong, its raw bytes are processed (`C34_unauthenticated_bytes_processed`).
* **C35** Verification changes the caller's signature, so a second verification can fail (`C35_signature_clobbered`, `C35_second_verification_fails`).
* **C36** Safety numbers of users with equal digit groups crash (`C36_equal_users_crash`).
* **C40** Near the top of the id range the last-resort prekey is overwritten or another is published for it (`C40_wrong_last_resort`).
* **C44** Messages that failed are acknowledged, so the server deletes them (`C44_failed_message_acked`, `C44_undecryptable_acked`).
* **C45** Messages with the legacy address form are decrypted and then dropped (`C45_legacy_message_lost`).
* **C47** Contents with absent fields crash the client (`C47_contents_that_crash`, `C47_frames_that_crash`).
* **C48** END_SESSION combined with another flag is ignored (`C48_combined_flags_ignored`).
* **C49** A listed device without prekeys blocks every message (`C49_unregistered_device_blocks`); attempts are unbounded (`C49_attempts_unbounded`).
* **C51** Legacy group context is never sent (`C51_legacy_group_dropped`).
* **C52** A member listed twice stays after quitting (`C52_duplicate_stays`); incoming legacy group updates are ignored (`C52_incoming_ignored`).
* **C53** A left group is still found and written to until the next restart (`C53_still_there`).
* **C55** A rejected change, or inviting taken alone, can list someone twice (`C55_rejected_overlap`, `C55_invite_overlap`; accepted changes never do).
* **C56** A rejected change of title stays in memory (`C56_rejected_title_stays`).
* **C57** `ModifyGroup` accepts no change at all (`C57_never_accepted`).
* **C58** Rights are checked against the group as already changed (`C58_right_gained`, `C58_right_lost`, `C58_join_then_edit`).
* **C59** The description is held to the title's limit (`C59_description_limit`; recorded, the property holds of the code's own limits).
* **C62** Names ending in a zero byte lose it (`C62_zero_lost`).
* **C63** Replies of the companion process are lost or swapped between callers (`C63_reply_lost`, `C63_later_reply_lost`, `C63_replies_swapped`).
* **C64** A late message of an archived session can break the current one (`C64_late_message_breaks_newer_session`).
* **C66** A malformed one-time prekey in a reply crashes; a reply for another device overwrites its session and crashes (`C66_bad_prekey_crashes`, `C66_other_device_overwritten`).
* **C67** A failing sync transcript is a nil dereference (`C67_failed_transcript_crashes`).
* **C70** Creating a group that names oneself lists oneself twice (`C70_own_number_twice`).
* **C71** Inviting, adding and asking to join are always refused (`C71_invite_refused`, `C71_add_refused`, `C71_request_refused`).
* **C72** The UUID check accepts `|` in the variant position (`C72_bar_accepted`).
* **C73** Contacts outside the address book are forgotten (`C73_forgotten`).
* **C74** Unregistered contacts are lost at a restart (`C74_lost_at_restart`).
* **C76** One number with a separator makes the whole contact refresh fail (`C76_one_number_spoils_all`).
* **C77** Short discovery replies and nonces of another length crash (`C77_short_reply_crashes`, `C77_bad_nonce_crashes`). So do exactly the odd attestations of `C77_attestation_crashes`, and a null response (`C77_null_response`).
* **C78** Every installation draws the same profile key (`C78_same_key`, `C78_same_key_first`, `C78_names_readable`).
* **C79** Nonces repeat across starts (`C79_nonce_reused`).
* **C80** The stored profile key is ignored and replaced (`C80_key_replaced`, `C80_stored_key_ignored`).
* **C81** `GetProfile` returns ciphertext (`C81_ciphertext_returned`, `C81_name_never_shown`).
* **C82** The profile key credential is stale after every restart (`C82_credential_stale`).
* **C83** A missing profile is reported as an empty one (`C83_missing_is_empty`).
* **C84** The answer's UUID decides which contact is replaced (`C84_other_contact_overwritten`); `C84_empty_key`.
* **C85** Avatars of 1 to 11 bytes crash (`C85_short_avatar_crashes`).
* **C86** Ids are not checked: a sender announced as `x/../V` has the session file of `V` but another identity file, so V's session can be replaced although V's identity is on record (`C86_session_of_another`); the other theorems about sessions (C10 and so on) identify files with ids, which is right for ids without a slash. An avatar can be written to any file, the own identity key included (`C86_avatar_anywhere`, `C86_server_writes_files`).
* **C87** Expired sender certificates are kept (`C87_expired_kept`); unreadable ones crash (`C87_unreadable_crashes`).
* **C88** The error of deriving an access key is dropped (`C88_error_dropped`).
* **C92** A registration whose prekeys did not reach the server is never finished (`C92_never_published`, `C92_crash`); the error of writing the signed prekey is dropped (`C92_signed_not_stored`).
* **C94** A message naming an unknown group crashes the client when the server does not hand the group out, again after every restart (`C94_unknown_group_crashes`).
* **C95** An answer that does not decrypt empties the group in memory and asking for its members then crashes (`C95_bad_answer_wipes`).
* **C96** Once one group is in memory, groups that are only on disk are not found (`C96_second_lookup_fails`).
* **C97** Every message to a group is also sent to the sender's own account (`C97_sent_to_self`).
* **C98** The server's refusal of a request to join is ignored (`C98_refusal_ignored`); an empty invitation crashes (`C98_empty_invitation_crashes`).
* **C99** Group credentials are fetched once and never renewed (`C99_never_renewed`).
* **C100** Signed changes are not bound to group or revision (`C100_not_bound`) and are reported again later (`C100_shown_again`).
* **C101** The sender of a group message is not checked (`C101_any_sender`).
* **C103** The error of saving is ignored (`C103_not_saved`); members who are dropped are not told (`C103_removed_not_told`).
* **C105** The functions that check quote and signature are commented out: whoever answers with keys of their own reads the whole address book (`C105_any_party`, `C105_not_looked_at`).
* **C109** The status of the answer to the request for an upload form is not looked at, and `relativePath` slices after the third slash: a refusal with a JSON text without an address (429, `{}`) crashes the program, as does an accepted request without `Location` (`C109_refusal_crashes`, `C109_no_address_crashes`).
* **C111** The error of `http.NewRequest` is ignored: a pointer whose key ends in `%` crashes every recipient (`C111_pointer_crashes`). The status is ignored: any answer shorter than 32 bytes crashes (`C111_answer_crashes`). `C111_crash_iff_partial` gives the exact condition.
* **C112** The content server gets the password twice with each upload (`C112_password_to_content_server`); all transporters skip the check of certificates (`C112_any_certificate`).
* **C113** The literal in `newHTTPTransporter` gives the fields in another order than the struct declares them: the proxy setting is announced as the user agent (`C113_proxy_announced`), and the user agent never appears (`C113_agent_not_announced`).
* **C115** Neither the status nor the text of the answer with the code is checked: a refusal leads to an envelope with an empty code and reported success (`C115_missing_code_sent`).
* **C116** `code2` is kept until a timer of ten seconds clears it, and for good if the attempt fails: the next device gets the same code (`C116_code_given_twice`, `C116_failure_keeps_code`).
* **C117** `unlinkDevice` and `getLinkedDevices` look at no status (`C117_unlink_always_succeeds`, `C117_list_always_succeeds`).
* **C118** `handleFlags` deletes every session with the sender, also one begun after the message was sent: if a message of the new session overtakes the end of the old one, the new session is lost with everything sent in it later (`C118_overtaken_end_loses`). The reference protocol archives the current session instead.
* **C119** A first message built on the last-resort prekey (which is never used up) and delivered again after the reset begins a session anew: it is shown again, and answers in that session are lost (`C119_shown_again`). The reference protocol keeps the archived session and recognises it.
* **C120** A transcript from anyone may tell to end the session with the peer (C121): `C121_forged_transcript` shows it in the middle of the talk that is the example of C120. The partial theorem leaves out contents that tell to end the session.
* **C121** `handleSyncMessage` (sync.go:18-82) is called for every content with a sync part (handler.go:21-23) and is not told who sent it. `C121_sender_ignored`: the outcome is the same for all senders. `C121_stranger_ends_sessions`: by a transcript with the END_SESSION flag any correspondent deletes the sessions with any account. `C121_forged_transcript`: Carol ends Bob's session with Alice, Bob's application is shown a message Bob never sent, and what Alice sends next is lost.
* **C122** In one case: two users whose six groups of digits coincide (oneself, for instance): `compareFingerprintBlocks` runs past the end (C36), `C122_same_groups_crash`.
* **C123** `UnencryptedStorage` unset, no password in the configuration and an empty answer of the application: everything is written in plain (`C123_empty_password_writes_plaintext`; store.go:49, 464-470). Opening a plain store with a password panics at the registration id (`C123_turning_encryption_on_crashes`); opening an encrypted one without password takes ciphertext for content (`C123_turning_encryption_off_unnoticed`). Files are not bound to their names (`C123_moved_file_accepted`). Groups, contacts and the configuration (with the profile key) are written in plain whatever the setting (groups.go:63, groupsv2/groupsv2.go:353, contacts/contacts.go:95, config.go:60); they are not part of the model of C123.
* **C125** `ApplyPromoteMembersPendingProfileKey` edits the encrypted list of the group context only (groupChange.go:389-402); the list of members and the list of invited people stay (`C125_accepting_changes_nothing`). In `ModifyGroup` as it is the applicator has no validator, so every acceptance panics before (groupModify.go:26).
* **C126** `C126_old_contents` (the end of a longer old file in /tmp is sent behind the upload), `C126_upload_lost` (an upload that cannot be stored is left out and success reported).
* **C127** `C127_left_behind`, `C127_others_file_lost`.
* **C128** `C128_old_groups`: no group of the old kind can be addressed.
* **C129** `C129_uuid_kept`: an identity stored under a UUID cannot be removed.
* **C130** `C130_crashes` (a message that is no text: no answer), `C130_not_json` (an error text with a quote).
* **C131** `C131_echo_private`: the echo of a message in a new group goes to its sender alone.
* **C132** `C132_twice`, `C132_wrong_name`.
* **C133** `C133_nameless`, `C133_stops_iff`, `C133_update_stops`, `C133_colon`.
* **C134** `C134_end_not_shown`: `handleFlags` calls `axolotl` deletion with the number of the recipient, which is empty for an id; the error stops the handling of the transcript.
* **C135** `C135_own_key_recorded`: `handleSyncSent` takes the key of the transcript, the user's own, for the recipient's.
* **C136** `C136_first_to_itself`: without a list of devices the first transcript is encrypted for device 1, also by device 1 itself.
* **C137** `C137_interrupted`, `C137_own_not_saved`: `WriteConfig` truncates the file in place; `saveConfig` writes to the name only `ReadConfig` sets.
* **C138** `C138_not_used`: `RefreshConfig` writes the loaded configuration back but does not assign it.
* **C139** `C139_absent`, `C139_unreadable`.
* **C140** `C140_crash`: `go crayfish.Run()` comes before the check of the error and dereferences the configuration.
* **C141** `C141_here_ignored`, `C141_litter`: the test for `./crayfish` opens it with `O_CREATE|O_EXCL`, so it succeeds exactly if the program is not there.
* **C142** `C142_lost`, `C142_early`.
* **C143** `C143_old_account`: `LocalUUID` is read once, before registration.
* **C145** `C145_lost`: the session is stored before the application is told; there is no record of what was told.
* **C147** `C147_overlap_crashes`, `C147_wrong_connection`, `C147_stop_ignored`: from the end of the dial on, every call of `StartListening` uses the shared variable `wsconn`; `StopListening` does nothing while its `ws` is nil.
* **C148** `C148_anyone_makes_write`, `C148_anyone_crashes`: a sync message from anyone is obeyed: a verification naming an account makes the client write to that account (beginning a session, pinning its key); a request for contacts ends the client if the answer cannot be sent (sender.go: `sendSyncMessage` dereferences the nil response).
* **C149** `C149_gap`, `C149_gap_received`: the error of `io.CopyN` in `MIMETypeFromReader` is dropped; a failure within the first 1024 bytes that is not repeated leads to a truncated or gapped file, sent and received as if whole.
* **C150** `C150_wrong_access_key`: `SetAccountCapabilities` derives the announced access key from the private identity key; `C150_found_by_number`: discoverability is always switched on; `C150_accepted_but_error`: an error of the profile request after acceptance leaves server and configuration different; `C150_before_setup`: nil dereference.
* **C151** `C151_ignored`: contacts in a sync message are not handled; `C151_crashes`: `sendSyncMessage` dereferences the nil response when sending failed.
* **C152** `C152_first_messages_stay_readable`: `initializeSenderSession` (axolotl/ratchet.go:201) also stores the first sending chain key as the receiving chain of the signed prekey, where it is never advanced, so a copy of the session file opens everything sent before the first answer, until five later turns have pushed that chain out; `C152_read_message_stays_readable`: the copy that promoteState leaves among the archived sessions still opens a message that was read.
* **C153** `C153_second_messages_cross`: an attempt to decrypt with the current session performs the ratchet step before authentication (axolotl/session.go:703-730, 627-657) and the changed state is stored when an archived session is promoted (lines 611-625); when the second messages cross, both sessions end up out of step on both sides and the two clients can no longer read each other. `C153_read_twice`: the session gone back to also stays among the archived ones (lines 310-316), so a later message that comes twice is read twice.
* **C154** `C154_late_message_breaks_new_session`: a late message of the older session is opened by the archived session, but the failed attempt on the new session has already performed a ratchet step there (axolotl/session.go:703-730), which is stored with the promotion (lines 611-625); everything the receiver sends afterwards is unreadable for the peer.
* **C155** `C155_told_three_times`, `C155_told_at_every_start`: `RegistrationDone` is called twice at the end of registerDevice (textsecure.go:462-468) and again by every Setup (line 315). `C155_handler_needed`: the first call comes before the comparison with nil, and that in Setup has none; a client without it crashes after its account was registered. `C155_any_answer_is_an_account`: crayfish/register.go:74-95 does not look at the type of the answer nor whether it has a UUID; an account 00000000-… is saved. `C155_refusal_not_heard`, `C155_refused_code_waits`: CrayfishRegister waits for no answer, and answers of type 1 are dropped (crayfish/backend.go:366-372), so that a refused request is not noticed and a refused code hangs Setup.
* **C156** The six `C156_*clash*` theorems: `deviceLists` (server.go:881), `contacts.Contacts` (contacts/contacts.go:50) and `groups` (groups.go:39) are used by the listener and by the application without a lock. Go ends a program that is caught writing to a map in use.
* **C157** `C157_not_whole_crashes`: `{"type":1}` or `{"type":2,"response":{}}` dereferences a nil pointer in the log line (crayfish/backend.go:362, 367), in a goroutine that nothing recovers. `C157_unasked_answers_deafen`: the channel holds one answer (crayfish/envelope.go:35); with a second one the reader waits in line 369 for ever, reads no more, and every later call waits for ever.
* **C158** `C158_unbounded`: the code limits the step from one message to the next (axolotl/session.go:749-751), and not the number of keys kept, which libsignal limits to 2000 in a chain. A contact that leaves out 2000 numbers with each message makes the client compute, keep and rewrite to disk 2000 more keys each time.
* **C159** `C159_absent_prekey_named`: axolotl/messages.go:188-195 sets `PreKeyId` always; the documents leave the field out if no one-time pre-key was used. A client following them looks for its pre-key 0.
* **C160** `C160_all_groups_forgotten`: groups.go:102 looks for `avatar` in the whole path instead of in the name of the file. With a storage directory such as `/home/avatar/.storage`, every group is gone at each start.
* **C162** `C162_only_fewer`, `C162_never_renewed`: generatePreKeys, generateSignedPreKey and registerPreKeys are called from the registration only (textsecure.go:445-453). After a hundred first contacts all others use the prekey of last resort, and the signed prekey is the same for the life of the installation, so that first messages lose the forward secrecy the one-time keys give.
* **C163** `C163_document_loses_last`: the client writes the number of the last message of its previous chain into the header (axolotl/session.go:723-727), the document has the number of messages. A peer that follows the document keeps one key too few: the last message of each chain is lost if a message of the next chain overtakes it. (Signal's own implementations write the same number and never read it.)
* **C164** `C164_report_partial` (only if), `C164_no_editor`: of a change by which an invited person joins, or which renames the group, nothing is reported but the revision; the editor is decrypted for the log and dropped (groupsv2/groupActions.go:47-50, 97-134).
* **C165** `C165_other_directory`, `C165_new_groups_missing`, `C165_one_bad_file`: the handler walks the fixed path `.storage/groups`, does not look at `groupsv2`, and returns the error of a file to `filepath.Walk`, which ends the walk (cmd/textsecure/main.go:333-348).
* **C167** `C167_pipe_loses`, `C167_long_line`: `readLine` makes a new `bufio.Reader` for each line, whose buffer is thrown away with all that was read beyond the line, and ignores `isPrefix` (cmd/textsecure/main.go:98-106).
* **C168** `C168_shown_for_each_member`: `sendGroupV2Helper` calls `sendMessage` for each member, which sends a transcript of its own each time (groups.go:231-246; sender.go:41-51); `FindGroup` looks on disk only while the map is empty (groupsv2/groupsv2.go:103-113), and `handleGroupsV2` of groups.go returns nil without an error.
* **C169** `C169_answer_or_crash`: `GetProfileE164` logs the errors of the request and of the decoder and goes on with a nil response or an empty profile, drops the error of `GetRemoteAvatar` and reads from its nil result (profiles/profile.go:347-363); every path ends in `return c, nil` or a panic. `C169_name_and_picture_lost`: the key given to `decryptAvatar` is the text of the identity key instead of the profile key (line 365), and name and picture are replaced without condition (lines 373-377).
* **C170** `C170_half_day`: the format is `"Mon 03:04"`, where `15` would be the hour of 24 (cmd/textsecure/main.go:281). `C170_far`: `int64(ts)*1000000` overflows (line 284). `C170_forged`: the text is printed as it came (lines 233, 240). `C170_nameless`: names are looked up by number (lines 301-306, 593-596), but the source is the UUID, or empty for sealed messages (textsecure.go:608, 636, 663); `pretty` looks at `Group()`, which the library never sets for messages it delivers (handler.go:90-106).
* **C171** `C171_for_ever`, `C171_no_bound`: messages are answered in echo mode whoever sent them (cmd/textsecure/main.go), so two such programs answer each other without end.
* **C172** `C172_refusal_taken`: neither the status nor the decoding error of the certificate request is looked at; `C172_null_crashes`: the answer `null`; `C172_without_identity`, `C172_late`: the error of reading the identity key is overwritten or reported late.
* **C173** `C173_unreadable`, `C173_damaged`, `C173_death`: a contact file that cannot be read counts as empty and is replaced; `C173_unread`, `C173_put_back`: keys announced before the contacts are read are lost.
* **C174** `C174_window`: a copy of the session opens what its owner sends next and every message of the next epoch; this is so in the published protocol too.
* **C175** `C175_uploaded_first`: `SendGroupAttachment` uploads before the group is looked up (groups.go:313-320), so that for an unknown group the file is on the server and the call fails.
* **C176** `C176_not_restarted`: nothing starts the companion again after its end, while requests are still accepted and wait; `C176_fatal_iff`: `copyAndCapture` returns `io.EOF` as an error if it comes with the last bytes (crayfish/backend.go:177-184), and then `log.Fatal` ends the client (164-166).
* **C177** `C177_shown_again`, `C177_identity_not_compared`: sealed messages are opened by the companion alone (textsecure.go:641-667); the client neither remembers them nor compares the sender's identity key, and passes an empty name (line 663).
* **C178** `C178_too_early`: `StopListening` fails while `wsconn` is `nil`, and `Stop` returns before the interrupt (crayfish/backend.go:351-354, 376-379), with `stopping` set for good; `C178_goes_on`: the flag is tested before the attempt to connect only (line 270).
* **C179** `C179_backlog`: pongs are seen only inside `ReadMessage`, behind the messages that wait, and messages do not move the read deadline (websocket.go:159-167); messages whose handling takes a minute together cost the connection.
* **C180** `C180_contents_written`, `C180_key_written`, `C180_sender_written`: contents without a known part are logged in full as an error (handler.go:31, 36), sender key distribution messages included, and the sender of a sealed message at the default level (textsecure.go:657).
* **C181** `C181_lost`, `C181_removed_stays`, `C181_other_account`, `C181_never_made`: `os.Create` empties the old picture before the new one is written, an empty picture is refused, and `avatarsPath` is set once, before the directory is made (profiles/avatars.go:83-118).
* **C182** `C182_silent`, `C182_clients`, `C182_text_written`: nobody looks at the result of `Publish`, each message makes a client that is never closed, and each text is logged at the default level (cmd/textsecure/main.go:146-158, 261).

## Per property

* **C01 Key agreement on first contact** — proved, in `Props/Conversation`. Both initialisers over `Prims`; the derived secrets agree by the DH law; then encrypt, serialise, parse and decrypt on the API model. End to end through the API model: build, encrypt, parse, decrypt; chains and roots match.
* **C02 Conversation correctness under every schedule** — proved, in `Props/Conversation`. Two-party transition system; inductive invariant (`Proof/Conversation`) relating both session states to the abstract machine of `Spec/Conversation`. Refinement to an abstract machine for every finite schedule. Hypotheses: distinct fresh ratchet keys, fewer than 2^32-1 events, and that a message of a forgotten epoch does not authenticate under an unrelated key (cryptographic assumption, explicit).
* **C03 Out-of-order window is exactly 2000** — proved, in `Props/Ratchet`. Induction over the chain steps. Both directions: accepted up to 2000 ahead, refused beyond with nothing written.
* **C04 No message key is used twice for sending** — partial, in `Props/Replay`. History with crashes and failing writes; invariant: every header released lies below the stored position. False of the code: replay after promotion of an archived session rolls the sending chain back (witness proved). Proved: no reuse in any history, with crashes and write failures, in which messages are decrypted by the current session.
* **C05 Failed decryption does not change the stored session** — proved, in `Props/Store`. Frame theorem over every path of both decryption calls. Every path, every store, every write failure.
* **C06 At-most-once delivery** — partial, in `Props/Replay`. False of the code: a message is accepted again after its archived session was promoted (witness proved). Proved: an accepted message is refused as long as no archived session is promoted.
* **C07 Bounded session state** — proved, in `Props/Store`. Invariant over API histories (`Proof/Invariant`). All histories with crashes and failing writes. The number of skipped message keys per chain is not bounded by the code and not claimed.
* **C08 Skipped-key bookkeeping is exact** — proved, in `Props/Ratchet`. Induction over the accepted messages against a set-level specification. Stored keys are exactly the skipped, not yet used ones, for every order of messages.
* **C09 Plaintext is only released for authenticated messages** — proved, in `Props/Ratchet`. Inversion of the accepting path for both message types.
* **C10 Sessions of different peers and devices are independent** — proved, in `Props/Store`. Injectivity of the file name format, then a frame theorem over histories. All histories; session file names proved injective.
* **C11 Deleting all sessions of a peer** — proved, in `Props/Store`. All stores, any listing.
* **C12 Listing a peer's devices** — partial, in `Props/Store`. False of the code: devices of other recipients are listed (witness). Proved: every device with a session is listed.
* **C13 An unreadable session is not silently replaced** — partial, in `Props/Store`. False of the code: an unreadable session file gives a fresh record. Proved: exact outcome for every file content.
* **C14 Trust on first use is sticky** — proved, in `Props/Store`. All histories.
* **C15 Identity is pinned only by an authenticated message** — partial, in `Props/Store`. False of the code: a message failing authentication still pins its identity key (witness). Proved: identity is only written for a trusted key, and exactly when.
* **C16 One-time prekeys are used once, last-resort key is kept** — partial, in `Props/Store`. False of the code: an old message in a new envelope removes an unrelated prekey (witness). Proved: the prekey of an accepted first message is removed, the last-resort key never.
* **C17 Every published prekey is usable** — partial, in `Props/Conversation`. False of the code for ids 0 (two witnesses). Proved for all nonzero ids.
* **C18 First-message handling is crash-atomic** — partial, in `Props/Conversation`. False of the code at two crash points (witnesses). Proved for the others.
* **C19 A bundle with a bad signature has no effect** — proved, in `Props/Store`. Both directions.
* **C20 Repeated prekey messages do not reset the session** — proved, in `Props/Store`. All stores holding a session for the base key.
* **C21 Session calls on one store serialise** — proved, in `Props/Concurrent`. Interleaving semantics with a mutex; simulation of a sequential execution; the lock holder can always move. Threads interleaved at every file access; the three locked cipher calls. Store and results equal a sequential execution whose order extends over time; no deadlock; concurrent encryptions never share a header. A single file access is atomic in the model.
* **C22 Building a session concurrently with other session calls** — partial, in `Props/Concurrent`. False of the code: BuildSenderSession takes no lock; two witnesses (lost encryption, lost build). Proved: with no other call for the same peer, any interleaving of builds and cipher calls is equivalent to a sequential one.
* **C23 Message wire round trip** — proved, in `Props/MessageWire`. Concrete encoder and decoder; round trip by induction over fields. Proved for all inputs; also exact byte layout and injectivity.
* **C24 Prekey message wire round trip** — proved, in `Props/MessageWire`. Proved for all ids with nonzero signed prekey id.
* **C25 Hostile bytes never crash the message parsers** — partial, in `Props/MessageWire`. False of the code: panics on empty prekey message and on key fields of wrong length (witness proved). Proved: all other inputs are total.
* **C26 Stored session record round trip** — proved, in `Props/Record`. Nested protobuf round trip, plus an invariant that all reachable records have 32-bit numbers. Byte-level encoder/decoder of session records (nested proto3, zero fields omitted, negative ids sign-extended). Round trip for all records with 32-bit numbers; every record reachable by any history of calls is such a record, and survives being written (encrypted or not) and read after a restart. Lengths below 2^64 assumed.
* **C27 Symmetric encryption round trip** — proved, in `Props/Symmetric`. Induction over blocks. All AES key sizes, IVs and lengths.
* **C28 Symmetric decryption never crashes** — partial, in `Props/Symmetric`. False of the code: empty input and some single-block inputs panic. Proved: exact characterisation of all outcomes.
* **C29 Traffic padding round trip and length hiding** — proved, in `Props/Symmetric`. All messages.
* **C30 Encrypted store round trip and tamper detection** — proved, in `Props/Symmetric`. Round trip, read implies valid MAC, wrong MAC refused.
* **C31 Reading a truncated store file is an error** — partial, in `Props/Symmetric`. False of the code: truncation below 32 bytes panics (proved for every file). Proved: other truncations are refused unless the MAC collides.
* **C32 Attachment round trip and integrity** — proved, in `Props/Symmetric`. Round trip, integrity, all-or-nothing. Also proved: profile avatars are never accepted.
* **C33 Provisioning data can be opened by the new device** — proved, in `Props/Symmetric`. Opened by a separate specification of the new device.
* **C34 Transport decryption authenticity** — partial, in `Props/Symmetric`. False of the code: unauthenticated bytes are handed on (proved for every such input). Proved: the exact two outcomes and the authenticated round trip.
* **C35 Signatures verify** — partial, in `Props/Sign`. Algebra in an arbitrary abelian group with the encoding laws. The curve arithmetic and ed25519.Verify are parameters with stated laws (group, encoding, Montgomery/Edwards correspondence). Verification masks the caller's signature in place: for half the keys a second verification of the same array is rejected (C35_signature_clobbered, C35_second_verification_fails).
* **C36 Both parties see the same safety number** — partial, in `Props/Fingerprint`. Both sides always get the same outcome; it is a number exactly when some group differs. For users whose six groups coincide (e.g. comparing with oneself) both sides crash (C36_equal_users_crash).
* **C37 Safety number format, key-order independence and binding** — proved, in `Props/Fingerprint`. SHA-512 is a parameter of output length 64. Go sorts the caller's slice in place (not modelled); C37_sort_algorithm_irrelevant shows the choice of sorting algorithm is unobservable.
* **C38 QR fingerprint round trip** — proved, in `Props/Fingerprint`. The repository has no comparison function; the comparison is the spec-level predicate Matches on the scanned message.
* **C39 Prekey files: naming and order** — proved, in `Props/PreKeys`. File name layer and directory listing; file writes atomic. Which names are read as which id, for files of any origin: `C39_which_names`.
* **C40 Published prekey state** — partial, in `Props/PreKeys`. Holds when the batch stays below the reserved id; for start ids within 100 of 0xFFFFFF the last-resort key is overwritten or another key is published in its place (C40_wrong_last_resort).
* **C41 Key text encoding round trip** — proved, in `Props/Encoding`. encoding/base64 is modelled (line breaks ignored, non-strict trailing bits).
* **C42 Hex and UUID text forms** — proved, in `Props/Encoding`. Reading back is a separate spec function.
* **C43 Every request is acknowledged once, in order** — proved, in `Props/Receive`. Induction over the frames; interleavings of listener and writer. Under the hypothesis that processing does not crash the process (C47 shows crashes are possible). Writer/listener interleavings covered by C43_wire_order and C43_all_written.
* **C44 No acknowledgement without handling** — partial, in `Props/Receive`. Refuted: every failed request is acknowledged (C44_failed_message_acked, C44_undecryptable_acked). What holds: frames that are not websocket messages, or whose processing crashes, are not acknowledged.
* **C45 A decrypted message reaches the application** — partial, in `Props/Receive`. Refuted for the legacy address form (C45_legacy_message_lost: decrypted, session advanced, error returned, nothing dispatched). Proved for CIPHERTEXT from sources not starting with + and for PREKEY_BUNDLE from all sources.
* **C46 Dispatch is deterministic and exclusive** — proved, in `Props/Receive`. All contents, all states.
* **C47 Incoming content never crashes the client** — partial, in `Props/Receive`. Refuted at content level (C47_contents_that_crash) and at the listener (C47_frames_that_crash). Proved for contents whose dereferenced fields are present.
* **C48 Session reset request** — partial, in `Props/Receive`. Proved for flags equal to END_SESSION and a non-empty sender; refuted for END_SESSION combined with another flag (C48_combined_flags_ignored).
* **C49 Device reconciliation** — partial, in `Props/Send`. Fold over the server's replies; convergence by a measure. Requests follow replies for all runs; stale sessions rebuilt and others continued; convergence within three attempts against every stable server, given that listed devices without session are registered. Refuted without that: C49_unregistered_device_blocks. Attempts are unbounded against an unstable server (C49_attempts_unbounded).
* **C50 One ciphertext per device** — proved, in `Props/Send`. Per-device statement needs no device listed twice (the list of device ids is otherwise still matched in order).
* **C51 Outgoing data message carries what was asked** — partial, in `Props/Send`. Proved for body, timestamp, expiry, attachment, flags and v2 group context; refuted for legacy groups, whose context is never put in the message (C51_legacy_group_dropped).
* **C52 Group membership updates** — partial, in `Props/GroupsV1`. The update and quit functions do this (quit: if no member is listed twice); refuted: C52_duplicate_stays, and neither function is reached from a received message (C52_incoming_ignored).
* **C53 Leaving a group** — partial, in `Props/GroupsV1`. Quits sent to all others and group gone after a restart; refuted until then: still found and written to (C53_still_there).
* **C54 Administrative group changes need an administrator** — proved, in `Props/GroupsV2`. Inversion of the accepting path against `Spec/GroupsV2`. For ModifyGroup with any validators and any outcome (C54_only_administrators), and for the parts of a change (C54_parts_need_administrator).
* **C55 Group changes preserve unique membership** — proved, in `Props/GroupsV2`. Holds for every change that goes through. Inviting taken alone can list someone twice (C55_invite_overlap), and so can a rejected change (C55_rejected_overlap).
* **C56 Rejected group changes have no effect** — partial, in `Props/GroupsV2`. Refuted: a rejected change of title stays in memory, for every group (C56_rejected_title_stays). Nothing rejected is saved to disk, and refused single parts change nothing.
* **C57 Valid group changes are accepted** — partial, in `Props/GroupsV2`. Inversion: the final validation always fails with the validator `ModifyGroup` builds. Refuted: ModifyGroup accepts no change at all (C57_never_accepted), because its validator has all limits zero. With real limits, administrators' changes of a group's properties are accepted and exact.
* **C58 Authorisation is judged against the group before the change** — partial, in `Props/GroupsV2`. Refuted: groupImmut is the group itself, so later parts see earlier ones (C58_right_gained, C58_right_lost, C58_join_then_edit). Proved part: in ModifyGroup as it is, someone who is no administrator gains no right to edit.
* **C59 Final group validation** — proved, in `Props/GroupsV2`. Exact characterisation of the accepted groups. The description limit is the title's (C59_description_limit).
* **C60 Contact sync framing** — proved, in `Props/Sync`. Unique parse of a length-prefixed stream, by induction. The stream written has exactly one reading as length-prefixed records, namely the encodable items in order; records of 2^35 bytes and more panic.
* **C61 Contact discovery request and response mapping** — proved, in `Props/Discovery`. Query words, reply positions and the marking as registered, for every address book and reply.
* **C62 Profile name round trip** — partial, in `Props/Profile`. False of the code for names ending in a zero byte (proved for all of them). Proved: exact result for every name; longer names refused; no input panics.
* **C63 Every backend request gets its reply** — partial, in `Props/Crayfish`. Interleaving semantics with channels; invariant for the one-caller case, stuck configurations for the refutations. False of the code: a reply handled before the channel is stored is lost and the call never returns (all continuations); concurrent callers swap replies. Proved for one goroutine and schedules without that race, over unboundedly many calls: own reply, no deadlock, termination measure.
* **C64 A late message of an older session leaves the newer one usable** — partial, in `Props/Sessions`. Refuted as stated (C64_late_message_breaks_newer_session): the attempt on the current session performs a ratchet step that is kept. Proved: which sessions of the stored record are untouched, and what a failed attempt may change in the others, for whisper messages and for prekey messages of a known session.
* **C66 Prekey replies are handled safely** — partial, in `Props/Send`. Sessions made from replies are for the device named in the reply and signature-checked; refuted: malformed one-time prekey crashes (C66_bad_prekey_crashes), a reply for another device replaces that device's session and crashes (C66_other_device_overwritten).
* **C67 A failing transcript does not undo a send** — partial, in `Props/Send`. Holds unless sending the transcript crashes; refuted: any error of the transcript is a nil dereference (C67_failed_transcript_crashes).
* **C68 One timestamp per message** — proved, in `Props/Send`. All runs, retries and the transcript.
* **C69 Who a group message goes to** — proved, in `Props/GroupsV1`. All groups with members and all outcomes of the sends.
* **C70 Creating a group** — partial, in `Props/GroupsV1`. Proved when the user does not name their own number; refuted otherwise (C70_own_number_twice). The restart part is that the file holds the group.
* **C71 People can be added to groups, invited, and can ask to join** — partial, in `Props/GroupsV2`. Refuted for inviting, adding and asking to join, with any limits. Adding assumes that encrypted ids are not sixteen bytes long (they have 65). Proved part: what ApplyAddMembers does when it succeeds.
* **C72 Only contacts with a real UUID are synced** — partial, in `Props/Sync`. Regular expression semantics by derivatives against a byte-position specification. False of the code: the variant position also accepts the character |. Proved: accepts every v4 UUID, and nothing else but that.
* **C73 Refreshing the registered contacts keeps what is known** — partial, in `Props/Discovery`. False of the code: contacts outside the address book are dropped (proved universally). Proved: address book contacts are kept.
* **C74 Contacts survive a restart** — partial, in `Props/Discovery`. False of the code: after a restart no unregistered contact is found under its number and at most one is left (proved universally). Proved: registered contacts survive.
* **C75 A discovery request can be opened by the enclave, and only its answer is accepted** — proved, in `Props/Discovery`. Request opens for every attested enclave; reply of an enclave is read.
* **C76 One unusable phone number does not stop the refresh** — partial, in `Props/Discovery`. False of the code: any contact whose number is written in groups of digits with separators makes the refresh fail for all (C76_grouped_number_spoils). Proved: it succeeds if all usable numbers are numerals; contacts without a number, or with a byte no number has, are skipped without harm.
* **C77 The discovery service cannot crash the client** — partial, in `Props/Attest`, `Props/Discovery`. False of the code: short replies, nonces of another length, null answers and null responses panic; the attestation answers that crash are characterised exactly (C77_attestation_crashes). Proved: replies with a 12 byte nonce never panic while being decrypted.
* **C78 Profile keys are not shared** — partial, in `Props/Start`. False of the code: math/rand unseeded, every installation holds the same key (proved for all).
* **C79 No nonce is used twice with the same profile key** — partial, in `Props/Start`. False of the code across starts (proved for all pairs). Proved within one process: successive nonces come from successive places of the sequence.
* **C80 The profile key survives a restart** — partial, in `Props/Start`. False of the code at the first restart; the stored key is always ignored. Proved: later restarts keep it.
* **C81 A profile is shown decrypted** — partial, in `Props/Profile`. GetProfile returns the ciphertext (proved for all answers). Proved for GetProfileAndCredential with a name; and whatever the answer, what it shows of a named profile is what the answer decrypts to under the profile key.
* **C82 The stored credential belongs to the stored profile key** — partial, in `Props/Start`. Induction over the number of restarts. False of the code for every number of restarts (proved by induction).
* **C83 A failed profile request is reported** — partial, in `Props/Profile`. False of the code: status never looked at. Proved: transport and decoding failures are reported.
* **C84 Reading one contact's profile changes only that contact** — partial, in `Props/Profile`. False of the code: the answer's UUID decides which contact is replaced. Proved when it is the one asked for.
* **C85 An avatar cannot crash the client** — partial, in `Props/Profile`. False of the code: avatars of 1-11 bytes panic. Proved for all others.
* **C86 Files named after others stay in their place** — partial, in `Props/GroupFiles`, `Props/Paths`. `filepath.Join` and `filepath.Clean` are modelled on characters. False of the code: ids with a slash reach the session file of another peer, and avatars any file (C86_session_of_another, C86_avatar_anywhere, C86_server_writes_files). Proved: for ids without a slash, files are in their directories and distinct; files of groups are so for every group id (C86_groups).
* **C87 An expired sender certificate is replaced** — partial, in `Props/Start`. False of the code: milliseconds compared with seconds; unreadable certificates end the program. Proved: missing certificates and ones below the seconds bound are renewed.
* **C88 Both sides compute the same access key** — partial, in `Props/Start`. Agreement proved for keys of AES length; for others the error is dropped.
* **C89 A profile key update changes only the key** — proved, in `Props/Profile`. All contact lists.
* **C90 Generated private keys are valid scalars** — proved, in `Props/Sign`. For all 32-byte inputs; Clamped is stated on the bytes, independently of the code's masks.
* **C91 A registered client can be contacted** — partial, in `Props/Register`. Composition: registration invariant, storage and text round trips, C35, C01. Composition of registration, storage, text encoding, signatures, bundle and key agreement. Missing: prekey ids 0 (refuted by C17), a batch within 100 of the reserved id (C40), and starts that fail after the last-resort key is written (C92). The signature law P.verify = Sign.verify is a hypothesis, met by the example.
* **C92 An unfinished registration is finished at the next start** — partial, in `Props/Register`. Histories of starts, each cut after any number of effects; invariant over the prekey directory and the server. Refuted: C92_never_published (server refuses the prekeys), C92_crash (death after the last-resort key is written), C92_signed_not_stored (error of the signed prekey's write dropped). Proved for histories where each start dies before that key is written or runs to its end.
* **C93 Registration data survives a restart** — proved, in `Props/Register`. Any world, any later starts. The encryption of the files under the storage password is not part of this model (C30 covers it).
* **C94 A message to a group does not crash the program** — partial, in `Props/GroupStore`. Case analysis over stored group and server answer gives the exact condition; induction over redeliveries for the repeated crash. Refuted: C94_unknown_group_crashes (a message naming an unknown group the server does not hand out ends the program, at every redelivery, for any number of restarts). C94_crash_iff_partial says exactly when a message crashes the program. YAML is taken to be faithful, zkgroup is a parameter.
* **C95 The group shown is the group the server has** — partial, in `Props/GroupStore`. Refuted: C95_bad_answer_wipes (an answer whose title does not decrypt empties the group in memory; asking for its members then crashes). Proved: what a successful update stores, and that one without an answer changes nothing. Profile keys of members are modelled but not in the statement.
* **C96 Groups survive a restart** — partial, in `Props/GroupStore`. Refuted: C96_second_lookup_fails. Proved: the first lookup after a start and every group a message was received for since.
* **C97 A message to a group goes to each other member once** — partial, in `Props/GroupStore`. Induction over the member list. Refuted: C97_sent_to_self (the sender is among the recipients of every message sent). Proved: order, content and who gets the message when a delivery fails; a non-member sends nothing.
* **C98 Joining a group reports the outcome** — partial, in `Props/GroupStore`. Refuted: C98_refusal_ignored, C98_empty_invitation_crashes. Proved: exactly when joining reports success, and that the status then is the one of the server's next answer, if there is one.
* **C99 Group credentials are renewed** — partial, in `Props/GroupStore`. Induction over the series of requests. Refuted: C99_never_renewed. Proved for the days the first answer covers; a failed request is repeated.
* **C100 Only changes of the group signed by the server are reported** — partial, in `Props/GroupStore`. Refuted: C100_not_bound (old changes and those of other groups are accepted), C100_shown_again (a change is stored and reported again). Proved: a change that says anything is signed, and what is reported is what it says under the group's key.
* **C101 Only members write to a group** — partial, in `Props/GroupStore`. Refuted: C101_any_sender. Proved: a message is shown in the group of its master key only.
* **C102 People enter a group only as the access rules allow** — proved, in `Props/GroupsV2`. The part that adds members comes first, so it is judged by the old group; a frame invariant (`Harmless`) covers the later parts. Stated over the decrypted actions of a change; zkgroup is a parameter.
* **C103 Changing a legacy group** — partial, in `Props/GroupsV1`. `Verif.Props.GroupsV1`: the map, the files and the messages handed over. False of the code: removed members are not told, and a group that could not be saved is changed in memory (C103_removed_not_told, C103_not_saved). Proved: name, members, file, who is told, and the refusal of unknown ids.
* **C104 Contact discovery end to end** — proved, in `Props/Attest`. A party with its own private keys (`Spec/Attest`) answers; the keys of both sides agree by the Diffie-Hellman law, then C61 and C75 are composed. The service is a party with its own private keys; the Diffie-Hellman and AES-GCM laws are assumed of the primitives.
* **C105 Numbers are disclosed to attested enclaves only** — partial, in `Props/Attest`. The same party may be anyone: `C105_any_party`; the quote is never read: `C105_not_looked_at`. False of the code: quote and signature are not looked at, any party is taken for the enclave (C105_any_party, C105_not_looked_at). Proved: envelopes are addressed only to keys of answers, at most three.
* **C106 What one application sends, the other is shown** — proved, in `Props/Clients`. `Spec/Clients` gives two whole clients (`Send.sendMessage`, `Receive.listen`), the server and what should be seen. Proved by simulation: every event of the clients is the corresponding step (or, for a refused first attempt, two steps) of the worlds of C02 (`csimulate`), so C02 tells what decryption yields; padding, base64 and dispatch are undone step by step; `real_ok` supplies the parsers from C107 and the attachments from C32. The example runs a whole conversation. Assumed: fresh ratchet keys are distinct, no stale message authenticates (as in C02), fewer than 2^32 events; the envelope is what the server makes of an accepted message. The peer may have several devices, known in any order. Messages with any flags may be sent; those that end the session are delivered in C118. Acts with others are in C120.
* **C107 Messages are read as they were written** — proved, in `Props/Clients`. Field by field over the encoder of C20 and the decoder with unknown fields, `oneof` and repeated fields. Contents written by the client, acknowledgements, and the frames and envelopes a server writes.
* **C108 An attachment sent is the attachment received** — proved, in `Props/Http`. The client's requests against a server with other users' requests at every moment (`Spec/Http`); the object stored under our key is not touched by others (`serves_object`); then C32. The server is a specification with other users at work; JSON and the server's plan of keys and addresses are parameters (Plan.Sound).
* **C109 A failed upload is reported** — partial, in `Props/Http`. Refuted: an unchecked refusal crashes the program. Proved: what success means, no message after an error, no crash if the addresses have two slashes.
* **C110 An attachment pointer leads to the content servers only** — proved, in `Props/Http`. Every call is shown to make only requests of a given kind (`Only`, closed under sequencing); the host is read off by an independent definition (`hostOf`). Redirects by the content servers are not modelled.
* **C111 An attachment cannot crash the client** — partial, in `Props/Http`. Refuted by a pointer ending in % and by any short answer; the exact condition is proved.
* **C112 The account password is given to the service only** — partial, in `Props/Http`. Refuted: the content server is given the password, and certificates are not checked. Proved: where uploads go, that the servers that are not configured are asked over TLS and under their own names only (C112_encrypted), and that the websocket is checked.
* **C113 The configured user agent is announced** — partial, in `Props/Http`. Refuted: the proxy setting is announced instead of the user agent.
* **C114 Anonymous requests carry no credentials** — proved, in `Props/Http`. Equality of the requests of two accounts. 
* **C115 A new device receives the account** — partial, in `Props/Http`. Refuted: a missing code is sent as an empty one. Proved: what the new device reads, and that success means that the server accepted the envelope.
* **C116 A linking code is given to one device** — partial, in `Props/Http`. Refuted: the code is remembered across attempts. Proved: with nothing remembered the device gets the code just issued.
* **C117 Success is reported only if the server accepted** — partial, in `Props/Http`. Refuted for UnlinkDevice and LinkedDevices; proved for the others.
* **C118 After a session was ended both can talk again** — partial, in `Props/Reset`. The simulation of C106 yields the abstract state reached by any schedule; the last step (`EndSession`, then its delivery) is followed by hand (`handle_reset`, `deleteAll_rest`), and the result is shown to meet the hypotheses of C106 for the new conversation `next`, with either side beginning. Proved for any schedule before, an ending that the receiver accepts (the conversation of C02 would), and any schedule after; EndSession itself for any state. Refuted when a message of the new session overtakes the end of the old one: the new session is deleted and later messages are lost (C118_overtaken_end_loses).
* **C119 Messages of an ended session have no effect** — partial, in `Props/Reset`. The end state of C118 has no session; `receive_none` follows decryption without one. Proved for messages that need a session and for first messages whose one-time prekey is used up. Refuted for a first message built on the last-resort prekey: replayed after the reset it is shown again and answers to it are lost (C119_shown_again).
* **C120 Dealings with others do not disturb a conversation** — partial, in `Props/Others`. Every act with others is shown to keep the session, the identity of the peer and the prekeys the conversation needs (`Spares`, `spares_act`, through every path of sending, ending and receiving in `Proof/Apart`), so it is an `other` event of C106. Proved for any schedule of acts with others that do not tell to end the session with the peer, present no other identity key for the peer, and do not use up the prekey of the conversation's first message (Act.Apart, Elsewhere). Refuted without the first of these: C121_forged_transcript.
* **C121 Sync messages are believed only from the user's own account** — partial, in `Props/Others`. `process_cases` and `process_plain` tell that a frame is either without effect on the application or the handling of a decrypted content; the rest is followed through the handlers. Holds as far as only contents with a sync part have such effects (C121_needs_sync_part_partial). Refuted for the rest: the sender is not looked at (C121_sender_ignored), and any correspondent can end the sessions with any account (C121_stranger_ends_sessions, C121_forged_transcript).
* **C122 Both users see the same safety number** — partial, in `Props/Identity`. The relation of C106 was extended by the saved identity files; `saved_among` gives them after any schedule of C120; then C36, C38 and, for the converse, the last round of the hash (`half_commits`) and C37. The number exists unless all six groups of both users coincide (C36).
* **C123 The storage directory is encrypted and stays readable** — partial, in `Props/AtRest`. Induction over runs and writes; the salt never changes once there is a file for it. Proved: later runs read; files are ciphertext under nonempty passwords; another password is refused; a file nobody wrote is reported. Refuted: empty password, switching encryption on or off, moved files.
* **C124 A group change does exactly what it says** — proved, in `Props/GroupParts`. Each of the nineteen parts is inverted to its exact effect, the effects are composed; for the converse, an invariant that the requester stays administrator. Exact effect of every change that goes through, and the converse for administrators; the first checks read ids and keys only from checked presentations. ModifyGroup itself uses limits of zero (C57), so the theorems about acceptance are for given limits.
* **C125 Someone invited to a group becomes a member by accepting** — partial, in `Props/GroupParts`. From C124. False: accepting only edits the encrypted list. Partial theorem: who can get an acceptance through.
* **C126 The gateway sends what was asked, once, and reports it truthfully** — partial, in `Props/Gateway`. Case analysis over the handlers; the attachment and the files afterwards are computed once (`formHandler_complete`). Proved for the addressee, the text and the report. The attachment is the upload only if no longer file of that name is in /tmp and it can be stored; otherwise the end of the old file is sent with it (`C126_old_contents`), or nothing is (`C126_upload_lost`), and success is reported all the same.
* **C127 The gateway leaves no files behind and touches nobody else's** — partial, in `Props/Gateway`. Proved that no other file changes. Refuted: an upload without text or addressee stays in /tmp (`C127_left_behind`); a file that was there before is overwritten and removed (`C127_others_file_lost`).
* **C128 Every group can be addressed through the gateway, and no person is taken for a group** — partial, in `Props/Gateway`. The regular expressions are run by derivatives and characterised by their languages (`groupRe_iff`: exactly the master keys in hexadecimal). Proved for groups of the new kind and for persons. Refuted for every group of the old kind: its identifier has 32 digits, the expression asks for 64 (`C128_old_groups`).
* **C129 A changed identity is reported and can be approved through the gateway** — partial, in `Props/Gateway`. Proved for the report, and for identities of digits. Refuted for every UUID: the expression accepts digits only (`C129_uuid_kept`).
* **C130 Every request to the gateway is answered with JSON** — partial, in `Props/Gateway`. An automaton for JSON objects (`Spec/Gateway`) is run over the answer. Exactly when no answer comes: the message is no text (`C130_crashes`). Answers are JSON if the error texts have no quotes, backslashes or control characters; refuted otherwise (`C130_not_json`).
* **C131 Messages are answered where they came from, and the peer of a conversation stays** — partial, in `Props/Gateway`, `Props/Shown`. Induction over the messages that arrive. Proved for persons and groups of the old kind, and that the peer stays. Refuted for groups of the new kind: the echo goes to the sender alone (`C131_echo_private`).
* **C132 Each message is shown once and published under its conversation** — partial, in `Props/Gateway`. Exact counts. Refuted: without `-raw` each text is shown twice (`C132_twice`); everything is published under the name of the first peer (`C132_wrong_name`).
* **C133 The command line does what it says** — partial, in `Props/Gateway`. Inversion of `run`; `strings.Split` undoes joining with colons. Proved for arguments without colons in names. Refuted: without an addressee the text goes to a contact without a name (`C133_nameless`); `-updategroup` without a colon crashes (`C133_stops_iff`); a colon in a name (`C133_colon`).
* **C134 What is sent from one device of an account is shown once on the other** — partial, in `Props/Linked`. `Spec/Linked` gives the two devices (the whole `Send.sendMessage` with its transcript, `Receive.listen`). The transcript is followed through the wire format; a schedule of the two devices is turned into one of two clients (`Sight.plain`), so the relation of C106 carries over, and what decryption yields is what was written. Proved for all schedules of whole clients, for messages that are not ends of sessions and that the server says to have linked devices. Refuted for ends of sessions: the transcript names no number, handling it fails and nothing is shown (`C134_end_not_shown`).
* **C135 Profile keys of contacts change only on word of their owner** — partial, in `Props/Linked`. Proved that nothing else changes: the sender's key by a message with the flag, or the recipient's by a transcript with it. The second is refuted as intended: the transcript carries the user's own key, which is recorded for the recipient, or for the contact without a number (`C135_own_key_recorded`).
* **C136 Transcripts go to the other devices only** — partial, in `Props/Linked`. Invariant over the retries of the sending loop. Proved once the own device is not in the list and the server does not call it missing. Refuted for the first transcript: the list is taken to be device 1, also on device 1 (`C136_first_to_itself`); the server's answer corrects it.
* **C137 The account and the settings survive a restart** — partial, in `Props/Config`. Simulation of a variable that outlives the program (`Paper`). Proved for applications that use `ReadConfig`, for all histories whose writes succeed. Refuted: an interrupted write leaves an empty file, which the next start takes for a configuration (`C137_interrupted`); with a configuration of the application's own nothing is ever saved, and registration fails after the server gave the account (`C137_own_not_saved`).
* **C138 A refreshed configuration is used** — partial, in `Props/Config`. Proved that the file keeps what the user wrote. Refuted: the configuration in use does not change, and the next change overwrites the file (`C138_not_used`).
* **C139 Messages are fetched only from servers of the authority asked for** — partial, in `Props/Config`. Proved if no authority is named or its file is readable. Refuted: an absent file means the built-in authority (`C139_absent`), an unreadable one every authority of the system (`C139_unreadable`). HTTP requests check no certificate at all, see C112.
* **C140 A missing configuration is reported, not fatal** — partial, in `Props/Backend`. Refuted: without a configuration every schedule that goes on crashes (`C140_crash`). With one the instance is made.
* **C141 The companion program is found where it is** — partial, in `Props/Backend`. Proved for the search path and the source tree, and that what is started is there. Refuted: a program at `./crayfish` is never started (`C141_here_ignored`); if there is none, an empty file is made and the client ends (`C141_litter`).
* **C142 Every request to the companion reaches it once, in order** — partial, in `Props/Backend`. Invariant over all interleavings (`Shape`): older connections are down, and what arrived or may still arrive is a subsequence of what was sent. Proved: at most once and in order in every run; nothing is lost while the connection does not break. Refuted: requests made without a connection never arrive (`C142_lost`); before the first connection they crash the client (`C142_early`).
* **C143 The companion opens messages for the account in use** — partial, in `Props/Backend`. Proved for runs without a registration. Refuted for the others: the account is the one of the configuration at the start (`C143_old_account`).
* **C144 Everything is shown exactly once and in order, whatever happens to the connections** — proved, in `Props/Mailbox`. Refinement (C106) composed with the mailboxes; invariant `Turn` of the abstract conversation with in-order delivery, `MInv` relating it to the mailboxes. The server's side is an assumption (Spec/Mailbox). From C106 and an invariant of the abstract conversation: messages that arrive in order are accepted, whatever the redeliveries.
* **C145 An interruption of the program loses no message** — partial, in `Props/Mailbox`. Refuted for every message in every schedule: if the program ends after the session was stored and before the handler of the application is called, the message is taken for a duplicate at every later delivery and never shown (`C145_lost`). Proved for interruptions before anything is stored or after the handler returned.
* **C146 Any number of conversations at once** — proved, in `Props/Network`. Invariant over all conversations: each satisfies the relation of C106; an event of one is an act with others (C120) for every other one (`deliver_elsewhere`, `talk_act`). Assumptions as in C106 for each conversation; every client is of an account of its own. `C146_shared_prekey` shows that the condition on one-time prekeys is needed.
* **C147 Listening can be stopped and started again** — partial, in `Props/Listening`. `Model/Listening`: goroutines as phases, interleaved; invariant of orderly runs (`Inv`): only the last call is in progress and its connection is `wsconn`; what was written, is queued and is about to be queued is what was shown. Proved for applications that call `StartListening` only when no other call is in progress and `StopListening` only when none is connecting, for all schedules. Refuted otherwise, since all calls share the variable `wsconn`: two calls that connect at the same time crash the program (`C147_overlap_crashes`), after a quick stop and start an acknowledgement goes over the wrong connection (`C147_wrong_connection`), and a stop while connecting reports success and has no effect (`C147_stop_ignored`).
* **C148 Receiving makes the client write only to the user's own devices, and only when they ask** — partial, in `Props/Answers`. `Model/Answers`: the messages sent in answer, given to the receiving model as its parameters; induction on frames with a relation between state before and after (`Obeys`), appended requests against appended events. Proved for all frames: every request made while handling is to the user's own account after a request for contacts or groups, or to the account named in a verification, and device lists of no others change (`C148_only_asked_partial`); a frame without a sync part makes no request (`C148_no_sync_partial`). Refuted beyond that, since the sender of a sync message is not looked at: anyone makes the client write to any account they name (`C148_anyone_makes_write`) and, when the answer cannot be sent, ends it with a nil dereference (`C148_anyone_crashes`).
* **C149 A file is sent whole or not at all** — partial, in `Props/Reader`. `Model/Reader`: a reader is the list of what its calls of `Read` give; induction on it (`copyN_full`, `copyN_short`, `copyN_skip`), composed with C108. Proved for readers that do not fail (`C149_whole_partial`), that fail after 1024 bytes (`C149_late_partial`) or fail again when reading goes on (`C149_again_partial`). Refuted for the rest: `MIMETypeFromReader` drops the error of `io.CopyN`, so after a single failure within the first 1024 bytes a file with a gap is uploaded and received as if whole (`C149_gap`, `C149_gap_received`).
* **C150 Account attributes: the server is told what is so, and success means it was told** — partial, in `Props/Account`. `Model/Account`: one function; case analysis. The refutation of the access key is for all pairs of profile keys with different access keys. Proved: what is told (`C150_told_partial`), success (`C150_success_partial`), that a failed call leaves the configuration (`C150_failure_partial`). Refuted: the access key told is computed from the private identity key and not the profile key (`C150_wrong_access_key`); the user is made discoverable whatever they chose (`C150_found_by_number`); after an error the server may have accepted (`C150_accepted_but_error`); before setup the call crashes (`C150_before_setup`).
* **C151 The contacts of the user's other devices can be fetched** — partial, in `Props/Account`. `Model/Account.syncContacts` on the sending model; the answer as in C148, handled by `Model/Receive`. Proved: the request is sent to the user's account and read there as a request for contacts (`C151_asked_partial`). Refuted beyond that: every answer is ignored (`C151_ignored`), and a failure to send crashes the program (`C151_crashes`).
* **C152 A stolen session file opens nothing that was sent or read before** — partial, in `Props/Theft`. `Spec/Theft.lean` writes the key schedule anew and says which keys a record gives; the simulation of C02 (`Rel`) gives the form of every stored session, including the chain registered for the signed prekey. Proved for every schedule of C02, for the responder's session in full and for the initiator's from epoch 11 on (`C152_stored_keys_partial`). Refuted for the initiator before: the session opens every message they sent before the first answer (`C152_first_messages_stay_readable`, every schedule), and for a session archived and promoted again (`C152_read_message_stays_readable`). Only keys computable by the forward key schedule are considered, from the session record only.
* **C153 Two people who write to each other at the same moment can talk afterwards** — partial, in `Props/Crossing`, `Props/OldSessions`. `Spec/Crossing.lean` composes the stores of two mirrored setups. `Over` relates a run with archived sessions to the run of C02 with the same current sessions; reading a first message with a session present archives that session (`receive_build`), and a message of the archived session promotes it (`receive_promote`). Refused messages: `Spec/OldSessions.lean` (`AllShut`), `behind_run_all`. Proved: both first messages are read (`C153_first_messages`), and after Alice's second message has been read by Bob before they send one, every schedule agrees with the abstract machine of C02: those in which nothing is to be refused (`C153_crossing_partial`), and all others if the sessions given up open no message that is to be refused and, as in C02, no message of a forgotten epoch authenticates by chance (`C153_refusals_partial`). Refuted when the second messages cross too (`C153_second_messages_cross`): both are read, then nothing is readable in either direction. Refuted also for a later message that comes twice: it is read twice (`C153_read_twice`). Assumed in the partial theorems: the newer session of Bob does not open the message of the older one (no law of the primitives implies it).
* **C154 A session begun anew works, whatever sessions there were before** — partial, in `Props/OldSessions`, `Props/StartOver`. `Behind` relates the run over older records to the run of C02 of the same two clients without sessions (`strangers`): same current session on both sides once the responder has one; building on an older record archives it and starts from an empty state. A refused message stores nothing on either side (`behind_refuse`), given `AllShut`. Proved for arbitrary older records on both sides (also unreadable files): for every schedule in the new session in which no message is one to be refused, with no cryptographic assumption (`C154_start_over_partial`), and for every schedule, assuming that no older session opens a message that is to be refused and, as in C02, that no message of a forgotten epoch authenticates by chance (`C154_refusals_partial`). Refuted when a message of the older session arrives after the first of the new one: it is read, but afterwards the peer's answers are unreadable (`C154_late_message_breaks_new_session`). Excluded: a session file that is read but does not parse (LoadSession then fails).
* **C155 The dialogue of a registration** — partial, in `Props/Dialogue`. Every start follows one of four scripts up to the point of failure (`Runs`, composed step by step); orders and counts are checked on the scripts and pass to their prefixes. JSON decoding of the answer is modelled. Proved for all answers and failures: order and number of questions, what the requests carry, where the saved account comes from, told only after the keys are published, a registered client does none of it (`C155_dialogue_partial`); a proper answer gives the account (`C155_registration_succeeds`). Refuted: told once (`C155_told_three_times`, `C155_told_at_every_start`), the handler optional (`C155_handler_needed`), an account only if confirmed (`C155_any_answer_is_an_account`), the code only after an accepted request (`C155_refusal_not_heard`), a refusal reported (`C155_refused_code_waits`). Names of JSON fields are compared exactly in the model.
* **C156 Calls can be made while others are under way** — partial, in `Props/Maps`. Calls as programs of accesses with beginning and end, arbitrary interleavings; the invariant keeps each goroutine within the maps it may read and write and freezes the maps nobody writes (`Calm`). Proved for any number of goroutines that write to people whose devices are known and stay the same, while one listens to texts and profile keys (`C156_apart_partial`); for any number that write to such people and to legacy groups of them, and answer requests for the groups (`C156_groups_apart_partial`); and for one goroutine whatever it does (`C156_alone`). Refuted universally for: a first message to anyone beside any other message (`C156_first_message_clashes`), other devices named by the server (`C156_changed_devices_clash`), answering a request of an own device beside a message (`C156_answer_clashes`), refreshing contacts or writing to a legacy group beside a received profile key (`C156_refresh_clashes`, `C156_group_message_clashes`), making a group beside a request for groups (`C156_new_group_clashes`). The map of new groups and accesses to other shared variables are not modelled.
* **C157 The companion process cannot bring the client down** — partial, in `Props/Companion`. `At` reads the JSON text; lemmas relate it to the decoder into structures with optional fields; induction over the run. Proved for every run in which requests and answers carry their part with a type and answers come to a waiting call; anything else, also text that is not JSON, may arrive in between (`C157_companion_partial`, `C157_unreadable_survived`). The crashes are characterised exactly (`C157_crash_iff`). Refuted: a message that says it is a request or an answer without carrying one, or with one without a type, crashes the client (`C157_not_whole_crashes`); two answers that nobody waits for block the reader for ever (`C157_unasked_answers_deafen`). Objects in which a name occurs twice are left out of the theorems.
* **C158 What is kept for skipped messages is bounded** — partial, in `Props/Growth`. Invariant `AtMost` over all calls for the bound; for conversations the refinement of C02: the keys in a chain are distinct, each belongs to a message not read, and every such message has one; induction over the rounds for the refutation. Proved over all histories: at most 2000 keys for each message of that address that was accepted, in each of at most 41 states; refused messages and other addresses add nothing (`C158_kept_keys_partial`). In a conversation of two clients the number is given exactly: the messages older than the newest one read and not read themselves, in the chains still there (`C158_kept_exactly`). Refuted: there is no bound, `k` messages make the client keep `n * k` keys for every `n` up to 2000 (`C158_unbounded`).
* **C159 The messages are those of the published protocol** — partial, in `Props/Protocol`. The description computes every message from the log with no session state. Invariant over schedules (that of C02, with the previous counter made exact): the state of each client is a function of the log. Then the bytes of `encrypt` are unfolded against the description. Proved for every schedule of two clients: each message sent is the one computed by an independent description of the protocol (`Spec/Protocol.lean`) from the keys, the turn, the number and the text alone: derivations with their info texts, layout of the fields, padding, MAC, the counter of the previous chain and the pre-key envelope of the first messages (`C159_as_prescribed_partial`). Missing: where the recipient has no one-time pre-key left, the first messages name pre-key 0 instead of none, refuted by `C159_absent_prekey_named`.
* **C160 Groups are known again after a restart** — partial, in `Props/GroupFiles`. The loading loop is a fold over the listed names, characterised for all lists; the names are hexadecimal, so they contain no `avatar` themselves; `filepath.Join` of the directory and the name is computed by the lemmas of C86. Proved for all directories whose path does not contain the text `avatar`: the groups known after a restart are exactly those written, as written (`C160_groups_survive_partial`), and an update taken in is among them (`C160_update_survives_partial`). Refuted for every other directory: all groups are forgotten (`C160_all_groups_forgotten`).
* **C161 First contact works at any later time** — proved, in `Props/Later`. Frame lemmas for a step: signed prekeys, identity, registration id never change; another peer's identity and sessions do not change (names are injective); a prekey is removed only by a message that names it and decrypts, never the one of last resort. Induction over the history, then C01, C02 and the registration invariant. `C161_ready`: the readiness conditions of the responder are invariant under every history. Hence `C161_first_contact`, `C161_conversation`, and with the registration of C92 `C161_registered`. The condition `Spared` allows messages that name the prekey and are refused by decryption; an example shows that it cannot be dropped.
* **C162 Prekeys are renewed** — partial, in `Props/Later`. Induction over the histories, with the frame lemmas of C161 and `C93_restart`. Refuted for all histories: calls only take prekeys away and never change the signed one (`C162_only_fewer`), and no later start writes or publishes anything (`C162_never_renewed`). What holds: the prekey of last resort and the signed prekey stay (`C162_reachable_partial`), so the client stays reachable (C161).
* **C163 Another implementation of the Double Ratchet can take either side** — partial, in `Props/Interop`. Refinement: an invariant relates the peer's state (root key, chain keys, counters, store of skipped keys as a set) to the epochs and the log of the C02 simulation; the conversation with the peer runs in step with that of two clients. One lemma for each way of finding a key: kept, in the present chain, in a new chain. `Spec/Ratchet.lean` is the algorithm of the document, function by function (RatchetInitAlice, RatchetInitBob, RatchetEncrypt, RatchetDecrypt, SkipMessageKeys, DHRatchet). Proved for every schedule, with the peer on either side: what is read, the bytes on the wire and the client's store are those of two clients (`C163_takes_the_place_partial`). Missing: the peer must write and read the length of the previous chain as Signal's implementations do; for a peer that follows the letter of the document the claim is false (`C163_document_loses_last`). Schedules are excluded in which a message to the peer is more than five chains old or more than 2000 messages of a chain are missing when the next begins: there the peer keeps more or less than a client would. An initiating peer is assumed to have got a one-time prekey (C159). Cryptographic assumptions: those of C02, and that no message read before authenticates under another key (the document's algorithm has no other defence against repetition).
* **C164 The report of a group change says what the change did** — partial, in `Props/GroupView`. Pointwise decryption of lists whose entries all decrypt; for the equivalence, one view for each of the three missing kinds in which the two results differ. `Spec/GroupView.lean` gives the view of a group, what a change does to it and when actions carry a change, from the protocol's message definition. Proved: joins, leaves, roles, invitations and the revision are reported exactly, and the report leads to the same view as the change from every view if and only if the change withdraws and accepts no invitation and leaves the title alone. Missing: those, and who made the change (`C164_no_editor`): the code decrypts only four kinds of action. Access rules, avatar, timer, description, requesting and banned members are not in the view; the code reports none of them. New members are taken in the form the server sends (no presentation).
* **C165 The gateway lists the groups** — partial, in `Props/Listing`. Invariant over histories: files and map hold groups under their own ids, and only groups that were made. Induction over the directory for the walk; the directories of the two kinds of groups differ in their last part. Proved for the default storage directory and every history that began with an empty directory: the map answered is that of the files of legacy groups, ids and present names, and every group listed was made by the application (`C165_list_partial`). Refuted: with another storage directory the answer has nothing to do with the groups, and without a directory `.storage/groups` the handler crashes (`C165_other_directory`); new groups are never listed (`C165_new_groups_missing`); one unreadable file hides all groups after it (`C165_one_bad_file`). The JSON encoding of the map is not modelled.
* **C166 A message to a group is shown to its members in that group** — partial, in `Props/GroupTalk`. Composition of C97 (who is sent what), the round trip of contents (C107) and of the group context, C101 (the group of the key) and C94 (when the client crashes). Proved: as many messages as members, in order, each to its member; the content, marshalled by the one client and parsed by the other, has text, timer and time; the group context is read back exactly, and the message is shown in the group with the same id or the receiving client crashes, which it does not if it has the group on disk with title and members. Missing: the crash (C94, refuted there), and that the sender is not sent a copy (C97, refuted there). Sessions, envelopes and delivery between the two contents are C106 and C146, where the context is carried as it is.
* **C167 Every line typed at the console is sent, as it was typed** — partial, in `Props/Console`. Induction over the reads that make up a line: the buffer stays within the line until the read that ends it. Then induction over the lines. Proved for a terminal (no read goes beyond the end of a line) and lines shorter than 4096 bytes: exactly the lines that are not empty are sent, in order, and questions get the next lines (`C167_console_partial`, `C167_answers_partial`). Refuted: of what one read gets, everything after the first line is lost (`C167_pipe_loses`), and a longer line is cut into several messages (`C167_long_line`). At the end of the input the whole process is ended, which is part of the partial theorems.
* **C168 A message to a group is shown once, in that group, on the sender's other devices** — partial, in `Props/GroupCopies`. The list of messages sent is that of C97; marshalling and parsing of transcripts as in C107; induction over the members, with the invariant that looking the group up does not change what is found. Proved: the exact list of what the other device shows, for every state of it and every answer of the server: one copy for each member for whom a transcript was asked for, in order, with text, time, timer, profile key and attachments as sent, and in the group if the device finds it (`C168_copies_partial`). Refuted: with a server that asks for transcripts the message is shown once for each member, and in no group if the device does not find the group in its map, although it may be on disk (`C168_shown_for_each_member`). Sessions and envelopes between the devices are C134.
* **C169 A profile looked up by number** — partial, in `Props/ByNumber`. `Model/ByNumber.lean`, with the contacts and the picture decryption of C84 and C85; by cases on the answers. Proved: when a contact is returned it is kept under its UUID, no other contact changes, number, profile key and texts stay, and a picture written to disk is the one decrypted (`C169_contact_kept_partial`). Refuted: an error is never returned, and the program ends exactly when there is not a full answer with a picture, so for every profile without picture, number without account and lost connection (`C169_answer_or_crash`, an equivalence for all inputs); a picture that does not decrypt with the text of the identity key replaces the one kept by nothing, and the name by the encrypted one (`C169_name_and_picture_lost`). Left out: the JSON answer `null`, answers broken in the middle, spare capacity of the slice of the identity key.
* **C170 A message is shown for what it is** — partial, in `Props/Shown`. `Model/Shown.lean`, with `messageHandler` of C131 and the receive path of C45; time by integer arithmetic, lines by induction over the messages. Proved: the time shown is the day of the week, the hour on a clock of twelve hours and the minute (`C170_time`), and which moments look alike (`C170_alike`, an equivalence); up to 2262 it is the moment the sender gave (`C170_moment_partial`); without line breaks the terminal tells the lines in order (`C170_screen_partial`); a private line from somebody whose name has no space tells time, name and text (`C170_line_partial`), and so does the whole line the program prints for it (`C170_whole_partial`); a source that is the number of a contact is shown by name (`C170_name_partial`). Refuted: morning and afternoon look alike (`C170_half_day`); later moments are shown as past ones (`C170_far`); one message can show as several by anybody (`C170_forged`, `C170_forged_twice`, for all messages and contacts); names with spaces (`C170_ambiguous`); the source is never a number, so that names are never shown, nor groups, nor anything of senders who hide from the server (`C170_nameless`, for whatever arrives). The latter are also answered to nobody in echo mode (`C131_sealed`). Left out: control sequences of the terminal, the title of the window, attachments.
* **C171 A program that answers by itself comes to rest** — partial, in `Props/Echo`. `Model/Echo.lean` on top of `messageHandler` of C131: any number of programs, messages delivered in any order; a permutation invariant by induction over the deliveries. Proved: if no program in echo mode has written to another one, then under every order of delivery what was delivered and what is to come are the messages and one answer each (`C171_answers_partial`), deliveries are bounded and at rest each was delivered once (`C171_rest_partial`); without echo mode nothing is sent (`C171_silent`). Refuted: one message between two programs in echo mode is answered for ever, whatever its text (`C171_for_ever`), with runs of every length (`C171_no_bound`). That messages arrive as they were sent is C106, C146; groups of the old kind are never handed over by the library (C170), and groups of the new kind are C131.
* **C172 A start that reports success is complete** — partial, in `Props/Setup`. `Model/Setup.lean` puts together the registration (C91–C93), the profile part (C78–C87) and the request over HTTP; the decoder of JSON is a parameter with three laws and a toy instance; which variable named `err` is meant is modelled line by line. Proved: a certificate in the answer is stored, after exactly one request (`C172_certificate_partial`); no answer is reported (`C172_unreachable`); a start that reports success has the identity key if it registered or had a certificate before (`C172_identity_partial`). Refuted: neither the status nor the error of decoding is looked at, so every refusal counts as an empty certificate and the start as a success (`C172_refusal_taken`); the answer `null` crashes the program (`C172_null_crashes`); the error of the identity key is overwritten when there was no certificate, so that the start is a success without a key (`C172_without_identity`), and with a certificate it is reported only after a new profile key was stored and sent (`C172_late`).
* **C173 The file of contacts outlives restarts and failures** — partial, in `Props/ContactFile`. `Model/ContactFile.lean` on top of the contact list of C74 and C89: memory, path and file over several starts; an invariant by induction over the history. Proved for all histories in which the file can be read and no write of it breaks off (writes may fail), with contacts that can be told apart: all contacts stay, only profile keys change, each to one announced in that name, and only those who announced a key are added (`C173_kept_partial`); an update that reports success is in the file (`C173_stored`), and nothing but such an update changes the file (`C173_reading`). Refuted: a file that cannot be read counts as empty and is replaced at the next announcement (`C173_unreadable`), as is one that is damaged (`C173_damaged`), so a death while writing loses all contacts (`C173_death`); before the contacts are read, and in echo mode always, no key is stored (`C173_unread`), and reading them puts the old key back (`C173_put_back`). Refreshing from the directory is C73, C74.
* **C174 A stolen session file is of use for one exchange at most** — partial, in `Props/Healing`. `Spec/Healing.lean`: the key schedule written out from the list of key pairs drawn. The simulation of C02 is repeated with the list of key pairs beside the epochs. First sentence proved for every schedule and every cut of it: all message keys follow from one first root key and the key pairs drawn, one for each change of direction; the session stored at the cut holds root key and private key of its owner's epoch; from two epochs later on each private key is the draw of a delivery after the cut (`C174_healing_partial`). Last sentence refuted, for every schedule: the copy opens what its owner sends next and every message of the next epoch (`C174_window`). That keys which take in an unknown private key cannot be guessed is no law of `Prims`.
* **C175 A file sent to a group reaches every member and is uploaded once** — partial, in `Props/GroupAttach`. `Model/GroupAttach.lean` puts `uploadAttachmentV3` (C108) before `sendGroupV2Helper` (C97, C166); the proof joins C108, C109 and C166. First sentence proved for groups of the new kind, under the assumptions of C108 about the servers and of C166 about the group (`C175_everyone_partial`); their clients may crash (C94). Whatever the servers answer, a message goes out only after the content server has taken the whole encrypted file, and carries its keys and digest (`C175_only_if_uploaded`). Second sentence refuted: the file is uploaded before the group is looked at, so that for every group that is unknown or left the encrypted file is on the content server and the call fails (`C175_uploaded_first`). The recipients in groups of the old kind are C69.
* **C176 The end of the companion process** — partial, in `Props/BackendEnd`. `Model/BackendEnd.lean` is `copyAndCapture` and the rest of `Run` on a list of reads, by induction on the list; what becomes of requests is an invariant (no connection is up) over all schedules of the model of C142. First two parts proved for pipes that end in a read of its own, as those of the operating system do (`C176_goes_on_partial`), with the exact condition under which a clean end of the companion ends the client (`C176_fatal_iff`). Third part refuted: nothing starts the companion again, so in no schedule does a request reach one after its end, though requests are still taken without an error and their callers wait (`C176_not_restarted`).
* **C177 A sender who hides from the server is treated like any other** — partial, in `Props/Hidden`. Simulation between the handler called with and without the sender's name, and independence of the log from the rest of the state, both by composition over the monad of `Model/Receive.lean`. Proved: once the companion has opened it, the same effect on the stored state, the same result and the same calls of the application, up to the sender's name (`C177_like_open_partial`; that the group code does not use the name is groupsv2.go:239-318). Refuted: the name is empty; the message is shown as often as the companion opens it, since the client keeps no record of it (`C177_shown_again`); and identities the client has pinned or the user has compared do not matter (`C177_identity_not_compared`). Whether the companion refuses repetitions and changed keys is outside the repository.
* **C178 Stopping the companion process** — partial, in `Props/BackendStop`. `Model/BackendStop.lean` is an interleaving of the listener, of `Stop` in its three steps, of the companion and of the connection; invariants over all schedules, a rank for the end of the listener. Success is reported exactly when the companion is interrupted (`C178_told`), and the listener ends within five steps of its own once the flag is set (`C178_listener_ends`). Quiet afterwards is proved for calls while the listener is not on the way to a connection: no connection from the call on, and only messages that had arrived are read (`C178_quiet_partial`). Refuted: a call during an attempt to connect reports success, then the connection is made and any number of messages is read (`C178_goes_on`); a call before the first attempt fails, and after it every call fails, so that the companion is never interrupted (`C178_too_early`).
* **C179 A connection that answers is kept, a dead one is given up** — partial, in `Props/Deadline`. `Model/Deadline.lean` is the loop of `ReadMessage` with its deadline, over lists of frames with times; induction on the frames, with the lag behind the pongs as invariant. The second half is proved without restriction (`C179_given_up`). The first half is proved, for any number of pings, when an answer takes `r` and the messages between two answers take `b` to handle, `r + b` below six seconds (`C179_kept_partial`), and the bound is sharp (`C179_kept_sharp`). Refuted otherwise: answers are noticed only behind the messages that wait, so whenever these take a minute together the connection is given up with everything behind them unread, though every ping has been answered (`C179_backlog`); of the messages that wait, those that fit into the minute are read (`C179_progress`). What the websocket reads ahead, at most 1024 bytes, is not modelled.
* **C180 What of received messages goes to the log** — partial, in `Props/Logging`. `Model/Logging.lean` gives the lines with their levels; the contents are read by `Model/Content.lean`. Case analysis; for the keys `decFields_enc` of `Proof/Wire.lean`. The level is decided as stated, unknown names meaning information (`C180_level`). Proved for contents with a part that has a handler and for contents that cannot be parsed (`C180_handled_partial`). Refuted otherwise: all other contents are logged in full as an error, hence at every setting (`C180_contents_written`), among them every message that hands over the key of someone's group messages (`C180_key_written`); the sender of each sealed message is logged unless the level is set to warnings or errors (`C180_sender_written`). The lines of the handlers themselves are not modelled.
* **C181 The picture shown for a contact is their latest** — partial, in `Props/Avatars`. `Model/Avatars.lean` has the package variable, the directories and the files, with the paths of `Model/Paths.lean`; induction on the calls. Proved for all sequences of calls with plain names, without another `Setup` and without files left half written, whichever directories and files can be made (`C181_latest_partial`); saving succeeds with a working disk (`C181_saved`). Refuted otherwise: a write that fails has already emptied the old file (`C181_lost`); no picture cannot be saved, so that the old one stays (`C181_removed_stays`), and a profile that comes without a picture changes nothing (`C181_removal_unnoticed`); the directory of the first account is kept for every later one (`C181_other_account`); and if making the directory fails once it is never tried again (`C181_never_made`, reached by `C181_not_made`). Names that are not plain: C86.
* **C182 Publishing what arrives** — partial, in `Props/Redis`. `Model/Redis.lean` performs the effects of `messageHandler` of `Model/Gateway.lean`; induction on the messages. Published are exactly the texts of the messages that arrive while redis can be reached, once and in order (`C182_published_partial`), all of them without interruptions (`C182_all`). Refuted: the result of `Publish` is dropped, the log being the same with and without an interruption (`C182_silent`); a client of redis is made for each message and never closed (`C182_clients`); each text is logged at the default level (`C182_text_written`), though not at the levels for warnings and errors (`C182_text_hidden`). Under which name it is published: C132. Messages without text are published too.
