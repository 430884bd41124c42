{"id": "C01", "title": "Key agreement on first contact", "statement": "If a client builds a session from a peer's published prekey bundle and sends a first message, then the peer, holding the matching identity, signed and (when the bundle carried one) one-time private keys, decrypts exactly that plaintext, and both sides end with the same root key and matching chains.", "quantifier": "all identity/base/ratchet/prekey key pairs, with or without a one-time prekey, all plaintexts, all registration ids and nonzero prekey ids", "why_tests_cant": "the agreement is an algebraic identity over every choice of four or more key pairs and both bundle shapes; a test samples a few keys", "anchors": ["axolotl/session.go: BuildSenderSession, BuildReceiverSession, SessionEncryptMessage, SessionDecryptPreKeyWhisperMessage", "axolotl/ratchet.go: initializeSenderSession, initializeReceiverSession, createChain, calculateDerivedKeys"]}
{"id": "C02", "title": "Conversation correctness under every schedule", "statement": "Once two clients share a session, then for every interleaving of sends in both directions and every order of delivery with loss and duplication, the first delivery of a message that is at most 2000 ahead in its chain and whose chain is among the receiver's five newest returns exactly the plaintext that was sent, and every duplicate is rejected without changing the session.", "quantifier": "all finite schedules of send/deliver events by both parties, all plaintexts, all fresh ratchet keys", "why_tests_cant": "the number of schedules is unbounded and ratchet steps interact across them; tests exercise a handful of orders", "anchors": ["axolotl/session.go: SessionEncryptMessage, SessionDecryptWhisperMessage, ss.decrypt, getOrCreateChainKey, getOrCreateMessageKeys, addReceiverChain"]}
{"id": "C03", "title": "Out-of-order window is exactly 2000", "statement": "On an existing receiving chain a message whose counter is up to 2000 ahead of the next expected one is accepted for key derivation and all skipped messages remain decryptable later; one that is 2001 or more ahead is refused and the stored session does not change.", "quantifier": "all chain states, all counters", "why_tests_cant": "boundary over all chain positions and skip distances, including every later delivery order of the skipped messages", "anchors": ["axolotl/session.go: getOrCreateMessageKeys, setMessageKeys, removeMessageKeys"]}
{"id": "C04", "title": "No message key is used twice for sending", "statement": "No two messages ever returned to the caller by encryption for one peer device carry the same ratchet key and counter, for every history of encryptions, incoming messages, failed store writes and crashes with restart.", "quantifier": "all histories of API calls, all points at which a write fails or the process dies", "why_tests_cant": "needs an invariant over every history and crash point; a test cannot kill the process at every instruction in every history", "anchors": ["axolotl/session.go: SessionEncryptMessage, setSenderChainKey, getNextChainKey", "store.go: StoreSession"]}
{"id": "C05", "title": "Failed decryption does not change the stored session", "statement": "If decrypting an incoming message returns an error, the persisted session of that peer device, and of every other peer device, is what it was before the call.", "quantifier": "all stored states, all incoming messages (genuine, replayed, corrupted, forged)", "why_tests_cant": "the decryptor mutates the loaded record on many failing paths; all of them must be shown not to reach the store", "anchors": ["axolotl/session.go: SessionDecryptWhisperMessage, SessionDecryptPreKeyWhisperMessage, sc.decrypt"]}
{"id": "C06", "title": "At-most-once delivery", "statement": "A given incoming message is decrypted successfully at most once: presenting the same bytes again never returns the plaintext a second time.", "quantifier": "all session records (including ones with archived states), all later histories", "why_tests_cant": "depends on histories that archive and promote session states; unit tests replay on a fresh session only", "anchors": ["axolotl/session.go: sc.decrypt, promoteState, getOrCreateMessageKeys"]}
{"id": "C07", "title": "Bounded session state", "statement": "In every reachable stored session record there are at most 40 archived states and each state holds at most five receiving chains.", "quantifier": "all histories of session builds, encryptions and decryptions", "why_tests_cant": "invariant over unbounded histories, including adversarial peers that ratchet and re-key arbitrarily often", "anchors": ["axolotl/session.go: addReceiverChain, promoteState, archiveCurrentState"]}
{"id": "C08", "title": "Skipped-key bookkeeping is exact", "statement": "After any sequence of accepted messages on a chain, the keys retained for skipped messages are exactly those for counters below the chain position that have not been delivered, each equal to the key the sender used; none is retained after use.", "quantifier": "all sequences of accepted counters on a chain", "why_tests_cant": "an exact set equality after every delivery order; tests check a few orders", "anchors": ["axolotl/session.go: getOrCreateMessageKeys, setMessageKeys, removeMessageKeys, hasMessageKeys"]}
{"id": "C09", "title": "Plaintext is only released for authenticated messages", "statement": "Whenever decryption returns a plaintext, the message's MAC over version byte and body was valid under the message key of one of the record's states, bound to that state's remote identity as sender and local identity as receiver, and the plaintext is the decryption of exactly the authenticated ciphertext.", "quantifier": "all session records and all incoming byte strings", "why_tests_cant": "a universally quantified statement about every accepting path, including archived states", "anchors": ["axolotl/session.go: ss.decrypt", "axolotl/messages.go: verifyMAC, getMac"]}
{"id": "C10", "title": "Sessions of different peers and devices are independent", "statement": "Encrypting to, decrypting from, building or deleting a session with one (recipient, device) never changes what is loaded for another (recipient, device).", "quantifier": "all pairs of distinct addresses (recipient ids over any characters except the path separator), all operations", "why_tests_cant": "requires injectivity of the stored-file naming over all ids, which sampling cannot establish", "anchors": ["store.go: sessionFilePath, StoreSession, DeleteSession, DeleteAllSessions", "axolotl/session.go: SessionEncryptMessage"]}
{"id": "C11", "title": "Deleting all sessions of a peer", "statement": "After deleting all sessions of a recipient no device session of that recipient remains, and no session of any other recipient is removed.", "quantifier": "all store contents and recipients", "why_tests_cant": "ranges over all directory contents, including ids containing underscores", "anchors": ["store.go: DeleteAllSessions, GetSubDeviceSessions, sessionFilePath", "textsecure.go: handleFlags"]}
{"id": "C12", "title": "Listing a peer's devices", "statement": "Asking for the device sessions of a recipient returns exactly the devices of that recipient for which a session is stored.", "quantifier": "all store contents and recipients", "why_tests_cant": "needs all store contents; the function is only observed with one recipient in practice", "anchors": ["store.go: GetSubDeviceSessions"]}
{"id": "C13", "title": "An unreadable session is not silently replaced", "statement": "Loading a session whose stored file exists but cannot be read or authenticated reports an error rather than yielding a fresh empty session.", "quantifier": "all stored file contents and keys", "why_tests_cant": "ranges over every corruption of the file", "anchors": ["store.go: LoadSession, readFile, decrypt"]}
{"id": "C14", "title": "Trust on first use is sticky", "statement": "Once an identity key is recorded for a peer, then (unless the application says to always trust that peer) every bundle and every incoming prekey message presenting a different identity key is refused with a not-trusted error and changes no stored session, prekey or identity.", "quantifier": "all histories, all presented identity keys", "why_tests_cant": "invariant over all histories of builds and receives", "anchors": ["store.go: IsTrustedIdentity, SaveIdentity", "axolotl/session.go: BuildReceiverSession, BuildSenderSession"]}
{"id": "C15", "title": "Identity is pinned only by an authenticated message", "statement": "An incoming prekey message that fails to decrypt does not record its claimed identity key as the trusted key of the sender.", "quantifier": "all incoming prekey messages that fail", "why_tests_cant": "the attack needs a crafted message; order of effects inside the call must be checked for every failing path", "anchors": ["axolotl/session.go: BuildReceiverSession, SessionDecryptPreKeyWhisperMessage"]}
{"id": "C16", "title": "One-time prekeys are used once, last-resort key is kept", "statement": "After a successful incoming prekey message naming one-time prekey n (not the last-resort id), prekey n is gone, so any other first message naming n is refused; prekeys other than n, and always the last-resort one, remain; a failed message removes none.", "quantifier": "all prekey stores, all incoming prekey messages", "why_tests_cant": "ranges over all stores and messages, and over all failing paths", "anchors": ["axolotl/session.go: BuildReceiverSession, SessionDecryptPreKeyWhisperMessage", "store.go: RemovePreKey, LoadPreKey"]}
{"id": "C17", "title": "Every published prekey is usable", "statement": "For every prekey a client may publish, a peer using it in its first message is understood by the publisher.", "quantifier": "all prekey ids that key generation can produce, including 0", "why_tests_cant": "id 0 is produced with probability 2^-24 per batch; tests never see it", "anchors": ["prekeys.go: randID, generatePreKeys", "axolotl/session.go: BuildSenderSession, BuildReceiverSession", "axolotl/messages.go: LoadPreKeyWhisperMessage"]}
{"id": "C18", "title": "First-message handling is crash-atomic", "statement": "If the process dies at any point while handling an incoming prekey message, then after restart redelivery of the same message can still be decrypted, or it had already been handed to the application.", "quantifier": "all crash points in the handling of one message, all stores", "why_tests_cant": "every crash point between two persistent effects must be considered", "anchors": ["axolotl/session.go: SessionDecryptPreKeyWhisperMessage"]}
{"id": "C19", "title": "A bundle with a bad signature has no effect", "statement": "Building a session from a bundle whose signed prekey signature does not verify under the bundle's identity key returns an error and changes no stored session or identity.", "quantifier": "all bundles, all stores", "why_tests_cant": "universal over all bundles and stores", "anchors": ["axolotl/session.go: BuildSenderSession"]}
{"id": "C20", "title": "Repeated prekey messages do not reset the session", "statement": "Several prekey messages with the same base key (sent before the first reply) all decrypt within one session: the second and later ones build no new session and consume no prekey.", "quantifier": "all records already containing a state for that base key, all prekey messages carrying it", "why_tests_cant": "history-dependent property over all records, including archived states", "anchors": ["axolotl/session.go: hasSessionState, BuildReceiverSession"]}
{"id": "C21", "title": "Session calls on one store serialise", "statement": "Concurrent encryptions and decryptions on one store behave as if executed one after another: no update of the session is lost and no counter is issued twice, under every interleaving of their load and store steps.", "quantifier": "all interleavings of any number of concurrent calls", "why_tests_cant": "interleavings cannot be enumerated by tests", "anchors": ["axolotl/session.go: SessionEncryptMessage, SessionDecryptWhisperMessage (Lock/Unlock)", "store.go: Lock, Unlock"]}
{"id": "C22", "title": "Building a session concurrently with other session calls", "statement": "Building an outgoing session while another call updates the session of the same peer loses neither update.", "quantifier": "all interleavings of a build with an encrypt or decrypt", "why_tests_cant": "interleaving-dependent", "anchors": ["axolotl/session.go: BuildSenderSession (takes no lock)", "server.go: buildMessage"]}
{"id": "C23", "title": "Message wire round trip", "statement": "Parsing the bytes produced for an encrypted message yields the same version, ratchet key, counter, previous counter and ciphertext, and its MAC verifies under the same key and identities.", "quantifier": "all 32-byte ratchet keys, all 32-bit counters, all ciphertexts, all MAC keys and identities", "why_tests_cant": "round trip over the full input space of the variable-length encoding", "anchors": ["axolotl/messages.go: newWhisperMessage, LoadWhisperMessage, verifyMAC", "axolotl/protobuf/WhisperTextProtocol.pb.go: SignalMessage"]}
{"id": "C24", "title": "Prekey message wire round trip", "statement": "Parsing the bytes produced for a prekey message yields the same registration id, prekey ids, base key, identity key and embedded message.", "quantifier": "all ids (signed prekey id nonzero), keys and embedded messages", "why_tests_cant": "round trip over the full input space", "anchors": ["axolotl/messages.go: newPreKeyWhisperMessage, LoadPreKeyWhisperMessage"]}
{"id": "C25", "title": "Hostile bytes never crash the message parsers", "statement": "Parsing any byte string as a message or prekey message either returns a message or an error; it never panics.", "quantifier": "all byte strings", "why_tests_cant": "all byte strings cannot be enumerated", "anchors": ["axolotl/messages.go: LoadWhisperMessage, LoadPreKeyWhisperMessage", "axolotl/keys.go: ensureKeyLength"]}
{"id": "C26", "title": "Stored session record round trip", "statement": "A session record written to the store and loaded again has the same states, chains, keys, counters, pending prekey and registration ids, so behaviour after a restart equals behaviour without one.", "quantifier": "all reachable session records", "why_tests_cant": "ranges over all nested records in a compact binary encoding that omits zero fields", "anchors": ["axolotl/session.go: Serialize, LoadSessionRecord", "axolotl/protobuf/LocalStorageProtocol.pb.go"]}
{"id": "C27", "title": "Symmetric encryption round trip", "statement": "Decrypting what encryption produced under the same key returns the plaintext, for message bodies, attachments, stored files and provisioning data.", "quantifier": "all keys, IVs and plaintexts of every length", "why_tests_cant": "padding correctness for all lengths and all final bytes", "anchors": ["axolotl/crypto.go: Encrypt, Decrypt", "crypto.go: aesEncrypt, aesDecrypt"]}
{"id": "C28", "title": "Symmetric decryption never crashes", "statement": "Decrypting any byte string returns plaintext or an error, and inputs not a multiple of the block size or with an invalid padding byte are refused.", "quantifier": "all byte strings", "why_tests_cant": "all byte strings", "anchors": ["axolotl/crypto.go: Decrypt", "crypto.go: aesDecrypt"]}
{"id": "C29", "title": "Traffic padding round trip and length hiding", "statement": "Stripping the padding of a padded message returns the message; the padded length is a positive multiple of 160, depends only on the message's length, and takes one value per 160-byte bucket.", "quantifier": "all message bodies, including ones ending in 0x00 or 0x80", "why_tests_cant": "all lengths and final bytes", "anchors": ["server.go: padMessage, stripPadding"]}
{"id": "C30", "title": "Encrypted store round trip and tamper detection", "statement": "A file written by the encrypted store reads back as the same bytes; a read that succeeds implies the file's MAC was valid under the store key, and a file of at least 32 bytes whose MAC is wrong is refused.", "quantifier": "all contents, keys and file contents", "why_tests_cant": "all contents and corruptions", "anchors": ["store.go: encrypt, decrypt, readFile, writeFile", "crypto.go: appendMAC, verifyMAC"]}
{"id": "C31", "title": "Reading a truncated store file is an error", "statement": "Reading an encrypted store file truncated to any length returns an error rather than crashing the program.", "quantifier": "all truncations of all files", "why_tests_cant": "all truncation points, as after a crash during a write", "anchors": ["store.go: decrypt"]}
{"id": "C32", "title": "Attachment round trip and integrity", "statement": "Downloading what was uploaded, with the key and digest put in the pointer, yields the original bytes; data whose MAC is invalid under the key is refused.", "quantifier": "all attachment contents and keys, all altered blobs", "why_tests_cant": "all contents and corruptions", "anchors": ["attachments.go: uploadAttachmentV3, handleSingleAttachment"]}
{"id": "C33", "title": "Provisioning data can be opened by the new device", "statement": "The provisioning envelope produced for a new device's public key, opened with that device's private key, yields the provisioning message.", "quantifier": "all key pairs and messages", "why_tests_cant": "algebraic over all keys and lengths", "anchors": ["crypto.go: provisioningCipher"]}
{"id": "C34", "title": "Transport decryption authenticity", "statement": "The envelope handed on for processing is either the authenticated decryption of the received bytes, or an error is reported: bytes that fail authentication are not processed.", "quantifier": "all received byte strings and signaling keys", "why_tests_cant": "all byte strings", "anchors": ["textsecure.go: decryptReceivedMessage", "websocket.go: StartListening"]}
{"id": "C35", "title": "Signatures verify", "statement": "A signature made with a private key over a message verifies under the corresponding public key, and verification leaves the signature unchanged so it can be verified again.", "quantifier": "all private keys, messages and random inputs", "why_tests_cant": "algebraic identity over the whole key space; sign-bit handling affects half of all keys", "anchors": ["curve25519sign/curve25519sign.go: Sign, Verify"]}
{"id": "C36", "title": "Both parties see the same safety number", "statement": "For any two users, the number computed on one side equals the number computed on the other side (local and remote swapped).", "quantifier": "all identifiers and identity keys", "why_tests_cant": "symmetry over all inputs, including ties", "anchors": ["fingerprint/fingerprint.go: CreateFingerprint", "fingerprint/fingerprint_numbers.go: CreateFingerprintNumbers, compareFingerprintBlocks"]}
{"id": "C37", "title": "Safety number format, key-order independence and binding", "statement": "A safety number always consists of twelve groups of five decimal digits, and does not depend on the order in which a user's identity keys are listed. The fingerprints behind it bind identifier and keys: two different users get the same one only if two different texts hashed on the way have the same hash.", "quantifier": "all inputs, all permutations of the key list", "why_tests_cant": "all inputs and permutations", "anchors": ["fingerprint/fingerprint.go: getFingerprint, getLogicalKeyBytes, getEncodedChunk"]}
{"id": "C38", "title": "QR fingerprint round trip", "statement": "Scanning the QR data produced by the peer yields exactly the two fingerprints it encoded, and the comparison succeeds exactly when each side's view of local/remote agrees.", "quantifier": "all fingerprints of at least 32 bytes", "why_tests_cant": "all inputs", "anchors": ["fingerprint/qr_fingerprint.go: CreateQRFingerprint, ScanQRFingerprint"]}
{"id": "C39", "title": "Prekey files: naming and order", "statement": "Storing a prekey under an id and listing the directory recovers that id, different ids never share a file, and the directory order is the numeric order of the ids.", "quantifier": "all ids below 10^9", "why_tests_cant": "all ids", "anchors": ["store.go: idToFilename, filenameToID, preKeysDir", "prekeys.go: loadPreKeys"]}
{"id": "C40", "title": "Published prekey state", "statement": "After generating prekeys on an empty store, the published state contains exactly the 100 new one-time keys and the last-resort key has the reserved id, each with the public key whose private half is stored.", "quantifier": "all random start ids and key pairs", "why_tests_cant": "start ids near the top of the range wrap or collide with the reserved id", "anchors": ["prekeys.go: generatePreKeys, generatePreKeyState, loadPreKeys"]}
{"id": "C41", "title": "Key text encoding round trip", "statement": "Decoding the text form of a key or signature gives back the key or signature; decoding refuses keys of the wrong length or type byte.", "quantifier": "all keys, signatures and strings", "why_tests_cant": "all inputs", "anchors": ["textsecure.go: encodeKey, decodeKey, decodeSignature", "helpers/base64.go"]}
{"id": "C42", "title": "Hex and UUID text forms", "statement": "Formatting a 16-byte id as UUID text is injective and reversible, and hex group ids identify groups uniquely.", "quantifier": "all byte strings", "why_tests_cant": "all inputs", "anchors": ["groupsv2/createGroupChange.go: HexToUUID", "helpers/helpers.go: HexToUUID", "groupsv2/groupsv2.go: idToHex", "server.go: idToHexUUID"]}
{"id": "C43", "title": "Every request is acknowledged once, in order", "statement": "While listening, each request read from the connection is acknowledged exactly once, in arrival order and only after it has been processed, whatever processing returned.", "quantifier": "all sequences of incoming frames and processing outcomes", "why_tests_cant": "all sequences of outcomes", "anchors": ["websocket.go: StartListening, sendAck, writeWorker"]}
{"id": "C44", "title": "No acknowledgement without handling", "statement": "A request is acknowledged only if its content was handed to the application or was intentionally ignorable; a message that failed to be processed is not acknowledged (so that the server redelivers it).", "quantifier": "all failing outcomes", "why_tests_cant": "all failing paths", "anchors": ["websocket.go: StartListening", "textsecure.go: handleReceivedMessage"]}
{"id": "C45", "title": "A decrypted message reaches the application", "statement": "If an incoming message was successfully decrypted (its session state was advanced and stored), its content is dispatched to the message handler.", "quantifier": "all envelopes and session stores, including sessions stored under the legacy address form", "why_tests_cant": "depends on a fallback path taken only for legacy addresses", "anchors": ["textsecure.go: handleReceivedMessage"]}
{"id": "C46", "title": "Dispatch is deterministic and exclusive", "statement": "A decrypted content is dispatched to exactly one kind of handler, chosen by the fixed priority data, sync, call, receipt, typing, null.", "quantifier": "all contents, including ones with several parts set", "why_tests_cant": "all combinations of optional parts", "anchors": ["handler.go: handleMessage"]}
{"id": "C47", "title": "Incoming content never crashes the client", "statement": "Any decrypted content sent by a peer is handled or reported as an error; it never panics the listener.", "quantifier": "all contents", "why_tests_cant": "all contents with any optional fields missing", "anchors": ["handler.go: handleReceiptMessage, handleDataMessage, handleTypingMessage", "websocket.go: StartListening"]}
{"id": "C48", "title": "Session reset request", "statement": "A message with the end-session flag deletes all sessions of its sender and only those.", "quantifier": "all stores, all senders", "why_tests_cant": "all stores", "anchors": ["textsecure.go: handleFlags"]}
{"id": "C49", "title": "Device reconciliation", "statement": "After a mismatched-devices reply, the next attempt addresses exactly the old devices that were not reported extra plus the devices reported missing; after a stale-devices reply exactly the stale sessions are rebuilt; and sending succeeds within finitely many attempts against a server whose device list is stable.", "quantifier": "all device lists and server reply sequences", "why_tests_cant": "all reply sequences", "anchors": ["server.go: buildAndSendMessage, buildMessage"]}
{"id": "C50", "title": "One ciphertext per device", "statement": "A sent message contains exactly one entry per addressed device, in order, each encrypted under that device's session and carrying that session's registration id.", "quantifier": "all device lists and stores", "why_tests_cant": "all device lists", "anchors": ["server.go: buildMessage"]}
{"id": "C51", "title": "Outgoing data message carries what was asked", "statement": "The data message built for sending carries the body, timestamp, expiry, attachment, flags and group context the caller specified.", "quantifier": "all outgoing messages", "why_tests_cant": "all combinations of optional parts", "anchors": ["server.go: createMessage"]}
{"id": "C52", "title": "Group membership updates", "statement": "After an incoming group update the member list is the one in the update; after a quit the quitting member is gone and every other member remains in the same order.", "quantifier": "all groups and members", "why_tests_cant": "all groups", "anchors": ["groups.go: updateGroup, quitGroup, removeMember"]}
{"id": "C53", "title": "Leaving a group", "statement": "After leaving a group successfully it is no longer found and messages to it are refused.", "quantifier": "all groups", "why_tests_cant": "all group states", "anchors": ["groups.go: LeaveGroup"]}
{"id": "C54", "title": "Administrative group changes need an administrator", "statement": "A group change that alters roles, access rules, invite password, announcement mode, or removes or approves someone else succeeds only if the requester is an administrator member.", "quantifier": "all groups, requesters and actions", "why_tests_cant": "all groups and action lists", "anchors": ["groupsv2/groupChange.go: Apply*", "groupsv2/groupAuth.go"]}
{"id": "C55", "title": "Group changes preserve unique membership", "statement": "If no user appears twice in the membership lists before a change that succeeds, none does afterwards.", "quantifier": "all groups and action lists", "why_tests_cant": "all groups and action lists", "anchors": ["groupsv2/groupChange.go: ApplyAddMembers, ApplyAddMembersPendingProfileKeys, ApplyPromotePendingAdminApproval"]}
{"id": "C56", "title": "Rejected group changes have no effect", "statement": "If modifying a group returns an error, the group's state is unchanged.", "quantifier": "all groups, requesters and submitted changes", "why_tests_cant": "all failing paths, many of which follow earlier successful parts of the same change", "anchors": ["groupsv2/groupModify.go: ModifyGroup", "groupsv2/groupChange.go"]}
{"id": "C57", "title": "Valid group changes are accepted", "statement": "A well-formed change submitted by an administrator to a valid group is accepted.", "quantifier": "all valid groups and administrator changes", "why_tests_cant": "all groups", "anchors": ["groupsv2/groupModify.go: ModifyGroup", "groupsv2/groupValidator.go: ValidateFinalGroupState"]}
{"id": "C58", "title": "Authorisation is judged against the group before the change", "statement": "Whether a part of a change is permitted depends only on the group as it was before the change: a user gains no rights within the same change by adding or promoting themselves.", "quantifier": "all groups and multi-part changes", "why_tests_cant": "needs multi-part changes where an earlier part affects a later check", "anchors": ["groupsv2/groupModify.go: ModifyGroup (groupImmut)", "groupsv2/groupAuth.go"]}
{"id": "C59", "title": "Final group validation", "statement": "A group accepted by final validation has a non-empty bounded title, bounded description and size, no user in two membership lists or twice in one, valid roles and access values, and no open invite link without password.", "quantifier": "all groups", "why_tests_cant": "all groups", "anchors": ["groupsv2/groupValidator.go: ValidateFinalGroupState, ValidateRoles, ValidateAccessControl"]}
{"id": "C60", "title": "Contact sync framing", "statement": "The stream of length-prefixed contact records splits back into exactly the records written, in order.", "quantifier": "all lists of records of length below 2^32", "why_tests_cant": "all lengths of varint prefix", "anchors": ["sync.go: varint32, sendContactUpdate, sendGroupUpdate"]}
{"id": "C61", "title": "Contact discovery request and response mapping", "statement": "The numbers put in a discovery query are recovered from its bytes in order, and each id in the response is attributed to the number at the same position.", "quantifier": "all number lists and responses", "why_tests_cant": "all inputs", "anchors": ["contactDiscoveryCrypto/contactDiscoveryCrypto.go: buildQueryDataWithNonce, toByteArray, toLong", "server.go: GetRegisteredContacts"]}
{"id": "C62", "title": "Profile name round trip", "statement": "Decrypting an encrypted profile name returns the name; names longer than the padded length are refused.", "quantifier": "all names and keys", "why_tests_cant": "all lengths and final bytes", "anchors": ["profiles/profile.go: encryptName, decryptName"]}
{"id": "C63", "title": "Every backend request gets its reply", "statement": "A call that asks the companion process to open an envelope returns that request's reply, and never waits for a reply that has already arrived.", "quantifier": "all interleavings of the caller and the connection reader", "why_tests_cant": "a race between two goroutines", "anchors": ["crayfish/envelope.go: HandleEnvelope", "crayfish/backend.go: handleResponse"]}
{"id": "C64", "title": "A late message of an older session leaves the newer one usable", "statement": "When a message of an archived session is accepted, the other sessions of the record keep working: a message that the peer sends or reads in the newer session is readable exactly if it would have been without the late message.", "quantifier": "all records with several sessions and all delivery orders", "why_tests_cant": "needs two sessions, a late message and a reply; unit tests use one session", "anchors": ["axolotl/session.go: SessionCipher.decrypt", "axolotl/session.go: promoteState"]}
{"id": "C66", "title": "Prekey replies are handled safely", "statement": "Whatever the server answers to a prekey request, the client does not crash, and a session is only ever created or replaced for the device it asked for, from a bundle whose signed prekey is signed by the bundle's identity key.", "quantifier": "all replies, stores and device ids", "why_tests_cant": "all malformed replies", "anchors": ["prekeys.go: makePreKeyBundle", "server.go: buildMessage"]}
{"id": "C67", "title": "A failing transcript does not undo a send", "statement": "If a message was accepted by the server, the send call returns its timestamp whatever happens to the transcript sent to the user's own devices.", "quantifier": "all messages, states and failures of the transcript", "why_tests_cant": "all failure points of the second request", "anchors": ["sender.go: sendMessage, sendSyncMessage"]}
{"id": "C68", "title": "One timestamp per message", "statement": "Every request made for a message, including retries and the transcript, carries the timestamp of the data message, and that timestamp is returned to the caller.", "quantifier": "all messages, servers and numbers of retries", "why_tests_cant": "all retry sequences", "anchors": ["sender.go: sendMessage", "server.go: createMessage, buildAndSendMessage"]}
{"id": "C69", "title": "Who a group message goes to", "statement": "A message to a legacy group is handed to each member other than the user exactly once, in order, with the same content and timestamp; if a send fails, exactly the members before it have been written to and an error is returned.", "quantifier": "all groups and outcomes of the individual sends", "why_tests_cant": "all member lists and failure points", "anchors": ["groups.go: sendGroupHelper"]}
{"id": "C70", "title": "Creating a group", "statement": "After creating a legacy group it is found under its id with the given name, the given members and the user's own number, each once, also after a restart, and every other member has been sent one update listing all members.", "quantifier": "all names and member lists", "why_tests_cant": "all member lists", "anchors": ["groups.go: NewGroup, newGroup, sendUpdate"]}
{"id": "C71", "title": "People can be added to groups, invited, and can ask to join", "statement": "A permitted change that adds a member, invites someone or asks to join is accepted and puts exactly the people named on the corresponding list.", "quantifier": "all groups, requesters, people and validator limits", "why_tests_cant": "a refusal for every input shows in no finite set of examples; the checks that contradict each other lie in different functions", "anchors": ["groupsv2/groupModify.go: ModifyGroup, getSourceUuid", "groupsv2/groupValidator.go: ValidateMember, ValidateMemberPendingProfileKey", "groupsv2/groupChange.go: ApplyAddMembers, ApplyAddMembersPendingProfileKeys, ApplyAddMembersPendingAdminApproval"]}
{"id": "C72", "title": "Only contacts with a real UUID are synced", "statement": "The contact sync sent to linked devices contains exactly the contacts whose stored UUID is the text of a version 4 UUID (8-4-4-4-12 hexadecimal digits, version 4, variant 8, 9, a or b); every other contact is left out.", "quantifier": "all contact lists and all UUID texts", "why_tests_cant": "all texts: the check is a regular expression whose character class also admits a character nobody tries", "anchors": ["sync.go: isValidUUID, sendContactUpdate"]}
{"id": "C73", "title": "Refreshing the registered contacts keeps what is known", "statement": "Refreshing the list of registered contacts never removes a contact that was known before, and keeps the profile key, name and avatar stored for it.", "quantifier": "all contact lists, address books and service answers", "why_tests_cant": "all combinations of known contacts and address book entries", "anchors": ["server.go: GetRegisteredContacts"]}
{"id": "C74", "title": "Contacts survive a restart", "statement": "Every contact held after a refresh is held, under the same key and with the same fields, after the program is restarted and reads its contacts file.", "quantifier": "all contact lists and file orders", "why_tests_cant": "a lost contact depends on the order in which a Go map is written", "anchors": ["server.go: GetRegisteredContacts", "contacts/contacts.go: LoadContacts, WriteContactsToPath"]}
{"id": "C75", "title": "A discovery request can be opened by the enclave, and only its answer is accepted", "statement": "A contact discovery request carries, for each attested enclave, an envelope from which that enclave recovers the query key; the query key opens the query data; the data hashes to the stated commitment; and the client decodes exactly the answer encrypted by the enclave whose request id it echoes.", "quantifier": "all attestations, queries, random values and answers", "why_tests_cant": "all keys, nonces and queries", "anchors": ["contactDiscoveryCrypto/contactDiscoveryCrypto.go: CreateDiscoveryRequest, GetDiscoveryResponseData"]}
{"id": "C76", "title": "One unusable phone number does not stop the refresh", "statement": "If the address book holds a phone number that cannot be looked up, the other contacts are still refreshed.", "quantifier": "all address books", "why_tests_cant": "all number texts", "anchors": ["server.go: GetRegisteredContacts", "contactDiscoveryCrypto/contactDiscoveryCrypto.go: buildQueryDataWithNonce"]}
{"id": "C77", "title": "The discovery service cannot crash the client", "statement": "Whatever the contact discovery service answers, the refresh ends with an error or a result, not with a crash of the program.", "quantifier": "all service answers", "why_tests_cant": "all answers, including truncated ones", "anchors": ["server.go: GetRegisteredContacts, idToHexUUID", "contactDiscoveryCrypto/contactDiscoveryCrypto.go: GetDiscoveryResponseData, aesDecrypt"]}
{"id": "C78", "title": "Profile keys are not shared", "statement": "The profile keys of two installations are unrelated: knowing how the program works does not give anyone's profile key.", "quantifier": "all installations, names, servers and numbers of restarts", "why_tests_cant": "a test in one process sees a random-looking key; only comparing separate processes shows it is always the same", "anchors": ["profiles/profile.go: GenerateProfileKey", "textsecure.go: Setup, registerDevice"]}
{"id": "C79", "title": "No nonce is used twice with the same profile key", "statement": "Two different profile names are never encrypted under the same key with the same nonce.", "quantifier": "all names and all starts of the program", "why_tests_cant": "needs the comparison of all pairs of program runs", "anchors": ["profiles/profile.go: encryptName, UpdateProfile", "textsecure.go: Setup"]}
{"id": "C80", "title": "The profile key survives a restart", "statement": "Restarting the program keeps the stored profile key, so those who were given it can still read the profile.", "quantifier": "all configurations and restarts", "why_tests_cant": "all histories of restarts", "anchors": ["textsecure.go: Setup"]}
{"id": "C81", "title": "A profile is shown decrypted", "statement": "Reading a profile whose name, description and emoji were encrypted with the given profile key returns these texts in clear.", "quantifier": "all profiles, keys and server answers", "why_tests_cant": "all texts; the failure is in the order of two requests", "anchors": ["profiles/profile.go: GetProfile, GetProfileAndCredential, decryptProfile"]}
{"id": "C82", "title": "The stored credential belongs to the stored profile key", "statement": "At all times the stored profile key credential was issued for the stored profile key.", "quantifier": "all histories of registration and restarts", "why_tests_cant": "needs arbitrarily many restarts", "anchors": ["textsecure.go: Setup, registerDevice"]}
{"id": "C83", "title": "A failed profile request is reported", "statement": "Asking for the profile of an account that does not exist, or whose server answers with an error, returns an error.", "quantifier": "all accounts, keys and error answers", "why_tests_cant": "all error answers", "anchors": ["profiles/profile.go: GetProfile"]}
{"id": "C84", "title": "Reading one contact's profile changes only that contact", "statement": "Fetching the profile of a contact changes no other contact and keeps that contact's number and profile key; the contact's user name, text and symbol become those of the profile where it has some, and a name given before is kept.", "quantifier": "all contact lists and server answers", "why_tests_cant": "all server answers, including wrong ones", "anchors": ["profiles/profile.go: GetProfileUUID"]}
{"id": "C85", "title": "An avatar cannot crash the client", "statement": "Whatever bytes are served as an avatar, they are decrypted with the contact's profile key or dropped; the program does not crash.", "quantifier": "all avatar files and profile keys", "why_tests_cant": "all files, including very short ones", "anchors": ["profiles/avatars.go: decryptAvatar", "profiles/profile.go: GetProfileUUID"]}
{"id": "C86", "title": "Files named after others stay in their place", "statement": "Whatever id the server announces for a sender or a profile: the session, the recorded identity and the avatar kept under that id are in a file of their own in the directory for sessions, identities or avatars, and never in the file of another peer or in the client's own files.", "quantifier": "all ids, devices and storage directories", "why_tests_cant": "the ids are chosen by an adversary", "anchors": ["store.go: sessionFilePath, SaveIdentity, IsTrustedIdentity", "profiles/avatars.go: saveLocalAvatar", "textsecure.go: handleReceivedMessage"]}
{"id": "C87", "title": "An expired sender certificate is replaced", "statement": "When the program starts with no sender certificate, an expired one or an unreadable one, it fetches and stores a new one.", "quantifier": "all certificates and times", "why_tests_cant": "all times: the comparison mixes units", "anchors": ["unidentifiedAccess/unidentifiedAccess.go: CheckCertificate", "textsecure.go: Setup, renewSenderCertificate"]}
{"id": "C88", "title": "Both sides compute the same access key", "statement": "The unidentified access key computed for a contact from the stored profile key equals the one the contact computes for itself; if it cannot be computed an error is returned.", "quantifier": "all profile keys", "why_tests_cant": "all keys and lengths", "anchors": ["unidentifiedAccess/unidentifiedAccess.go: DeriveAccessKeyFrom, GetAccessForUUID, GetTargetUnidentifiedAccessKey"]}
{"id": "C89", "title": "A profile key update changes only the key", "statement": "Storing a new profile key for a contact changes that key only; a contact not known before is created; other contacts and fields stay as they are.", "quantifier": "all contact lists, ids and keys", "why_tests_cant": "all contact lists", "anchors": ["contacts/contacts.go: UpdateProfileKey"]}
{"id": "C90", "title": "Generated private keys are valid scalars", "statement": "Every private key the library generates is a clamped Curve25519 scalar: 32 bytes, a multiple of 8, at least 2^254 and below 2^255, so that signing with it and key agreement with it use the same scalar.", "quantifier": "all 32 random bytes", "why_tests_cant": "2^256 random inputs; a slip in one of the three masks shows only for some bytes", "anchors": ["axolotl/keys.go: NewECKeyPair, GenerateIdentityKeyPair"]}
{"id": "C91", "title": "A registered client can be contacted", "statement": "When Setup reports success on a new installation, the server holds prekeys such that whichever published one-time prekey (or none) it hands out, any other client that makes a bundle of the reply and builds a session from it can send a first message which the registered client decrypts to the same plaintext.", "quantifier": "all random values, all histories of earlier interrupted starts, every published prekey, all callers and plaintexts", "why_tests_cant": "it links key generation, storage formats, directory order, text encoding, signatures and key agreement of two clients over all random choices and crash points", "anchors": ["textsecure.go: Setup, registerDevice", "prekeys.go: generatePreKeys, generatePreKeyState, makePreKeyBundle", "store.go", "axolotl/session.go"]}
{"id": "C92", "title": "An unfinished registration is finished at the next start", "statement": "If registration fails or the program dies at any point, then after a later start that reports success the server holds prekeys that belong to the private keys and identity on disk.", "quantifier": "all sequences of starts, each cut after any number of writes, with any answers of the server", "why_tests_cant": "every crash point and every server failure of every attempt has to be tried, in all sequences", "anchors": ["textsecure.go: Setup, registerDevice, needsRegistration", "store.go: valid", "prekeys.go: generateSignedPreKey"]}
{"id": "C93", "title": "Registration data survives a restart", "statement": "Once Setup has succeeded, every later start works with the same registration id, password, signaling key and identity key pair, makes no new ones, and these are the ones made at registration.", "quantifier": "all random values and all sequences of later starts", "why_tests_cant": "all values have to survive their storage formats, in every later start", "anchors": ["textsecure.go: Setup", "store.go: SetLocalRegistrationID, GetLocalRegistrationID, storeHTTPPassword, loadHTTPPassword, SetIdentityKeyPair, GetIdentityKeyPair"]}
{"id": "C94", "title": "A message to a group does not crash the program", "statement": "Handling an incoming message that names a group of the new kind returns a group or an error, whatever the master key, revision and change in it, whatever is on file and whatever the server answers.", "quantifier": "all group contexts, all stored groups, all server answers, all sequences of restarts", "why_tests_cant": "the crash depends on the combination of stored state, server answer and message, and on what an earlier crash left on disk", "anchors": ["groupsv2/groupsv2.go: HandleGroupsV2, UpdateGroupFromServer, loadGroupV2", "groupsv2/decrypt.go: decryptGroupFromServer, decryptGroup"]}
{"id": "C95", "title": "The group shown is the group the server has", "statement": "After an update that succeeds the client's copy, in memory and on disk, has the title, revision, avatar and members the server gives; after one that fails it is as before. No other group changes.", "quantifier": "all groups, all server answers, all earlier copies", "why_tests_cant": "answers that decrypt in part only have endless forms, and the earlier copy matters", "anchors": ["groupsv2/groupsv2.go: UpdateGroupFromServer, GetGroupV2MembersForGroup", "groupsv2/decrypt.go: decryptGroupFromServer, decryptGroup, decryptMember"]}
{"id": "C96", "title": "Groups survive a restart", "statement": "A group of the new kind that is stored on disk is found after a restart, whichever groups were used before it since the start.", "quantifier": "all stored groups, all orders of use", "why_tests_cant": "a test with one group passes; the order of lookups of several groups matters", "anchors": ["groupsv2/groupsv2.go: FindGroup, loadGroupV2, saveGroupV2", "groups.go: JoinGroup, sendGroupV2Helper"]}
{"id": "C97", "title": "A message to a group goes to each other member once", "statement": "A message to a group of the new kind is sent once to each member other than the sender, all with the same text, time, timer, group and revision; a non-member sends nothing; on failure the error is returned.", "quantifier": "all groups, all member lists, all outcomes of each delivery", "why_tests_cant": "member lists are unbounded and each delivery can fail", "anchors": ["groups.go: sendGroupV2Helper", "groupsv2/helpers.go: CheckJoinStatus"]}
{"id": "C98", "title": "Joining a group reports the outcome", "statement": "JoinGroup succeeds exactly if the server accepted the request of an invited account; otherwise it returns an error and the group does not count as joined.", "quantifier": "all groups, all lists of invited, all server answers", "why_tests_cant": "the server's refusal at each of three requests has to be combined with every list of invited", "anchors": ["groups.go: JoinGroup", "groupsv2/groupsv2.go: JoinGroup", "groupsv2/createGroupChange.go: AddPendingMembers, findMemberByUuid"]}
{"id": "C99", "title": "Group credentials are renewed", "statement": "Whenever the server would hand out credentials for today, a request to the group server has credentials for today.", "quantifier": "all series of requests on any days, all server answers", "why_tests_cant": "the fault shows after a week of running, or after one bad answer", "anchors": ["groupsv2/credentials.go: GetCredentialForRedemption, GetGroupAuthCredentials", "groupsv2/groupsv2api.go: NewGroupsV2Authorization"]}
{"id": "C100", "title": "Only changes of the group signed by the server are reported", "statement": "A change reported with a message to a group was signed by the server for this group and is newer than what was known; it is reported once.", "quantifier": "all changes, signatures, groups and histories", "why_tests_cant": "forgeries, replays and changes of other groups are adversarial inputs", "anchors": ["groupsv2/groupsv2.go: HandleGroupsV2, UpdateGroupFromServer", "groupsv2/groupActions.go: decryptGroupChangeActions"]}
{"id": "C101", "title": "Only members write to a group", "statement": "A message is shown in a group only if its sender is a member of that group.", "quantifier": "all senders, groups and messages", "why_tests_cant": "the sender is chosen by an adversary", "anchors": ["groupsv2/groupsv2.go: HandleGroupsV2", "handler.go: handleDataMessage"]}
{"id": "C102", "title": "People enter a group only as the access rules allow", "statement": "Whatever group change is submitted and however it ends: someone new is on the member list only if the requester is an administrator, or a member of a group whose rules let members add people, or it is the requester themselves and the rules let anyone in, or let in who has the link password and that password was given. Invitations need an administrator, or a member where the rules let members add people. A request to join is recorded only for the requester, with the link password, where the rules ask for approval.", "quantifier": "all groups, requesters, passwords and actions", "why_tests_cant": "all combinations of rules, roles, passwords and parts of a change, also of changes that fail half way", "anchors": ["groupsv2/groupAuth.go: isAddMemberAllowed, isAddMembersPendingProfileKeyAllowed, isAddMembersPendingAdminApprovalAllowed", "groupsv2/groupChange.go: ApplyAddMembers"]}
{"id": "C103", "title": "Changing a legacy group", "statement": "When UpdateGroup succeeds, the group found under that id is the one from before with the given name and exactly the given members and the user's own number, in memory and in the file; other groups are untouched; everyone who is or was a member has been told, by an update naming all the new members. An unknown id is refused and nothing is sent.", "quantifier": "all groups, names, member lists and outcomes of writing and sending", "why_tests_cant": "member lists and failures of the storage combine", "anchors": ["groups.go: UpdateGroup, changeGroup, sendUpdate"]}
{"id": "C104", "title": "Contact discovery end to end", "statement": "If the directory service holds the private keys of the attestation it gives and looks numbers up in a directory, a contact refresh gives each number asked about the id the directory has for that number, marks the contact as registered exactly when that id is not zero, and leaves all other contacts alone.", "quantifier": "all address books, directories, keys and random values", "why_tests_cant": "the real service cannot be reached from a test, and both sides must agree on every derived key and every byte for all address books", "anchors": ["server.go: GetRegisteredContacts", "contactsDiscovery/remoteAttestationUtil.go: GetAndVerifyMultiRemoteAttestation", "contactsDiscovery/contactDiscoveryCrypto.go: CreateDiscoveryRequest, GetDiscoveryResponseData"]}
{"id": "C105", "title": "Numbers are disclosed to attested enclaves only", "statement": "The numbers of the address book can be read only by a party that has shown, by a quote and a signature over it, that it is the expected enclave.", "quantifier": "all answers to the attestation request", "why_tests_cant": "the answers are chosen by an adversary", "anchors": ["contactsDiscovery/remoteAttestationUtil.go: validateAndBuildRemoteAttestation", "contactsDiscovery/quote.go", "server.go: GetRegisteredContacts"]}
{"id": "C106", "title": "What one application sends, the other is shown", "statement": "Two clients, each of which may know several devices of the other's account, talk through a server that accepts every request and delivers any accepted message any number of times, in any order, or never. Every SendMessage of an ordinary message succeeds and returns the timestamp of the message. When a message is delivered for the first time, the recipient's MessageHandler is called once with exactly the text, timestamp, timer, profile key, group context and attachments (downloaded and decrypted) of the message and the id of the sender, and the frame is acknowledged; a repeated or unusable delivery is acknowledged and shows nothing. This holds through marshalling, padding, encryption, base64, the server's envelope, decryption, unpadding and parsing, provided fresh keys are distinct and no stale message happens to authenticate.", "quantifier": "all schedules of sends and deliveries in both directions, messages, keys, random values", "why_tests_cant": "schedules are unbounded and interleave the ratchets of both sides; a test fixes one", "anchors": ["sender.go: SendMessage, sendMessage, createMessage", "server.go: buildAndSendMessage, createMessage, padMessage, stripPadding", "textsecure.go: StartListening, handleReceivedMessage, handleMessage", "attachments.go: handleAttachments, getAttachmentLocation", "protobuf/SignalService.proto"]}
{"id": "C107", "title": "Messages are read as they were written", "statement": "The parser of message contents gives back every data message and every sync transcript the client writes, field by field and with nothing added; likewise the receipts, read notices, requests, calls, typing notices and data messages (with quotes, contacts, stickers, reactions and attachments named by number) that other clients write; acknowledgements are read by the server as status 200 for the frame's id; frames and envelopes of the server are read as they are.", "quantifier": "all messages, transcripts, ids, frames and envelopes within the Go types", "why_tests_cant": "field contents are unbounded; optional and nested fields combine", "anchors": ["protobuf/SignalService.proto", "protobuf/WebSocketResources.proto", "sender.go: createMessage, sendMessage", "websocket.go: sendAck", "attachments.go: getAttachmentLocation"]}
{"id": "C108", "title": "An attachment sent is the attachment received", "statement": "If a user sends a file and the servers work, then the upload succeeds, and the recipient who reads the message and fetches the attachment it names gets the bytes of the file, whatever other people upload and download before, between and after the requests of the two.", "quantifier": "all files, keys, messages, forms and upload addresses handed out, and all requests of others at all times", "why_tests_cant": "the interleavings with other users' requests and the contents are unbounded", "anchors": ["attachments.go: uploadAttachmentV3, allocateAttachmentV3, putAttachmentV3, handleSingleAttachment, getAttachment", "textsecure.go: SendAttachment, SendVoiceNote", "transport/transport.go: Get, PostWithHeaders, Put"]}
{"id": "C109", "title": "A failed upload is reported", "statement": "If any step of an upload fails (no form, an error status, no address), SendAttachment and SendVoiceNote return an error and no message is sent; the program goes on.", "quantifier": "all answers of the servers", "why_tests_cant": "a test tries a few of the possible wrong answers", "anchors": ["attachments.go: getAttachmentV3UploadAttributes, allocateAttachmentV3, relativePath, putAttachmentV3", "textsecure.go: SendAttachment, SendVoiceNote"]}
{"id": "C110", "title": "An attachment pointer leads to the content servers only", "statement": "Whatever the sender of a message writes into an attachment pointer, the recipient's client asks no host but Signal's two content servers for it, and tells them no credentials.", "quantifier": "all attachment pointers", "why_tests_cant": "the text is chosen by an attacker", "anchors": ["attachments.go: getAttachmentLocation, getAttachment, handleSingleAttachment"]}
{"id": "C111", "title": "An attachment cannot crash the client", "statement": "Whatever the pointer in a message says and whatever the content server answers, fetching the attachment gives its bytes or an error.", "quantifier": "all attachment pointers and answers", "why_tests_cant": "both are chosen by others", "anchors": ["attachments.go: getAttachment, handleSingleAttachment"]}
{"id": "C112", "title": "The account password is given to the service only", "statement": "The password of the account is sent only to the configured service and to Signal's own service, and only after the server has shown a valid certificate.", "quantifier": "all requests that the client makes, all configurations", "why_tests_cant": "a test server does not look at what other hosts are told", "anchors": ["transport/transport.go: newHTTPTransporter, Get, Put, PostWithHeaders, Del", "textsecure.go: Setup", "attachments.go: putAttachmentV3, allocateAttachmentV3", "profiles/avatars.go: downloadAvatar"]}
{"id": "C113", "title": "The configured user agent is announced", "statement": "Requests carry the configured user agent in X-Signal-Agent, and nothing else of the configuration appears there.", "quantifier": "all configurations and requests", "why_tests_cant": "tests use one configuration, usually without a proxy", "anchors": ["transport/transport.go: newHTTPTransporter"]}
{"id": "C114", "title": "Anonymous requests carry no credentials", "statement": "Requests made with an unidentified access key carry that key and nothing that depends on the account: no user, no password.", "quantifier": "all accounts, keys, addresses and bodies", "why_tests_cant": "absence of information is about all accounts", "anchors": ["transport/transport.go: GetWithUnidentifiedAccessKey, PutWithUnidentifiedSender"]}
{"id": "C115", "title": "A new device receives the account", "statement": "A device whose key is scanned for linking can open what it is sent and finds in it the identity key pair, the UUID and number of the account and the code that the server issued; a failure is reported.", "quantifier": "all accounts, device keys, codes and randomness", "why_tests_cant": "the content is hidden in a ciphertext for a fresh key", "anchors": ["link.go: AddNewLinkedDevice", "server.go: addNewDevice, getNewDeviceVerificationCode", "crypto.go: provisioningCipher"]}
{"id": "C116", "title": "A linking code is given to one device", "statement": "Each device that is linked is sent a code that the server issued for it and that was sent to no other device.", "quantifier": "all sequences of linking attempts, answers and timer events", "why_tests_cant": "depends on timers and on failures of earlier attempts", "anchors": ["link.go: AddNewLinkedDevice", "server.go: getNewDeviceVerificationCode"]}
{"id": "C117", "title": "Success is reported only if the server accepted", "statement": "RegisterWithUPS, the publication of prekeys, SetAccountCapabilities, UnlinkDevice, LinkedDevices and GetMyUUID report success only if the server answered with a success status.", "quantifier": "all answers", "why_tests_cant": "error answers are many and are rarely simulated", "anchors": ["server.go: RegisterWithUPS, registerPreKeys, setAccountAttributes, unlinkDevice, getLinkedDevices, GetMyUUID"]}
{"id": "C118", "title": "After a session was ended both can talk again", "statement": "EndSession sends the end of the session to the peer and then forgets the sessions with all the peer's devices, and only those; if sending fails it reports so and forgets none. A client that receives the end of a session shows it and forgets its sessions with the sender. Afterwards, whichever of the two speaks first, under any order of arrival, every message sent since is shown once and as it was sent.", "quantifier": "all states, all earlier and later exchanges in any order of arrival, all contents, randomness and prekeys", "why_tests_cant": "what happens depends on which messages are under way when the session is ended", "anchors": ["textsecure.go: EndSession, handleFlags", "store.go: DeleteAllSessions", "axolotl/sessions.go: SessionCipher"]}
{"id": "C119", "title": "Messages of an ended session have no effect", "statement": "A message of a session that has since been ended, delivered late or again, is not shown and does not change the receiver's state.", "quantifier": "all exchanges, all late or repeated messages", "why_tests_cant": "needs a replay of an old message after a reset, for every kind of message", "anchors": ["textsecure.go: EndSession, handleFlags, handleReceivedMessage", "axolotl/sessions.go: SessionCipher.Get, processReceivedPreKeyMessage"]}
{"id": "C120", "title": "Dealings with others do not disturb a conversation", "statement": "While two clients talk, each of them may also send messages to others, end sessions with others and receive messages from others, from other devices of the peer, or anything else, in any order and between any two steps of the conversation. What is said in the conversation is still shown once and as it was sent, as if there were no others.", "quantifier": "all schedules of the conversation interleaved with all acts of both clients with any number of others; all messages, keys and random values", "why_tests_cant": "the acts of others are unbounded and may come between any two steps", "anchors": ["sender.go: SendMessage, sendMessage", "server.go: buildAndSendMessage", "textsecure.go: EndSession, handleReceivedMessage, handleFlags", "store.go: sessions, prekeys and identities by address"]}
{"id": "C121", "title": "Sync messages are believed only from the user's own account", "statement": "Transcripts of sent messages, read marks, requests for contacts and groups and verification states arriving in a message take effect (callbacks, sending of updates, ending of sessions) only if that message was sent by another device of the user's own account.", "quantifier": "all messages of all senders, all states", "why_tests_cant": "a test with the user's own devices cannot show that other senders are refused", "anchors": ["handler.go: handleMessage", "sync.go: handleSyncMessage, handleSyncSent, handleSyncRequest, handleSyncRead", "textsecure.go: handleFlags"]}
{"id": "C122", "title": "Both users see the same safety number", "statement": "After two clients have talked (one has received a message of the other), the safety numbers that GetFingerprint gives the two applications are the same, and their QR codes match each other, whatever else the clients did meanwhile. Conversely, when the codes match, the identity key that each client has saved for the other is the other's own (or a hash collision is at hand).", "quantifier": "all conversations of C106 interleaved with dealings with others (C120), all identity keys and telephone numbers; the converse for all stores", "why_tests_cant": "the saved keys are the result of an arbitrary history; hash inputs cannot be enumerated", "anchors": ["store.go: GetFingerprint, ContactIdentityKey, MyIdentityKey, SaveIdentity", "fingerprint/fingerprint.go: CreateFingerprintSimple", "axolotl/session.go: BuildSenderSession, BuildReceiverSession"]}
{"id": "C123", "title": "The storage directory is encrypted and stays readable", "statement": "Unless unencrypted storage is configured, every file the store writes is encrypted and authenticated under keys derived from the password. What one run has written, every later run with the same password reads, also if runs were cut short (even while creating the salt); with another password, or when encryption is switched on or off, reading fails with an error.", "quantifier": "all series of runs, all writes, all points at which a run may be cut short", "why_tests_cant": "ranges over all histories of runs and interruptions", "anchors": ["store.go: setupStore, newStore, genKeys, readFile, writeFile"]}
{"id": "C124", "title": "A group change does exactly what it says", "statement": "A group change whose parts all go through made sense for the group: nobody named twice in one part, people to be removed are there and people to be added are not, roles and access rules are known ones, ids and keys are proved by presentations that were checked. It leads to the group asked for: texts, password, rules and announcement mode are the ones given, and the members are the old ones and the added ones, without the removed ones, with the new roles and the requester's own new key, and the approved ones with the keys they asked with; nothing else changes. Conversely a change by an administrator that makes sense goes through, and is accepted if the group it leads to is in order.", "quantifier": "all groups, requesters and combinations of the nineteen parts of a change", "why_tests_cant": "the parts interact (a person added and removed, re-roled, approved in one change); all combinations", "anchors": ["groupsv2/groupChange.go: Apply*", "groupsv2/groupModify.go: ModifyGroup", "groupsv2/groupValidator.go: ValidateMember, ValidatePresentationUpdate"]}
{"id": "C125", "title": "Someone invited to a group becomes a member by accepting", "statement": "A group change by which someone on the list of invited people accepts, proving their profile key, moves them from that list to the members.", "quantifier": "all groups, requesters and changes", "why_tests_cant": "all groups and changes; the effect is missing for every input", "anchors": ["groupsv2/groupChange.go: ApplyPromoteMembersPendingProfileKey"]}
{"id": "C126", "title": "The gateway sends what was asked, once, and reports it truthfully", "statement": "A request to the gateway that names a text and an addressee leads to exactly one message, with that text and exactly the uploaded file, to that addressee; other requests send nothing. Success is reported exactly if the library reported it.", "quantifier": "all requests, libraries, directories and histories", "why_tests_cant": "all combinations of forms, uploads, JSON bodies and old files", "anchors": ["cmd/textsecure/main.go: GatewaySend, JSONHandler, GatewayHandler"]}
{"id": "C127", "title": "The gateway leaves no files behind and touches nobody else's", "statement": "A request changes no file but the one with the name of the upload, or the identity named; after a request the files are as they were before, except for an identity removed on request.", "quantifier": "all requests and all contents of the file system", "why_tests_cant": "a frame condition over all paths", "anchors": ["cmd/textsecure/main.go: GatewayHandler, GatewaySend, RekeyHandler"]}
{"id": "C128", "title": "Every group can be addressed through the gateway, and no person is taken for a group", "statement": "A message to the identifier of a group, old or new, is handed over as a group message; one to a telephone number or a UUID as a message to a person.", "quantifier": "all identifiers", "why_tests_cant": "all 2^128 and 2^256 identifiers", "anchors": ["cmd/textsecure/main.go: GatewaySend", "groups.go: idToHex", "groupsv2/groupsv2.go: idToHex"]}
{"id": "C129", "title": "A changed identity is reported and can be approved through the gateway", "statement": "If the identity of the addressee changed, the answer says so and names the addressee; a request to forget an identity removes exactly that one.", "quantifier": "all identifiers and file systems", "why_tests_cant": "all identifiers; a frame condition over all files", "anchors": ["cmd/textsecure/main.go: RekeyHandler, GatewaySend", "axolotl/session.go: NotTrustedError", "store.go: SaveIdentity"]}
{"id": "C130", "title": "Every request to the gateway is answered with JSON", "statement": "Whatever the request and whatever the library answers, the client gets an answer, and its body is a JSON object.", "quantifier": "all requests and all error texts", "why_tests_cant": "all error texts", "anchors": ["cmd/textsecure/main.go: JSONHandler, GatewayHandler, RekeyHandler"]}
{"id": "C131", "title": "Messages are answered where they came from, and the peer of a conversation stays", "statement": "In echo mode each message is answered once, with its text, where it came from; otherwise nothing is sent because a message arrives. Once a conversation has a peer, no message that arrives changes it or starts another conversation.", "quantifier": "all messages, modes and sequences of messages", "why_tests_cant": "sequences of any length", "anchors": ["cmd/textsecure/main.go: messageHandler"]}
{"id": "C132", "title": "Each message is shown once and published under its conversation", "statement": "A text that arrives is shown once, given to the hook once, and published to redis under the group or the sender it came from.", "quantifier": "all messages, modes and states", "why_tests_cant": "all modes and all sequences of senders", "anchors": ["cmd/textsecure/main.go: messageHandler, sendMessageToRedis"]}
{"id": "C133", "title": "The command line does what it says", "statement": "A text given on the command line goes to the addressee given, or to the contact of that name, and without an addressee nothing is sent. A group is made or changed with the name and members given. No arguments make the program stop with a crash.", "quantifier": "all arguments and lists of contacts", "why_tests_cant": "all arguments", "anchors": ["cmd/textsecure/main.go: main"]}
{"id": "C134", "title": "What is sent from one device of an account is shown once on the other", "statement": "Two devices of one account tell each other of the messages sent to others. Everything sent from one device is shown exactly once on the other, with its text, addressee, attachments and time; whatever is delivered again or in another order, nothing is shown that was not sent.", "quantifier": "all schedules of sending, delivering and redelivering between the two devices, all messages", "why_tests_cant": "schedules of any length with any reordering and repetition", "anchors": ["sender.go: sendMessage, sendSyncMessage", "sync.go: handleSyncSent", "textsecure.go: handleReceivedMessage, handleFlags"]}
{"id": "C135", "title": "Profile keys of contacts change only on word of their owner", "statement": "Handling a message changes no contact except the profile key of the one who sent the message, to the key it carries, when it announces a key.", "quantifier": "all messages, senders and lists of contacts", "why_tests_cant": "a frame condition over all messages and contacts", "anchors": ["textsecure.go: handleFlags", "sync.go: handleSyncSent", "contacts/contacts.go: UpdateProfileKey"]}
{"id": "C136", "title": "Transcripts go to the other devices only", "statement": "The transcript of a message is never addressed to the device that sends it.", "quantifier": "all histories of the list of devices and all answers of the server", "why_tests_cant": "all sequences of server answers", "anchors": ["sender.go: sendSyncMessage", "server.go: buildAndSendMessage"]}
{"id": "C137", "title": "The account and the settings survive a restart", "statement": "The number, the UUID, the profile key and the other settings the program saves are in use again after every restart, whenever the program ends.", "quantifier": "all histories of changes, refreshes, restarts and interrupted writes", "why_tests_cant": "histories of any length, with every point of interruption", "anchors": ["config.go: ReadConfig, WriteConfig, saveConfig, loadConfig", "textsecure.go: Setup, registerDevice, renewSenderCertificate", "profile.go: SetUsername"]}
{"id": "C138", "title": "A refreshed configuration is used", "statement": "After the configuration is refreshed, the program uses what the user wrote into the file, and does not overwrite it.", "quantifier": "all configurations, edits and later changes", "why_tests_cant": "all edits followed by all changes", "anchors": ["config.go: RefreshConfig, loadConfig"]}
{"id": "C139", "title": "Messages are fetched only from servers of the authority asked for", "statement": "The connection that carries the account password and the messages is made only to a server with a certificate of the authority the user configured, or of the built-in one if none is configured.", "quantifier": "all servers, certificates and states of the file system", "why_tests_cant": "all certificate chains and failures of the file system", "anchors": ["rootCa/rootca.go: SetupCA", "websocket.go: connect"]}
{"id": "C140", "title": "A missing configuration is reported, not fatal", "statement": "If the configuration cannot be loaded, starting reports an error to the application and the program goes on.", "quantifier": "all schedules of the goroutines", "why_tests_cant": "all interleavings", "anchors": ["textsecure.go: Setup", "crayfish/backend.go: Run"]}
{"id": "C141", "title": "The companion program is found where it is", "statement": "If the companion program is in the search path, in the current directory or in the source tree, it is started; looking for it changes no files.", "quantifier": "all states of the file system", "why_tests_cant": "all combinations of files", "anchors": ["crayfish/backend.go: Run"]}
{"id": "C142", "title": "Every request to the companion reaches it once, in order", "statement": "A request made at any time is delivered to the companion process exactly once and in order, also when the connection is not yet made or breaks; making one never crashes.", "quantifier": "all schedules of requests, connections and breaks", "why_tests_cant": "all interleavings, of any length", "anchors": ["crayfish/backend.go: StartListening, StartWebsocket, connect, writeWorker", "crayfish/envelope.go: HandleEnvelope", "crayfish/register.go: CrayfishRegister, CrayfishRegisterWithCode"]}
{"id": "C143", "title": "The companion opens messages for the account in use", "statement": "Every message handed to the companion is opened for the account of the configuration in use.", "quantifier": "all schedules, with and without a registration", "why_tests_cant": "all interleavings, of any length", "anchors": ["crayfish/backend.go: Run", "crayfish/envelope.go: HandleEnvelope", "textsecure.go: registerDevice"]}
{"id": "C144", "title": "Everything is shown exactly once and in order, whatever happens to the connections", "statement": "A message stays in the server's mailbox until the recipient acknowledged it, and the server sends the contents of the mailbox in order over every new connection. Then what an application has been shown of its peer's messages is at any time a first part of what the peer sent, in order, each once, and comprises every message that has left the mailbox; when the mailbox has been emptied it is all of them.", "quantifier": "all schedules of sends by both sides, frames, lost connections and lost acknowledgements", "why_tests_cant": "schedules of any length with every pattern of losses and redeliveries", "anchors": ["websocket.go: StartListening, sendAck", "textsecure.go: handleReceivedMessage", "axolotl/session_cipher.go", "server.go: sendMessage"]}
{"id": "C145", "title": "An interruption of the program loses no message", "statement": "A message that the server delivers again because the program was interrupted while handling it is shown to the application.", "quantifier": "all schedules and all points of interruption", "why_tests_cant": "all points at which a program can end, in all states of a conversation", "anchors": ["textsecure.go: handleReceivedMessage", "websocket.go: StartListening", "axolotl/session_cipher.go: SessionDecryptWhisperMessage"]}
{"id": "C146", "title": "Any number of conversations at once", "statement": "Any number of clients talk with any number of others at the same time, and do other things besides. In every conversation what one application sends is shown to the other as sent, once, as if there were no other conversations; and everyone who writes first to a client is served, as long as no one-time prekey except the last one is handed out twice.", "quantifier": "all finite or infinite sets of clients and conversations, and all interleavings of their events", "why_tests_cant": "the number of clients, the pairs that talk and the interleavings are unbounded", "anchors": ["axolotl/session_builder.go", "axolotl/session_cipher.go", "store.go", "sender.go: buildMessage", "textsecure.go: handleReceivedMessage"]}
{"id": "C147", "title": "Listening can be stopped and started again", "statement": "StartListening and StopListening may be called at any time, from any goroutine. Every acknowledgement goes over the connection on which its request came; after StopListening has returned nothing more is shown than the message being handled, and the call of StartListening returns; the program does not crash.", "quantifier": "all interleavings of calls, writers, network failures and frames", "why_tests_cant": "data races on the shared connection depend on the schedule, of which a test sees few", "anchors": ["websocket.go: StartListening, StopListening, writeWorker, sendAck, wsconn"]}
{"id": "C148", "title": "Receiving makes the client write only to the user's own devices, and only when they ask", "statement": "Handling what is received never makes the client send a message, begin a session or change a list of devices, except in answer to one of the user's own devices, which are told contacts and groups when they ask, and the account whose verification they announce. Failing to answer does not end the program.", "quantifier": "all frames, senders, contents and states; all replies of the server to the messages sent in answer", "why_tests_cant": "a test sends the sync messages that it expects from the sender that it expects", "anchors": ["sync.go: handleSyncMessage, handleSyncRequest, sendContactUpdate, sendGroupUpdate", "sender.go: sendVerifiedMessage, sendNullMessage, sendSyncMessage", "handler.go: handleMessage"]}
{"id": "C149", "title": "A file is sent whole or not at all", "statement": "SendAttachment and SendVoiceNote send all bytes that the given reader gives up to its end, whatever pieces they come in, with the type found in the first 1024 of them. If reading fails, they return an error, and nothing is uploaded or sent.", "quantifier": "all readers: any pieces, failures at any point, and whatever reading gives after a failure; all keys, servers and states", "why_tests_cant": "tests read from files and buffers that do not fail", "anchors": ["textsecure.go: MIMETypeFromReader, SendAttachment, SendVoiceNote", "attachments.go: uploadAttachmentV3"]}
{"id": "C150", "title": "Account attributes: the server is told what is so, and success means it was told", "statement": "SetAccountCapabilities tells the server once the registration number and signaling key of this client, the configured name, the new capabilities, the access key that contacts compute from the profile key, and whether the user wishes to be found by their number. When it returns success, the server has accepted this and the configuration has the new capabilities, also after a restart; when it returns an error, both are as before.", "quantifier": "all keys, registrations, configurations and capabilities; all answers of the server; all outcomes of writing the file", "why_tests_cant": "the server does not report the access key; no contact's request is compared with it", "anchors": ["server.go: SetAccountCapabilities, setAccountAttributes", "unidentifiedAccess/unidentifiedAccess.go: DeriveAccessKeyFrom, GetTargetUnidentifiedAccessKey"]}
{"id": "C151", "title": "The contacts of the user's other devices can be fetched", "statement": "SyncContacts asks the user's other devices for their contacts, and what they answer is added to the contacts of this client. If the request cannot be sent, an error is returned.", "quantifier": "all states, servers and answers", "why_tests_cant": "the answer arrives later, from another device", "anchors": ["server.go: SyncContacts", "sender.go: sendSyncMessage", "sync.go: handleSyncMessage"]}
{"id": "C152", "title": "A stolen session file opens nothing that was sent or read before", "statement": "The keys of a message are gone from the stored session once the message has been sent or read: whatever keys can be computed from the session stored by either party belong to messages not yet sent, not yet read, or to a ratchet key not yet met.", "quantifier": "all schedules of sends and deliveries between two clients, all primitives", "why_tests_cant": "the claim is about every key that could be computed from every state that is ever stored", "anchors": ["axolotl/session.go: Encrypt, SessionDecryptWhisperMessage, getOrCreateMessageKeys, promoteState", "axolotl/ratchet.go: initializeSenderSession"]}
{"id": "C153", "title": "Two people who write to each other at the same moment can talk afterwards", "statement": "If two clients each build a session from the other's bundle and send a first message before they have received the other's, both first messages are read, and everything sent afterwards is read as if only one of them had begun.", "quantifier": "all pairs of clients, plaintexts, random draws and later schedules, all primitives", "why_tests_cant": "needs two interleaved handshakes followed by every later schedule; which session is current on each side depends on the order of arrival", "anchors": ["axolotl/session.go: BuildReceiverSession, SessionCipher.decrypt, promoteState, archiveCurrentState", "axolotl/session.go: getOrCreateChainKey"]}
{"id": "C154", "title": "A session begun anew works, whatever sessions there were before", "statement": "When a client begins a new session with a peer from the peer's bundle, both sides go on as if they had never had a session: every message sent in it is read once and as it was sent, no matter which sessions, current or archived, either of them still keeps from before, and no matter when messages of those arrive.", "quantifier": "all older sessions on both sides, all schedules in the new session, all primitives", "why_tests_cant": "the records kept from before are arbitrary, and every later schedule has to work on top of them", "anchors": ["axolotl/session.go: BuildSenderSession, BuildReceiverSession, archiveCurrentState, promoteState, SessionCipher.decrypt"]}
{"id": "C155", "title": "The dialogue of a registration", "statement": "A client that registers asks for the number, the captcha and the name before anything is sent, asks for the code once and only after the request for one was accepted, saves an account only if the code was confirmed, and tells the application once, when all is done. A registered client asks nothing. A refusal is reported.", "quantifier": "all answers of the application and of the companion process, all points of failure", "why_tests_cant": "every combination of answers and failures", "anchors": ["textsecure.go: Setup, registerDevice", "crayfish/register.go: CrayfishRegister, CrayfishRegisterWithCode", "crayfish/backend.go: handleCrayfishResponseMessage"]}
{"id": "C156", "title": "Calls can be made while others are under way", "statement": "An application may send messages, write to groups, make groups and refresh its contacts from several goroutines and while it listens: whatever is received and however the goroutines are scheduled, none writes to a map while another is using it.", "quantifier": "all numbers of goroutines, all sequences of calls, all schedules", "why_tests_cant": "all interleavings; the race detector sees only the schedule that happened", "anchors": ["server.go: deviceLists, buildAndSendMessage, GetRegisteredContacts", "sender.go: sendMessage, sendSyncMessage", "contacts/contacts.go: Contacts, UpdateProfileKey", "groups.go: groups, sendGroupHelper, newGroup"]}
{"id": "C157", "title": "The companion process cannot bring the client down", "statement": "Whatever arrives on the connection to the companion process, the client goes on: it does not crash, it keeps reading, and a waiting call gets the next answer as it was sent.", "quantifier": "all sequences of messages and calls, all JSON texts", "why_tests_cant": "the texts and their order are arbitrary", "anchors": ["crayfish/backend.go: StartWebsocket, handleCrayfishRequestMessage, handleCrayfishResponseMessage"]}
{"id": "C158", "title": "What is kept for skipped messages is bounded", "statement": "The number of message keys a stored session keeps for messages that have not arrived has a bound that does not depend on how many messages were received; only accepted messages of the address itself make it grow, and a key is given up when its message is read.", "quantifier": "all histories of calls, all schedules of two clients, all sizes of gaps", "why_tests_cant": "the growth shows only over arbitrarily many messages, and the bound is over all histories", "anchors": ["axolotl/session.go: getOrCreateMessageKeys (742-763), removeMessageKeys (189-201), setMessageKeys (203-213)"]}
{"id": "C159", "title": "The messages are those of the published protocol", "statement": "Every message a client sends in a conversation is, byte for byte, the message that the X3DH, Double Ratchet and message format documents prescribe for the keys, the history and the text, so that any client following them can read it.", "quantifier": "all key material, all primitives, all schedules of sending, delivery and loss between two clients, all texts", "why_tests_cant": "two copies of the same client agree with each other whatever the derivations are; agreement with the documents over all conversations is not what a round trip shows", "anchors": ["axolotl/ratchet.go: kdf and chain steps (46-58, 100-151)", "axolotl/messages.go: message layout (74-117, 186-214)", "axolotl/session.go: Encrypt and session setup (443-499, 523-572)"]}
{"id": "C160", "title": "Groups are known again after a restart", "statement": "Every legacy group whose state was written to storage is known after the next start as it was written, and no other group is, wherever the storage directory is.", "quantifier": "all storage directories, all groups and group ids, all contents of the directory", "why_tests_cant": "tests use one storage directory, and the outcome depends on the text of its path", "anchors": ["groups.go: setupGroups (94-110), loadGroup (67-80), idToHex, idToPath (42-51)"]}
{"id": "C161", "title": "First contact works at any later time", "statement": "Whatever a registered client has done for others since - sessions built and deleted, messages sent, received and refused, writes that failed, deaths and restarts - a person who has never written to it gets a bundle from the server and reaches it with their first message, and the conversation then goes as any other, provided nobody else used the one-time prekey of that bundle; with the prekey of last resort, or none, without that condition.", "quantifier": "all registrations, all histories of calls for other peers, all bundles the server can give, all first messages and conversations", "why_tests_cant": "a test contacts a fresh client; the claim is about what any history of other people's messages may have done to it", "anchors": ["axolotl/session.go: SessionDecryptPreKeyWhisperMessage (677-701), BuildReceiverSession (375)", "prekeys.go: registration of prekeys (88-130)", "store.go: RemovePreKey, StoreSession, SaveIdentity"]}
{"id": "C162", "title": "Prekeys are renewed", "statement": "One-time prekeys that were used are replaced by new ones, and the signed prekey is changed from time to time.", "quantifier": "all histories of calls and of starts after the registration", "why_tests_cant": "that something never happens is about all histories", "anchors": ["prekeys.go: generatePreKeys (88-107), generateSignedPreKey", "server.go: registerPreKeys (551)", "textsecure.go: registerDevice (411-459)"]}
{"id": "C163", "title": "Another implementation of the Double Ratchet can take either side", "statement": "In a conversation between a client and a peer that runs the algorithm of the Double Ratchet document (one receiving chain and a store of skipped message keys), each reads every message the other has sent, whatever the order of delivery, just as two clients would; on the wire and in the client's store nothing tells the difference.", "quantifier": "all key material, all primitives, all schedules of sending, delivery, reordering, duplication and loss, the peer as initiator or as responder", "why_tests_cant": "tests pair the client with itself; another implementation keeps its state quite differently, and whether the two agree depends on the order of all earlier deliveries", "anchors": ["axolotl/session.go: Decrypt, chains and skipped keys (574-760)", "axolotl/session.go: previous counter (720-730)", "axolotl/messages.go: PreviousCounter (74-107)"]}
{"id": "C164", "title": "The report of a group change says what the change did", "statement": "When a message brings a change that the server signed for the group, the change reported to the application says all of it: applied to the view the application had of the group before, it gives the group as it is after the change, and it names who made the change.", "quantifier": "all changes, all earlier views of the group, all worlds and server answers", "why_tests_cant": "a change combines any number of actions, and whether one is missing from the report shows only in views where it matters", "anchors": ["groupsv2/groupActions.go: decryptGroupChangeActions (38-135)", "groupsv2/decrypt.go: decryptMember, decryptPendingMembers (64-150)", "groupsv2/groupsv2.go: HandleGroupsV2 (239-318)"]}
{"id": "C165", "title": "The gateway lists the groups", "statement": "A request for /groups is answered with exactly the groups of the account: each group the client knows stands in the answer once, under its id and with its present name, and nothing else does.", "quantifier": "all histories of making, changing, leaving and writing to groups and of restarts, all storage directories, all contents of the directory", "why_tests_cant": "the answer depends on everything that was ever done to groups and on where the files are", "anchors": ["cmd/textsecure/main.go: GroupsHandler (328-350)", "groups.go: saveGroup, setupGroups, newGroup, changeGroup, LeaveGroup (57-110, 353-499)", "groupsv2/groupsv2.go: SetupGroups (122-128)"]}
{"id": "C166", "title": "A message to a group is shown to its members in that group", "statement": "When sending a message to a new group succeeds, each other member is sent one message, and the client of the member shows the text, timer and time as given, in the group the sender wrote to, whatever that client knew of the group before.", "quantifier": "all groups, members, texts, attachments and revisions, all states of the receiving clients, all server answers", "why_tests_cant": "the sender's and the receiver's copy of a group differ in endless ways; the group is found again only through bytes encoded on one side and read on the other", "anchors": ["groups.go: sendGroupV2Helper (205-251)", "groupsv2/groupsv2.go: HandleGroupsV2 (239-318)", "handler.go: handleDataMessage (74-111)", "server.go: createMessage (749-793)"]}
{"id": "C167", "title": "Every line typed at the console is sent, as it was typed", "statement": "In a conversation on the console each line of the input that is not empty is sent to the addressee once, unchanged and in the order of the input, and nothing else is sent. Likewise each question of a registration is answered by the next line of the input.", "quantifier": "all inputs, all ways the input is divided among the calls of read, all numbers of questions", "why_tests_cant": "which lines are lost depends on how the operating system divides the input; a test that types line by line never sees it", "anchors": ["cmd/textsecure/main.go: readLine (98-106), conversationLoop (187-206), getCaptchaToken, getPhoneNumber, getPin, getVerificationCode, getUsername (108-124, 139-141)"]}
{"id": "C168", "title": "A message to a group is shown once, in that group, on the sender's other devices", "statement": "When a message was sent to a new group, each other device of the sender that gets the transcripts shows it exactly once, with text, time, timer and attachments as sent, and in the group it was sent to.", "quantifier": "all groups, messages and members, all answers of the server about transcripts, all states of the other device", "why_tests_cant": "the number of copies depends on the members and on the server's answers, and whether the group is found depends on what the other device did before", "anchors": ["groups.go: sendGroupV2Helper, handleGroupsV2 (178-188, 205-251)", "sender.go: sendMessage (34-60)", "sync.go: handleSyncSent (86-133)", "groupsv2/groupsv2.go: FindGroup (103-113)"]}
{"id": "C169", "title": "A profile looked up by number", "statement": "Looking up the profile of a number returns its contact or an error, and the program goes on. The contact returned is the one kept; no other contact changes, and of this one only what the profile says anew: the name the user gave it and a picture that could not be read stay as they were.", "quantifier": "all numbers, contacts, answers of the server and of the place where pictures are kept", "why_tests_cant": "every kind of missing or broken answer, for all contacts", "anchors": ["profiles/profile.go: GetProfileE164 (344-380)", "profiles/avatars.go: GetRemoteAvatar, decryptAvatar, saveLocalAvatar"]}
{"id": "C170", "title": "A message is shown for what it is", "statement": "The command line shows each message in a line of its own that tells when it was written, by whom (by name, if the sender is a contact), in which group, and the text; nobody can make a line appear as written by somebody else.", "quantifier": "all messages, contacts, time zones and sequences of messages", "why_tests_cant": "all moments, all texts and names", "anchors": ["cmd/textsecure/main.go: pretty, timestamp, getName (281-306), messageHandler (232-242), main (593-596)", "handler.go: handleDataMessage", "textsecure.go: handleReceivedMessage"]}
{"id": "C171", "title": "A program that answers by itself comes to rest", "statement": "In echo mode each message is answered exactly once, with its text and to its sender; once nobody writes any more, everything has been delivered and answered after finitely many deliveries, and nothing is sent any more. A program that is not in echo mode sends nothing because something arrived.", "quantifier": "all numbers of accounts, modes, messages on their way and orders of delivery", "why_tests_cant": "all orders of delivery among any number of programs, and runs without end", "anchors": ["cmd/textsecure/main.go: messageHandler, sendMessage"]}
{"id": "C172", "title": "A start that reports success is complete", "statement": "When Setup reports success, the program has the identity key of the installation and a sender certificate given by the server; if the key cannot be loaded, or the server does not give a certificate when there is none, Setup reports an error and does not crash.", "quantifier": "all installations, configurations, random values, networks and answers of the server", "why_tests_cant": "all answers with all status codes, and all states of the store", "anchors": ["textsecure.go: Setup, renewSenderCertificate", "transport/unidentifiedCert.go: GetSenderCertificate", "store.go: GetIdentityKeyPair"]}
{"id": "C173", "title": "The file of contacts outlives restarts and failures", "statement": "Whatever profile keys are announced, however often the program is started, and whenever it dies or a file operation fails: each contact once in the file of contacts stays in it, with everything but its profile key as it was, and a profile key that is announced is in the file afterwards.", "quantifier": "all files of contacts, histories of starts, announcements, readings, failures and deaths, and orders of the map", "why_tests_cant": "histories of any length with failures at any point", "anchors": ["contacts/contacts.go: ReadContacts, LoadContacts, WriteContactsToPath, UpdateProfileKey", "cmd/textsecure/main.go: main"]}
{"id": "C174", "title": "A stolen session file is of use for one exchange at most", "statement": "Whoever has copied a stored session and listens to everything sent afterwards cannot follow the conversation for long: once the owner of the session has answered the next message of the correspondent, the keys of every further message take in a private key that was drawn after the copy was made. Nothing sent after the copy was made can be opened with it.", "quantifier": "all schedules of sends and deliveries, cut at any point", "why_tests_cant": "every schedule and every point of it at which a session may be copied; two programs with the same mistake understand each other", "anchors": ["axolotl/ratchet.go: createChain", "axolotl/session.go: getOrCreateChainKey, SessionBuilder.BuildSenderSession", "axolotl/keys.go: NewECKeyPair"]}
{"id": "C175", "title": "A file sent to a group reaches every member and is uploaded once", "statement": "A file or voice note sent to a group is encrypted and uploaded once, however many members there are; when the call reports success, each member was sent one message with the text, from which they get exactly the file, whenever they fetch it, and which is shown in that group. Nothing is uploaded for a group that cannot be written to.", "quantifier": "all files, groups, members, states of the clients, and requests of others to the servers in between", "why_tests_cant": "every group and state of the members' clients, and every interleaving with other users of the content server", "anchors": ["groups.go: SendGroupAttachment, SendGroupVoiceNote, sendGroupHelper, sendGroupV2Helper", "attachments.go: uploadAttachmentV3, uploadVoiceNote, handleAttachments"]}
{"id": "C176", "title": "The end of the companion process", "statement": "All output of the companion process is logged; its end, with whatever exit status, does not end the client; and after its end messages are opened again, by another one.", "quantifier": "all outputs, all ways they are cut into reads, all exit statuses, and all schedules of requests before and after the end", "why_tests_cant": "every splitting of the output and every interleaving of callers, writer and listener", "anchors": ["crayfish/backend.go: Run, copyAndCapture, StartListening, StartWebsocket, writeWorker", "crayfish/envelope.go: HandleEnvelope"]}
{"id": "C177", "title": "A sender who hides from the server is treated like any other", "statement": "A message from a sender who hides from the server (sealed sender) has the effect, and is shown as, the same message sent openly: with the same sender, once, and only if the sender's identity key is the one known.", "quantifier": "all messages, all answers of the companion process, all states of the client", "why_tests_cant": "every content on every state of sessions, identities, contacts and groups, compared on two paths", "anchors": ["textsecure.go: handleReceivedMessage (case UNIDENTIFIED_SENDER), handleFlags", "handler.go: handleMessage, handleDataMessage, handleCallMessage, handleReceiptMessage, handleTypingMessage", "crayfish/envelope.go: HandleEnvelope"]}
{"id": "C178", "title": "Stopping the companion process", "statement": "`Stop` tells the companion process to end and ends the connection to it: when it has returned without an error the companion has been interrupted, no new connection is made and nothing that arrives later is read; the listener ends; and while the companion runs, `Stop` can be called with success at any time.", "quantifier": "all schedules of the listener, calls of Stop, messages and failures of the connection, and all ends of the companion", "why_tests_cant": "needs every interleaving of a call with the listener, including calls between a test of the flag and the connection that follows", "anchors": ["crayfish/backend.go: Stop, StopListening, StartListening, StartWebsocket"]}
{"id": "C179", "title": "A connection that answers is kept, a dead one is given up", "statement": "As long as the other side answers the pings, the connection to the service or to the companion process is kept and everything that arrives is read in order; once it stops answering, the connection is given up, not before a minute has passed since the last answer and not later than that and the handling of one message.", "quantifier": "all sequences of messages and answers, all times of arrival and all durations of handling", "why_tests_cant": "needs every timing of messages, pings and answers over connections of any length", "anchors": ["websocket.go: writeWorker, StartListening, pongWait, pingPeriod", "crayfish/backend.go: writeWorker, StartWebsocket, pongWait, pingPeriod"]}
{"id": "C180", "title": "What of received messages goes to the log", "statement": "The level set in the environment, or else in the configuration, decides how much is logged; on the way from the decrypted message to its handler nothing of the contents is logged at any level, and who sent it only at the level for debugging.", "quantifier": "all settings, all contents, all senders", "why_tests_cant": "needs every contents a sender can put together, including kinds of messages the client does not know, at every setting", "anchors": ["textsecure.go: setupLogging, handleReceivedMessage", "handler.go: handleMessage"]}
{"id": "C181", "title": "The picture shown for a contact is their latest", "statement": "The picture shown for a contact is the last one saved for them, whatever is saved for others; a failed saving is reported, leaves the one before, and can be repeated; a contact who has no picture any more is shown without one; and each account has its own pictures.", "quantifier": "all sequences of saving, looking and setting up, all contacts, pictures and failures of the disk", "why_tests_cant": "needs every order of calls for every set of contacts, with failures of the disk at any point", "anchors": ["profiles/avatars.go: SaveAvatar, GetLocalAvatar, setupAvatarsPath"]}
{"id": "C182", "title": "Publishing what arrives", "statement": "With redismode, the text of every message that arrives is published once and in order; if redis cannot be reached this is told; the program can go on publishing for ever; and the texts appear nowhere else than where they are published and shown.", "quantifier": "all sequences of messages, all interruptions of redis, all levels of logging", "why_tests_cant": "needs message sequences of any length with interruptions at every point", "anchors": ["cmd/textsecure/main.go: messageHandler, sendMessageToRedis"]}
