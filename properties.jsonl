{"id": "C01", "title": "Handles are never aliased and never run out early", "statement": "While a handle is live no other create/import/init call returns the same handle; releasing a handle makes exactly that handle available again and leaves all other handles live; a create call reports 'no available slot' if and only if every one of the 256 slots of that table is live.", "quantifier": "every table size that is a multiple of 32 and every finite sequence of create and release calls (including releases of bad handles)", "why_tests_cant": "Handle aliasing depends on the whole history of allocations and frees (2^256 occupancy patterns); tests visit only a few histories.", "anchors": ["reference/src/taimpl/src/internal/slots.c: slots_init, slots_allocate, slots_free", "reference/src/taimpl/src/internal/object_store.c: object_store_add"]}
{"id": "C02", "title": "The handle tables behave like an abstract map", "statement": "Every sequence of add, acquire, release and remove calls on a handle table returns the same statuses and the same objects as an abstract finite map from handle to (object, owner, borrow count), and an operation on one handle never changes what any later operation on a different handle returns.", "quantifier": "every finite sequence of operations with arbitrary handles, callers and objects, starting from an empty table", "why_tests_cant": "Equivalence to the abstract map must hold after every history, not only those a test replays.", "anchors": ["reference/src/taimpl/src/internal/object_store.c: object_store_add, object_store_acquire, object_store_release, store_remove"]}
{"id": "C03", "title": "A caller can never use or destroy an object of another TA", "statement": "An acquire or remove by a caller whose UUID differs from the UUID that created the object fails with OPERATION_NOT_ALLOWED and leaves the table unchanged; in no history does a caller obtain an object created by another UUID.", "quantifier": "every reachable table state, every handle, every pair of different UUIDs, every history", "why_tests_cant": "A guess-the-handle attack may happen in any state; tests only probe a few.", "anchors": ["reference/src/taimpl/src/internal/object_store.c: object_store_acquire, store_remove, object_store_release"]}
{"id": "C04", "title": "An object in use is never destroyed", "statement": "While at least one caller holds an acquired reference to an object, no thread destroys that object, whatever the interleaving of acquires, releases, removes and shutdown on the table.", "quantifier": "every number of threads and every interleaving of their steps at the granularity of the table mutex", "why_tests_cant": "Data races appear only under particular schedules, which a unit test cannot enumerate.", "anchors": ["reference/src/taimpl/src/internal/object_store.c: store_remove, object_store_acquire, object_store_release, object_store_shutdown"]}
{"id": "C05", "title": "Every object is destroyed exactly once", "statement": "No object is destroyed twice, no object still in the table is destroyed, and after a shutdown finished with all references returned every object that was ever added has been destroyed.", "quantifier": "every number of threads and every interleaving of adds, removes, acquires, releases and one shutdown", "why_tests_cant": "Double free and leak depend on the schedule; tests see one schedule per run.", "anchors": ["reference/src/taimpl/src/internal/object_store.c: store_remove, object_store_shutdown"]}
{"id": "C06", "title": "Closing never races with a concurrent call", "statement": "When a session is closed, or the whole service shuts down, while other threads are still inside calls, no thread accesses a handle table after it has been freed.", "quantifier": "every interleaving of one shutdown with any number of threads adding, acquiring, releasing and removing", "why_tests_cant": "The window between decrementing the release counter and the last use of the table is a few instructions wide.", "anchors": ["reference/src/taimpl/src/internal/object_store.c: store_remove, object_store_shutdown"]}
{"id": "C07", "title": "Sessions are isolated from each other", "statement": "Keys, cipher contexts, MAC contexts and SVP buffers created in one session can not be named, used, or destroyed through any handle presented in another session, even by the same caller and with an equal handle value.", "quantifier": "every pair of different sessions and every interleaved sequence of calls in both", "why_tests_cant": "Isolation must hold for every mixture of calls in both sessions.", "anchors": ["reference/src/taimpl/src/internal/client_store.c: client_store_add, client_store_acquire, client_get_key_store", "reference/src/taimpl/src/internal/key_store.c: key_store_unwrap, key_store_import_stored_key"]}
{"id": "C08", "title": "Key material is released only under its rights", "statement": "Any operation that uses a stored key gets the clear key only if the handle is live and owned by the caller, the caller's UUID is in the key's allowed list, the current time is inside [not_before, not_on_or_after), and the current video output state satisfies the key's output rights; if any condition fails the operation fails with an error and no key material is returned.", "quantifier": "every key, rights record, caller, time and output state", "why_tests_cant": "The conjunction has too many combinations to enumerate and each term is 64 bit or list valued.", "anchors": ["reference/src/taimpl/src/internal/key_store.c: key_store_unwrap", "reference/src/taimpl/src/internal/rights.c: rights_allowed_uuid, rights_allowed_time, rights_allowed_video_output_state"]}
{"id": "C09", "title": "The allowed-TA list means membership", "statement": "A caller is allowed by a key's TA list exactly if the list contains the all-0xff wildcard or the caller's own UUID (all-zero entries never match anyone), whatever the position of the entry.", "quantifier": "every 32 entry list and every caller UUID", "why_tests_cant": "256-bit-scale input space.", "anchors": ["reference/src/taimpl/src/internal/rights.c: rights_allowed_uuid"]}
{"id": "C10", "title": "Video output protection is enforced per output", "statement": "A key may be used only if every active unprotected analog, CGMS-A analog, unprotected digital, HDCP 1.4 and HDCP 2.2 output is permitted by the corresponding flag of the key, and if SVP is required then SVP is enabled; with a larger set of permitted outputs a key never becomes less usable.", "quantifier": "every flags word and every output state", "why_tests_cant": "2^64 flag words times output counters.", "anchors": ["reference/src/taimpl/src/internal/rights.c: rights_allowed_video_output_state"]}
{"id": "C11", "title": "A child key never gains output rights its parent lacks", "statement": "A key created from a parent (unwrapped, derived or exchanged) never has an output-protection usage flag set that the parent key did not have.", "quantifier": "every parent rights record and every requested child rights record", "why_tests_cant": "64-bit flag words on both sides; the offending parents are a thin slice.", "anchors": ["reference/src/taimpl/src/internal/stored_key.c: restrict_child_rights, stored_key_create", "reference/src/client/include/sa_types.h: sa_rights"]}
{"id": "C12", "title": "Child usage limits of key-only parents are enforced", "statement": "If the parent may be used only to unwrap keys and carries child usage flags, then each of the six key-usage flags of the child is set only if it was requested and it is listed in the parent's child usage flags.", "quantifier": "every parent rights record and every requested child rights record", "why_tests_cant": "64-bit flag words.", "anchors": ["reference/src/taimpl/src/internal/stored_key.c: restrict_child_rights"]}
{"id": "C13", "title": "Export then import gives back the same key", "statement": "If exporting a key succeeds, then importing the exported bytes on the same device succeeds and yields a key with the same header (rights, type, parameters, size) and identical key bytes, for every mixin.", "quantifier": "every exportable key, key length, IV and mixin", "why_tests_cant": "All key lengths, paddings and mixins; tests sample a few.", "anchors": ["reference/src/taimpl/src/internal/key_store.c: key_store_export, key_store_import_exported, wrapped_key_create, unwrap, pad"]}
{"id": "C14", "title": "Exported containers are tamper evident and parsed within bounds", "statement": "Importing an exported container never reads outside the supplied bytes for any byte string, and succeeds only if the integrity tag equals the MAC recomputed over every header, parameter and ciphertext byte, so changing any such byte, or the mixin, is rejected unless it produces a MAC collision.", "quantifier": "every byte string of every length and every embedded length field", "why_tests_cant": "The embedded length field is attacker controlled and 64 bits wide.", "anchors": ["reference/src/taimpl/src/internal/key_store.c: key_store_import_exported, unwrap"]}
{"id": "C15", "title": "Only cacheable keys can leave the store", "statement": "Export returns container bytes only for live handles owned by the caller whose key has the cacheable right; a size query writes nothing; a buffer that is too small gets INVALID_PARAMETER and nothing is written.", "quantifier": "every key, buffer length and mixin", "why_tests_cant": "Needs all rights words and all buffer lengths.", "anchors": ["reference/src/taimpl/src/internal/key_store.c: key_store_export"]}
{"id": "C16", "title": "Stored keys always satisfy the header invariant", "statement": "Every key present in a key store, however it got there, has the right magic, a NUL-terminated identifier, a supported type and a size supported for that type, and carries the header that can be read back through its handle; header and bytes read back equal those given at creation and stay the same until the handle is removed.", "quantifier": "every history of imports, derivations, exchanges, unwraps and releases", "why_tests_cant": "An invariant over all histories.", "anchors": ["reference/src/taimpl/src/internal/stored_key.c: stored_key_create", "reference/src/taimpl/src/internal/key_type.c: key_type_supports_any", "reference/src/taimpl/src/internal/key_store.c: validate_header_format"]}
{"id": "C17", "title": "Padding round-trips and malformed padding is rejected", "statement": "Removing PKCS#7 padding from a padded block returns exactly the original pad length, and a block is accepted exactly if its last byte n is between 1 and 16 and the last n bytes all equal n.", "quantifier": "every 16 byte block and every pad length", "why_tests_cant": "2^128 blocks.", "anchors": ["reference/src/taimpl/src/internal/pad.c: pad_check_pkcs7, pad_apply_pkcs7"]}
{"id": "C18", "title": "Constant-time comparison is equality", "statement": "The comparison used for tags and identifiers returns zero exactly if the two byte strings are equal over the given length, and always inspects every byte.", "quantifier": "every pair of byte strings of every length", "why_tests_cant": "Unbounded inputs.", "anchors": ["reference/src/taimpl/src/porting/memory.c: memory_memcmp_constant"]}
{"id": "C19", "title": "TA identifiers in key containers are parsed faithfully", "statement": "Parsing a textual UUID succeeds only for the canonical 8-4-4-4-12 form, yields exactly the 16 bytes written in it, and different canonical UUIDs give different identifiers.", "quantifier": "every 36 character string", "why_tests_cant": "Space of all strings.", "anchors": ["reference/src/taimpl/src/internal/rights.c: convert_uuid"]}
{"id": "C20", "title": "Offset and length checks are overflow proof", "statement": "A clear or SVP buffer with an offset and byte count is accepted exactly if the mathematical sum offset+count does not exceed the buffer size (and fits in 64 bits); hence every accepted access is inside the buffer.", "quantifier": "every 64-bit offset, count and length", "why_tests_cant": "2^192 combinations; only wraparound ones break.", "anchors": ["reference/src/taimpl/src/internal/buffer.c: convert_buffer", "reference/src/taimpl/src/porting/overflow.c: add_overflow"]}
{"id": "C21", "title": "SVP writes and copies are all-or-nothing and in bounds", "statement": "Writing or copying a list of segments into an SVP buffer either fails leaving the destination unchanged or performs every segment; no byte outside the destination or source is accessed, and bytes not covered by any segment are unchanged.", "quantifier": "every list of segments (64-bit offsets and lengths) and every pair of buffers", "why_tests_cant": "Segment lists are unbounded and wraparound cases are rare.", "anchors": ["reference/src/taimpl/src/porting/svp.c: svp_write, svp_copy"]}
{"id": "C22", "title": "SVP buffers are created only over SVP memory", "statement": "Creating an SVP buffer succeeds only if the given region is valid SVP memory, and then yields a usable buffer.", "quantifier": "every region address and size", "why_tests_cant": "Only invalid regions on special hardware expose it.", "anchors": ["reference/src/taimpl/src/porting/svp.c: svp_validate_buffer, svp_create_buffer", "reference/src/taimpl/src/internal/svp_store.c: svp_store_create"]}
{"id": "C23", "title": "Common-encryption CTR decryption uses the right keystream", "statement": "Decrypting the protected ranges of a sample with AES-CTR gives the same bytes as one CTR pass over their concatenation with a 64-bit block counter that wraps modulo 2^64 and never carries into the upper half of the IV.", "quantifier": "every IV, every split of the protected data into ranges", "why_tests_cant": "Counter wrap happens once in 2^64 blocks; splits are unbounded.", "anchors": ["reference/src/taimpl/src/internal/cenc.c: decrypt, cenc_process_sample"]}
{"id": "C24", "title": "Samples are validated before any byte is processed", "statement": "A sample is accepted for processing only if the total of its subsample lengths has no 64-bit overflow and fits at the offsets of both buffers; if any sample of a call is rejected nothing has been written for any of them.", "quantifier": "every list of samples and subsamples with 64-bit lengths", "why_tests_cant": "Overflow inputs and combinations.", "anchors": ["reference/src/taimpl/src/internal/cenc.c: cenc_get_required_length", "reference/src/taimpl/src/ta_sa_process_common_encryption.c: verify_sample, ta_sa_process_common_encryption"]}
{"id": "C25", "title": "Sample processing preserves clear bytes and reports failures", "statement": "When sample processing succeeds the output has the same length as the input, every clear byte is copied unchanged, the protected bytes are transformed following the crypt/skip pattern, and both offsets advance by exactly the sample length; if decryption of any range failed the call does not report success.", "quantifier": "every sample layout, pattern and failure point", "why_tests_cant": "Failure injection at every block and all layouts.", "anchors": ["reference/src/taimpl/src/internal/cenc.c: cenc_process_sample"]}
{"id": "C26", "title": "Overlapping input and output are rejected", "statement": "Sample processing with clear input and output buffers is refused whenever the two byte ranges to be processed share a byte.", "quantifier": "every pair of ranges with 64-bit addresses", "why_tests_cant": "All relative positions of two ranges.", "anchors": ["reference/src/taimpl/src/internal/cenc.c: cenc_process_sample"]}
{"id": "C27", "title": "A MAC context can be finished only once", "statement": "After a MAC has been computed successfully, every later process, process-key or compute on the context fails and the result never changes; a size query (NULL output) never changes the context.", "quantifier": "every sequence of calls on a MAC context", "why_tests_cant": "Property of all call sequences.", "anchors": ["reference/src/taimpl/src/ta_sa_crypto_mac_process.c", "reference/src/taimpl/src/ta_sa_crypto_mac_compute.c", "reference/src/taimpl/src/internal/hmac_context.c: hmac_context_update, hmac_context_compute", "reference/src/taimpl/src/internal/cmac_context.c"]}
{"id": "C28", "title": "Chunking does not change a MAC", "statement": "The value returned by compute equals the MAC of the concatenation of all successfully processed data and keys in order, however the data was split and whatever failing calls or size queries happened in between.", "quantifier": "every message, every split, every interleaving of failing calls", "why_tests_cant": "Unbounded splits.", "anchors": ["reference/src/taimpl/src/ta_sa_crypto_mac_process.c", "reference/src/taimpl/src/ta_sa_crypto_mac_process_key.c", "reference/src/taimpl/src/internal/hmac_context.c", "reference/src/taimpl/src/internal/cmac_context.c"]}
{"id": "C29", "title": "HKDF derives the RFC 5869 output of exactly the requested length", "statement": "For every supported length the derived key equals the first L bytes of T(1)|T(2)|... of RFC 5869 and no byte outside the L byte output is written.", "quantifier": "every key length up to 512, salt, info, hash", "why_tests_cant": "All lengths and inputs; boundary at multiples of the hash size.", "anchors": ["reference/src/taimpl/src/internal/kdf.c: kdf_hkdf_hmac"]}
{"id": "C30", "title": "Concat and X9.63 KDFs derive the standard output of exactly the requested length", "statement": "The derived key equals the first L bytes of the concatenated hash blocks with a 32-bit big-endian counter starting from 1, in the input order of the respective standard.", "quantifier": "every key length up to 512, info, hash", "why_tests_cant": "All lengths and inputs.", "anchors": ["reference/src/taimpl/src/internal/kdf.c: kdf_concat_kdf, kdf_ansi_x963"]}
{"id": "C31", "title": "CMAC KDF stays inside its four block schedule", "statement": "For every accepted counter and key length, the derived key equals blocks counter .. counter+L/16-1 of the CMAC schedule and lies inside the 64 byte schedule; other combinations are rejected.", "quantifier": "every counter byte and every 64-bit length", "why_tests_cant": "All combinations.", "anchors": ["reference/src/taimpl/src/internal/kdf.c: kdf_ctr_cmac", "reference/src/taimpl/src/ta_sa_key_derive.c: ta_sa_key_derive_cmac"]}
{"id": "C32", "title": "Derivation, exchange, unwrap and signing need the matching right", "statement": "A key is used as a derivation parent, exchange private key, unwrapping key, encryption, decryption or signing key only if it has the usage flag for that operation; otherwise the call fails with OPERATION_NOT_ALLOWED and no key or context is created.", "quantifier": "every operation, every rights word, every key type", "why_tests_cant": "64-bit flags times operations.", "anchors": ["reference/src/taimpl/src/ta_sa_key_derive.c", "reference/src/taimpl/src/ta_sa_key_exchange.c", "reference/src/taimpl/src/ta_sa_key_unwrap.c", "reference/src/taimpl/src/ta_sa_crypto_sign.c", "reference/src/taimpl/src/ta_sa_crypto_cipher_init.c", "reference/src/taimpl/src/ta_sa_crypto_mac_init.c", "reference/src/taimpl/src/internal/rights.c"]}
{"id": "C33", "title": "Every API call returns the references it took", "statement": "After any API call returns, successfully or not, the borrow counts and locks of the session, the cipher context and the SVP buffers are the same as before the call, so that a later release or close of them terminates.", "quantifier": "every API entry, every argument including invalid enumeration values, every outcome of the underlying operations", "why_tests_cant": "Error paths are numerous; a leak shows only as a later hang.", "anchors": ["reference/src/taimpl/src/ta_sa_crypto_cipher_process.c", "reference/src/taimpl/src/ta_sa_crypto_cipher_process_last.c", "reference/src/taimpl/src/internal/object_store.c"]}
{"id": "C34", "title": "Cipher processing obeys the rights and moves offsets exactly", "statement": "A cipher call writes clear output only if the key's SVP-optional flag is set, never moves SVP input to clear output, writes at most the validated number of bytes, and on success advances the input offset by the bytes consumed and the output offset by the bytes produced; on failure offsets do not change.", "quantifier": "every cipher algorithm, mode, buffer kind, length and rights word", "why_tests_cant": "Large product of configurations.", "anchors": ["reference/src/taimpl/src/ta_sa_crypto_cipher_process.c", "reference/src/taimpl/src/ta_sa_crypto_cipher_process_last.c"]}
{"id": "C35", "title": "What was encrypted can be decrypted", "statement": "Data encrypted through a cipher context in any chunks and a final call is given back by a context for decryption opened with the same key and parameters when it is given the same chunks of ciphertext (for the padding ciphers the last block in the final call) and the tag: every call succeeds and the outputs together are the data.", "quantifier": "every symmetric algorithm, key, parameters, chunk sequence, final chunk length, and both sessions after arbitrary earlier calls", "why_tests_cant": "Unbounded lengths and chunk sequences.", "anchors": ["reference/src/taimpl/src/internal/symmetric.c: symmetric_context_encrypt_last, symmetric_context_decrypt_last", "reference/src/taimpl/src/ta_sa_crypto_cipher_process.c", "reference/src/taimpl/src/ta_sa_crypto_cipher_process_last.c"]}
{"id": "C36", "title": "Opening a cipher context never leaves a dangling key", "statement": "After a cipher-init call, either it failed and no context owning the key remains and the clear key copy has been freed once, or it succeeded and the copy is owned by exactly the new context.", "quantifier": "every algorithm, every failure point, every concurrent release of the new handle", "why_tests_cant": "Failure points inside init and concurrent releases are not reachable by unit tests.", "anchors": ["reference/src/taimpl/src/ta_sa_crypto_cipher_init.c: ta_sa_crypto_cipher_init_rsa_oaep, ta_sa_crypto_cipher_init", "reference/src/taimpl/src/internal/cipher_store.c"]}
{"id": "C37", "title": "Untrusted command parameters never overflow TA memory", "statement": "For every command, every parameter type word and every parameter memory size sent by the untrusted side, the command dispatcher never copies more bytes into a fixed-size structure than it holds and never reads past a parameter.", "quantifier": "every command id, every parameter type word, every parameter size and contents", "why_tests_cant": "The untrusted caller chooses sizes freely; normal clients never send the bad ones.", "anchors": ["reference/src/taimpl/src/internal/ta.c: ta_invoke_command_handler, ta_invoke_key_derive, ta_invoke_key_import, ta_invoke_key_provision"]}
{"id": "C38", "title": "Subsample tables are sized without wraparound", "statement": "The subsample table of a common-encryption command is processed only if the parameter memory really holds the declared number of entries, so every table access is in bounds.", "quantifier": "every 64-bit subsample count and memory size", "why_tests_cant": "Fails only for counts near 2^60.", "anchors": ["reference/src/taimpl/src/internal/ta.c: ta_invoke_process_common_encryption"]}
{"id": "C39", "title": "Type-J content rights map to exactly the documented flags", "statement": "The usage flags computed from the list of content-key-rights codes depend only on which codes occur and not on order or repetition: SVP stays optional iff 'SVP required' is absent, each digital flag is set iff its code is present, analog output is allowed iff its code is present and unprotected analog only if CGMS-A is not required; unknown codes are rejected.", "quantifier": "every list of code bytes", "why_tests_cant": "Unbounded lists and orders.", "anchors": ["reference/src/taimpl/src/internal/typej.c: content_key_rights_to_usage_flags"]}
{"id": "C40", "title": "A Type-J key is imported only if its MAC verifies", "statement": "Importing a Type-J container yields a key only if the text has the form header.payload.mac, the decoded mac is 32 bytes and equals the HMAC-SHA256 over header.payload under the MAC key, and both helper keys carry the required rights; every buffer allocated while parsing is freed exactly once.", "quantifier": "every byte string", "why_tests_cant": "All malformed containers.", "anchors": ["reference/src/taimpl/src/internal/typej.c: typej_unwrap, unpack_typej, verify_mac", "reference/src/taimpl/src/ta_sa_key_import.c: ta_sa_key_import_typej"]}
{"id": "C41", "title": "JSON documents are represented faithfully", "statement": "Parsing the serialisation events of a JSON document yields exactly that document (nesting, order, strings, numbers, nulls) or, only if it is null or has a name longer than 255 bytes, refuses it as a whole; looking up a name returns the first entry with exactly that name.", "quantifier": "every JSON tree", "why_tests_cant": "Unbounded nesting.", "anchors": ["reference/src/taimpl/src/internal/json.c: start_map_callback, map_key_callback, json_parse_context_set_value, json_parse_context_pop, json_key_value_find"]}
{"id": "C42", "title": "SoC container key types are matched exactly", "statement": "A SoC key container is accepted only if its key-type string is one of the documented names, and then gets the type and size of that name.", "quantifier": "every string", "why_tests_cant": "All strings, including prefixes and long strings.", "anchors": ["reference/src/taimpl/src/internal/soc_key_container.c: get_key_type_and_size"]}
{"id": "C43", "title": "SoC containers cannot overflow the parser's buffers", "statement": "Parsing an SoC key container never writes outside the fixed-size fields for TA identifiers, IV, ladder inputs and additional authenticated data, whatever the container says.", "quantifier": "every container", "why_tests_cant": "Only hostile containers expose it.", "anchors": ["reference/src/taimpl/src/internal/soc_key_container.c: parse_payload, build_aad"]}
{"id": "C44", "title": "Wrapped keys are authenticated with a full-length tag", "statement": "A key wrapped with AES-GCM or in a SoC container is accepted only if a full 16 byte authentication tag verifies.", "quantifier": "every tag length", "why_tests_cant": "Truncated tags are only sent by attackers.", "anchors": ["reference/src/taimpl/src/porting/otp.c: unwrap_aes_gcm_internal", "reference/src/taimpl/src/internal/soc_key_container.c: decrypt_key_and_verify_mac", "reference/src/taimpl/src/ta_sa_key_unwrap.c"]}
{"id": "C45", "title": "Authenticated key exchange is all-or-nothing", "statement": "The Netflix authenticated exchange either succeeds and returns three live handles of keys with the specified bytes, or fails, leaves every key of the session as before and hands the application no handle.", "quantifier": "every failure point and every store occupancy", "why_tests_cant": "Failure after one or two of the three imports needs an exactly full store.", "anchors": ["reference/src/taimpl/src/ta_sa_key_exchange.c"]}
{"id": "C46", "title": "Keys derived from two parents respect both", "statement": "A key produced from two input keys never has an output-protection flag (analog, digital or SVP-optional) that either input key lacks.", "quantifier": "every pair of parent rights and every requested rights", "why_tests_cant": "64-bit flag words.", "anchors": ["reference/src/taimpl/src/internal/netflix.c: kdf_netflix_wrapping, kdf_netflix_shared_secret", "reference/src/taimpl/src/ta_sa_key_derive.c"]}
{"id": "C47", "title": "Validity dates in containers keep their meaning", "statement": "Converting the ISO-8601 dates of a container gives the number of seconds since 1970 of that date; a later date gives a larger number; dates before 1970 are rejected.", "quantifier": "every date", "why_tests_cant": "All dates.", "anchors": ["reference/src/taimpl/src/internal/typej.c: iso8601_to_epoch_time"]}
{"id": "C48", "title": "EC ElGamal unwrap extracts the key in bounds", "statement": "Unwrapping with an offset and key length returns exactly the selected bytes of the decrypted point and is rejected whenever offset+length (as mathematical numbers) exceeds the point size.", "quantifier": "every 64-bit offset and length", "why_tests_cant": "Wraparound inputs.", "anchors": ["reference/src/taimpl/src/internal/unwrap.c: unwrap_ec"]}
{"id": "C49", "title": "Container key usage maps to exact usage flags", "statement": "The key-usage code of a container sets exactly the documented usage flags for the key type and no others, preserves all unrelated flags, and unknown codes are rejected.", "quantifier": "every usage code, key type and prior flags word", "why_tests_cant": "64-bit prior flags.", "anchors": ["reference/src/taimpl/src/internal/rights.c: key_usage_to_usage_flags"]}
{"id": "C50", "title": "Open cipher contexts respect key validity", "statement": "Data is processed with a key only while the key's validity window and output requirements hold at the time of processing.", "quantifier": "every sequence of init and process calls at arbitrary times", "why_tests_cant": "Needs the passage of time between calls.", "anchors": ["reference/src/taimpl/src/ta_sa_crypto_cipher_process.c", "reference/src/taimpl/src/internal/key_store.c: key_store_unwrap"]}
{"id": "C51", "title": "Context operations are exclusive", "statement": "Two threads never operate on the same cipher, MAC or SVP object at the same time, and a context is not destroyed while a thread operates on it.", "quantifier": "every interleaving of exclusive acquire/release and remove", "why_tests_cant": "Schedules.", "anchors": ["reference/src/taimpl/src/internal/cipher_store.c: cipher_store_acquire_exclusive, cipher_store_release_exclusive", "reference/src/taimpl/src/internal/mac_store.c", "reference/src/taimpl/src/internal/svp_store.c"]}
{"id": "C52", "title": "Key length limits are enforced before use", "statement": "Generated and imported keys are accepted exactly for the documented sizes (symmetric 16..512, RSA 128/256/384/512, DH 1..512, EC by curve).", "quantifier": "every type and 64-bit size", "why_tests_cant": "All sizes.", "anchors": ["reference/src/taimpl/src/internal/key_type.c", "reference/src/taimpl/src/ta_sa_key_generate.c", "reference/src/taimpl/src/ta_sa_key_import.c"]}
{"id": "C53", "title": "Unwrapping imports exactly the decrypted bytes with rights restricted by the wrapping key", "statement": "A successful key unwrap call creates exactly one new key, owned by the caller, whose bytes are the decryption of the given input under the given algorithm, parameters and wrapping key and whose rights are the requested rights restricted by those of the wrapping key; a failing call creates no key and changes no other key; and every well-formed, decryptable input is accepted.", "quantifier": "every key store history, wrapping key, algorithm, parameter set, input and rights", "why_tests_cant": "All inputs and key states; tests unwrap only a few well-formed keys.", "anchors": ["reference/src/taimpl/src/ta_sa_key_unwrap.c", "reference/src/taimpl/src/internal/unwrap.c"]}
{"id": "C54", "title": "Unwrapping never reads outside its buffers", "statement": "No key unwrap call, whatever its input length, reads or writes outside the caller's input and the buffers allocated for the call.", "quantifier": "every algorithm, parameter set and input, including the empty input", "why_tests_cant": "Out of bounds reads of a few bytes are usually invisible to tests.", "anchors": ["reference/src/taimpl/src/ta_sa_key_unwrap.c", "reference/src/taimpl/src/internal/unwrap.c", "reference/src/taimpl/src/internal/pad.c: pad_check_pkcs7"]}
{"id": "C55", "title": "A signature that is reported exists", "statement": "If sa_crypto_sign succeeds with an output buffer, the signature of the given message under the key is in the buffer, has exactly the documented size for the key (reported in the length) and lies within the buffer; a NULL buffer gives that size; a buffer that is too small makes the call fail without anything written.", "quantifier": "every key, algorithm, message, buffer size and failure of OpenSSL", "why_tests_cant": "Failures of OpenSSL inside the signing functions cannot be provoked through the API in a test for every path and key.", "anchors": ["reference/src/taimpl/src/ta_sa_crypto_sign.c", "reference/src/taimpl/src/internal/rsa.c: rsa_sign_pss, rsa_sign_pkcs1v15", "reference/src/taimpl/src/internal/ec.c: ec_sign_ecdsa, ec_sign_eddsa, bn_export"]}
{"id": "C56", "title": "Concurrent calls never block each other forever", "statement": "Whatever calls several threads make on cipher contexts, MAC contexts and SVP buffers at the same time, no group of calls waits for each other forever: some call can always go on.", "quantifier": "every set of threads, every schedule, every combination of objects used by the calls", "why_tests_cant": "Deadlocks appear only under particular schedules of particular pairs of calls.", "anchors": ["reference/src/taimpl/src/ta_sa_svp_buffer_copy.c", "reference/src/taimpl/src/internal/svp_store.c: svp_store_acquire_exclusive", "reference/src/taimpl/src/internal/cipher_store.c", "reference/src/taimpl/src/internal/mac_store.c"]}
{"id": "C57", "title": "An SVP buffer is released exactly once", "statement": "If several threads release the same SVP buffer at the same time, exactly one of them receives its memory, the others fail, and all of the calls return.", "quantifier": "every number of threads and every schedule", "why_tests_cant": "Needs particular schedules; memory handed out twice is invisible to a sequential test.", "anchors": ["reference/src/taimpl/src/internal/svp_store.c: svp_store_release", "reference/src/taimpl/src/porting/svp.c: svp_release_buffer", "reference/src/taimpl/src/ta_sa_svp_buffer_release.c"]}
{"id": "C58", "title": "Memory declared input-only is never written", "statement": "For every command sent to the trusted application, the memory of a parameter declared as input is neither written by the command handling nor handed to an operation as the place for its output.", "quantifier": "every command number, every combination of parameter types, sizes and contents, and every allocation outcome", "why_tests_cant": "The parameter types are 16^4 combinations per command and contents are unbounded; a write to input memory is invisible unless the transport maps it read-only.", "anchors": ["reference/src/taimpl/src/internal/ta.c: ta_invoke_command_handler, ta_invoke_crypto_cipher_process, ta_invoke_process_common_encryption"]}
{"id": "C59", "title": "Parsing an SoC container keeps the heap intact", "statement": "While an SoC key container is imported, accepted or not, every block of memory allocated for it is freed exactly once, decoded text fits the block allocated for it, and no unset variable, NULL pointer or memory behind a string constant is read.", "quantifier": "every container text, every result of the base64 and JSON libraries, every content of unset memory", "why_tests_cant": "Double frees and reads of unset memory often have no visible effect in a test, and only malformed containers provoke them.", "anchors": ["reference/src/taimpl/src/internal/soc_key_container.c: soc_kc_unwrap, unpack_soc_kc, parse_payload, build_aad, decrypt_key_and_verify_mac", "reference/src/taimpl/src/internal/json.c: b64_decode"]}
{"id": "C60", "title": "The tag of an SoC container protects all it says", "statement": "A key is imported from an SoC container only if the container's tag is the AES-GCM tag, under the key obtained from the root key and the ladder inputs of the container, of the encrypted key and of authenticated data that determine the container version, the root key, the key type, the two usages, the initialisation vector, the ladder inputs and the TA identifiers (up to letter case).", "quantifier": "every container text, every result of the base64 and JSON libraries and every key ladder", "why_tests_cant": "Forged containers that are accepted cannot be found by trying; the property is about all texts.", "anchors": ["reference/src/taimpl/src/internal/soc_key_container.c: build_aad, decrypt_key_and_verify_mac, soc_kc_unwrap", "reference/src/taimpl/src/porting/otp.c"]}
{"id": "C61", "title": "Only the TAs a key container lists can use its key", "statement": "A key imported from an SoC or Type-J container without a list of entitled TAs can be used by every TA. With a list, it can be used by exactly the TAs whose UUIDs are listed (in canonical text, any letter case; the all-ones UUID stands for every TA), and the store refuses the importing TA itself if it is not listed, at any time.", "quantifier": "for all container texts, lists, UUID texts, calling TAs, helper keys, store states, times", "why_tests_cant": "The mapping from arbitrary JSON values and 36-byte texts to a fixed array of 32 identifiers with two magic values has corner cases (empty lists, malformed texts, values of another type) that no finite set of containers covers.", "anchors": ["reference/src/taimpl/src/internal/soc_key_container.c: fields_to_rights", "reference/src/taimpl/src/internal/typej.c: fields_to_rights", "reference/src/taimpl/src/internal/rights.c: convert_uuid, rights_allowed_uuid", "reference/src/taimpl/src/ta_sa_key_import.c: ta_sa_key_import_soc, ta_sa_key_import_typej"]}
{"id": "C62", "title": "A key imported from a Type-J container is the key it describes", "statement": "If the import of a Type-J container succeeds, the new key consists of exactly the bytes obtained by decrypting contentKey as the container version and algorithm say, has the stated length, identifier, validity dates and cacheability, and each usage or output right is set exactly if the container grants it and the rights of the wrapping key let it pass; no other right is set.", "quantifier": "for all container texts, payloads, helper keys and their rights, store states", "why_tests_cant": "The result depends on the combination of eight JSON fields, three versions, four algorithms and the rights of the wrapping key; tests try a few combinations, in particular not fields with unexpected JSON types.", "anchors": ["reference/src/taimpl/src/internal/typej.c: fields_to_rights, unwrap_key_v1, unwrap_key_v2, typej_unwrap", "reference/src/taimpl/src/internal/stored_key.c: restrict_child_rights", "reference/src/taimpl/src/ta_sa_key_import.c: ta_sa_key_import_typej"]}
{"id": "C63", "title": "The trusted application is called with the arguments of the application", "statement": "Whatever an application passes to a function of the client library, if the library sends a command then the function of the trusted application is called with the same values: the same handles, enumerations, lengths, offsets, rights and parameter structures, and input memory with the same bytes. A call is never executed with other arguments than those given.", "quantifier": "every function of the API, every combination of arguments and optional parameters, every content of input memory and of unset memory, builds with and without shared memory", "why_tests_cant": "The arguments pass through two hand-written layers of byte layouts with reused fields and unset padding; a test compares a few calls whose wrong fields often do not matter.", "anchors": ["reference/src/clientimpl/src/sa_*.c", "reference/src/clientimpl/src/porting/ta_client.h: CREATE_COMMAND, CREATE_PARAM", "reference/src/taimpl/src/internal/ta.c: ta_invoke_*"]}
{"id": "C64", "title": "Applications that use the client library cannot make the command handler misbehave", "statement": "Whatever arguments an application passes to a function of the client library, the command handler of the trusted application reads and writes only memory that belongs to it or was passed with the command, writes to no memory that was passed as input, and calls the function the application called.", "quantifier": "every function of the API, every combination of arguments and optional parameters, every content of memory, every failure of allocation in the handler", "why_tests_cant": "The sizes that the library sends and the sizes that the handler trusts are written in different files; only the composition of both for all arguments shows whether they fit.", "anchors": ["reference/src/clientimpl/src/sa_*.c", "reference/src/taimpl/src/internal/ta.c: ta_invoke_*, ta_invoke_command_handler"]}
{"id": "C65", "title": "An algorithm runs only with keys and parameters it is defined for", "statement": "A signature, cipher, MAC, key derivation, key unwrapping or key exchange succeeds only if the key has the type, the curve and the size that the algorithm is defined for (for instance ECDSA only NIST curves, EdDSA only Ed25519 and Ed448, AES only symmetric keys of 16 or 32 bytes, RSA only RSA keys), and the digests, initialisation vectors, nonces, counters and input lengths are those of the algorithm. A single RSA or ElGamal block is accepted if it has exactly the length of the key.", "quantifier": "every algorithm, parameter structure, key, key store, input and calling TA", "why_tests_cant": "The check is spread over some thirty functions, each with its own conditions on types, curves and lengths; tests try a few wrong combinations.", "anchors": ["reference/src/taimpl/src/ta_sa_crypto_sign.c", "reference/src/taimpl/src/ta_sa_crypto_cipher_init.c", "reference/src/taimpl/src/ta_sa_crypto_cipher_process.c", "reference/src/taimpl/src/ta_sa_crypto_cipher_update_iv.c", "reference/src/taimpl/src/ta_sa_crypto_mac_init.c", "reference/src/taimpl/src/ta_sa_key_derive.c", "reference/src/taimpl/src/ta_sa_key_unwrap.c", "reference/src/taimpl/src/ta_sa_key_exchange.c", "reference/src/taimpl/src/internal/key_type.c"]}
{"id": "C66", "title": "A key imported from an SoC container has exactly the rights the container states", "statement": "If the import of an SoC key container succeeds, the imported key allows exactly the uses (key agreement, derivation, unwrapping, encryption, decryption, signing) that the stated key usage grants to that kind of key, keys it unwraps are allowed exactly what the stated usage of decrypted keys grants, all outputs are permitted, there is no time limit, and the identifier is the caller's object identifier; undocumented usages are refused.", "quantifier": "for all containers, import parameters, base64 and JSON libraries, key ladders and primitives", "why_tests_cant": "A test can import a few sample containers; that no other combination of key type, usage, and second usage gives a right too many or too few (the key type is compared by prefix, the usage truncated to a byte) needs all of them.", "anchors": ["reference/src/taimpl/src/internal/soc_key_container.c: fields_to_rights, parse_payload, get_key_type_and_size, soc_kc_unwrap", "reference/src/taimpl/src/internal/rights.c: key_usage_to_usage_flags"]}
{"id": "C67", "title": "A key check tells only whether the key decrypts the data, and only those entitled", "statement": "sa_svp_key_check succeeds exactly if the caller may use the AES key for decryption, with clear memory only if the key allows it and with secure memory only as a TA, the data lie inside the caller's buffer, and AES-ECB decryption of the data gives the expected value. Callers who are not entitled learn nothing, no memory but the named bytes influences the result, and no key or buffer is changed.", "quantifier": "for every state of key and SVP tables, caller, key handle, buffer description, length, expected value and contents of memory", "why_tests_cant": "the conditions combine key rights, buffer types, 64-bit range arithmetic and memory contents; a test cannot show that no other memory influences the result, and none passes buffer types that do not exist", "anchors": ["reference/src/taimpl/src/ta_sa_svp_key_check.c:ta_sa_svp_key_check", "reference/src/taimpl/src/porting/svp.c:svp_key_check", "reference/src/taimpl/src/porting/otp.c:unwrap_aes_ecb_internal", "reference/src/taimpl/src/internal/buffer.c:convert_buffer", "reference/src/taimpl/src/internal/ta.c:ta_invoke_svp_key_check"]}
{"id": "C68", "title": "A buffer check compares the hash of exactly the bytes named, for TAs only", "statement": "sa_svp_buffer_check succeeds exactly if the caller is a TA, the range lies inside an SVP buffer of the caller, the algorithm exists and the hash of the bytes of the range is the one given; every other call fails with the documented status; no other memory influences the result and nothing is changed.", "quantifier": "for every state of the SVP table, caller, handle, offset, length, algorithm, hash and contents of memory", "why_tests_cant": "offsets and lengths range over all 64-bit numbers, and that no other byte of secure memory influences the answer is not observable by a test", "anchors": ["reference/src/taimpl/src/ta_sa_svp_buffer_check.c:ta_sa_svp_buffer_check", "reference/src/taimpl/src/porting/svp.c:svp_digest", "reference/src/util/src/digest_util.c:digest_length"]}
{"id": "C69", "title": "Key digests and public keys are those of the key and tell nothing else", "statement": "sa_key_digest gives the hash of the bytes of a symmetric, RSA or EC key, sa_key_get_public the encoded public key of an RSA, EC or DH key. A call without a buffer tells the length, which then suffices. Nothing else of the key gets out, bytes of the buffer behind the answer and failing calls' buffers stay as they were, and failures have the documented status.", "quantifier": "for every state of the key table, handle, caller, algorithm and output buffer", "why_tests_cant": "tests look at few keys and buffer sizes; that all other bytes stay untouched and that all callers who cannot use the key are refused quantifies over all of them", "anchors": ["reference/src/taimpl/src/ta_sa_key_digest.c:ta_sa_key_digest", "reference/src/taimpl/src/internal/digest.c:digest_key", "reference/src/taimpl/src/ta_sa_key_get_public.c:ta_sa_key_get_public", "reference/src/taimpl/src/internal/rsa.c:rsa_get_public", "reference/src/taimpl/src/internal/ec.c:ec_get_public", "reference/src/taimpl/src/internal/dh.c:dh_get_public"]}
{"id": "C70", "title": "The application gets what the TA returned; after a failure its variables are as before", "statement": "After a successful call through the client library every variable of the application holds what the function of the TA returned for it: handles, lengths, versions, headers, bytes of output at the application's offset, and both offsets advanced; every other variable and every other byte stays as it was. If the call fails, all variables stay as they were, except that in builds without shared memory the output memory may have been written behind the given offset. Calls the library refuses change nothing.", "quantifier": "for every call of the API, every configuration of the library (with and without shared memory, any allocation failure), every answer of the TA within its contract, and every contents of the application's memory", "why_tests_cant": "tests check the values of few calls, in one of the two builds, and hardly ever the bytes next to the output or variables after failures", "anchors": ["reference/src/clientimpl/src/sa_crypto_cipher_process.c:sa_crypto_cipher_process", "reference/src/clientimpl/src/sa_crypto_cipher_process_last.c:sa_crypto_cipher_process_last", "reference/src/clientimpl/src/sa_process_common_encryption.c:sa_process_common_encryption", "reference/src/clientimpl/src/sa_key_header.c:sa_key_header", "reference/src/clientimpl/src/sa_key_exchange.c:sa_key_exchange", "reference/src/clientimpl/src/sa_key_export.c:sa_key_export", "reference/src/clientimpl/src/sa_svp_buffer_release.c:sa_svp_buffer_release", "reference/src/clientimpl/src/porting/ta_client.h:COPY_OUT_PARAM", "reference/src/taimpl/src/internal/ta.c:ta_invoke_command_handler"]}
{"id": "C71", "title": "Several samples are processed one after the other, up to the first failure", "statement": "sa_process_common_encryption gives the samples to the TA in the order of the array, each with the buffers as the former samples have left them. The first sample that cannot be processed ends the call with its status; success means that every sample has been processed. After each processed sample the output lies at the former offset of its output buffer and both offsets have advanced by what the TA reports; nothing else changes.", "quantifier": "for every array of samples, of any length, sharing buffers or not, every contents of memory, every allocation failure in builds without shared memory, every behaviour of the TA within its contract", "why_tests_cant": "tests use a handful of samples with separate buffers and never fail an allocation between two samples; sharing of buffers and failures in the middle multiply with the number of samples", "anchors": ["reference/src/clientimpl/src/sa_process_common_encryption.c:sa_process_common_encryption", "reference/src/clientimpl/src/porting/ta_client.h:CREATE_PARAM", "reference/src/taimpl/src/internal/ta.c:ta_invoke_process_common_encryption"]}
{"id": "C72", "title": "A call of the library gives all its memory back", "statement": "Every call of the client library releases what it has allocated, whether it succeeds or fails at any point, releases nothing twice and nothing of the application, and follows no NULL pointer it has made itself.", "quantifier": "for every function of the library, every combination of failing allocations, checks and invocations, every number of samples, with and without shared memory", "why_tests_cant": "leaks do not change results; allocation failures are not provoked by tests", "anchors": ["reference/src/clientimpl/src/sa_*.c", "reference/src/clientimpl/src/porting/ta_client.h:CREATE_COMMAND", "reference/src/clientimpl/src/porting/ta_client.h:CREATE_PARAM", "reference/src/clientimpl/src/porting/ta_client.h:RELEASE_COMMAND"]}
{"id": "C73", "title": "All threads of an application use one session, closed at the end", "statement": "However threads interleave their first calls, at most one session with the TA is opened; every call that gets a session gets that one. A call goes without a session only if the lock or the opening failed in that call. A waiting thread waits only for one that can go on. When the application ends, the session is closed exactly once.", "quantifier": "for every number of threads, every interleaving, every failure of locking, opening and registration of the handler", "why_tests_cant": "tests run single-threaded; interleavings and failures of the thread library cannot be enumerated", "anchors": ["reference/src/clientimpl/src/internal/client.c:client_session", "reference/src/clientimpl/src/internal/client.c:client_mutex_create", "reference/src/clientimpl/src/internal/client.c:client_shutdown", "reference/src/clientimpl/src/porting/ta_client.c:ta_open_session"]}
{"id": "C74", "title": "An SVP buffer and its memory live together", "statement": "sa_svp_buffer_alloc gives a buffer of the requested size over memory of its own, or fails and changes nothing. sa_svp_buffer_free gives back exactly the memory of the buffer, and refuses other handles without effect. No buffer ever lies over memory that was given back, buffers do not overlap, no memory is lost and none is given back twice.", "quantifier": "for every history of calls by an application that makes buffers of, and frees, only memory it holds itself; every table size, every failure of allocation or session, every placement by malloc", "why_tests_cant": "tests allocate and free a few buffers; leaks, double frees and frees of uninitialised pointers need failures in the middle and long histories, and do not show in results", "anchors": ["reference/src/clientimpl/src/sa_svp_buffer_alloc.c:sa_svp_buffer_alloc", "reference/src/clientimpl/src/sa_svp_buffer_free.c:sa_svp_buffer_free", "reference/src/clientimpl/src/sa_svp_buffer_create.c:sa_svp_buffer_create", "reference/src/clientimpl/src/sa_svp_buffer_release.c:sa_svp_buffer_release", "reference/src/clientimpl/src/porting/sa_svp_memory_alloc.c:sa_svp_memory_alloc", "reference/src/clientimpl/src/porting/sa_svp_memory_free.c:sa_svp_memory_free", "reference/src/taimpl/src/internal/svp_store.c:svp_store_release"]}
{"id": "C75", "title": "Through the OpenSSL provider a message may be cut into any pieces", "statement": "A message enciphered or deciphered with EVP calls through the SecApi provider gives what the API gives for the whole message: however the application cuts it into pieces, and whatever the same context was used for before. If data is refused, the application is told.", "quantifier": "for every message, every way to cut it into pieces, every cipher of the provider, every implementation of the API below", "why_tests_cant": "tests use a few piece sizes, mostly multiples of the block size, and new contexts; the ways to cut a message are unbounded", "anchors": ["reference/src/client/src/sa_provider_cipher.c:cipher_cipher", "reference/src/client/src/sa_provider_cipher.c:cipher_update", "reference/src/client/src/sa_provider_cipher.c:cipher_final", "reference/src/client/src/sa_provider_cipher.c:cipher_init", "reference/src/client/src/sa_provider_cipher.c:cipher_set_ctx_params"]}
{"id": "C76", "title": "Through the OpenSSL provider only authentic data is accepted", "statement": "If an application deciphers with AES-GCM or ChaCha20-Poly1305 through the SecApi provider and EVP_DecryptFinal_ex succeeds, the API agreed that the tag given belongs to all data and all additional data that the application gave.", "quantifier": "for every message in any pieces, all additional data in any pieces, every tag, every implementation of the API below", "why_tests_cant": "tests give additional data once, always an output buffer and full tags; a check that is left out does not show for correct data", "anchors": ["reference/src/client/src/sa_provider_cipher.c:cipher_cipher", "reference/src/client/src/sa_provider_cipher.c:cipher_update", "reference/src/client/src/sa_provider_cipher.c:cipher_final", "reference/src/client/src/sa_provider_cipher.c:cipher_init", "reference/src/client/src/sa_provider_cipher.c:cipher_set_ctx_params"]}
{"id": "C77", "title": "Keys derived through the OpenSSL provider are those of the standards", "statement": "Deriving a key with EVP_KDF calls through the SecApi provider gives the key of RFC 5869, of the concatenation KDF, of ANSI X9.63 or of SP 800-108 with CMAC, from the key, digest, salt and info that were set last, or fails without effect: in whatever order, number and place the parameters were set, also on contexts that were reset or duplicated.", "quantifier": "for every list of parameter settings, every length, every parent key in every reachable key store, every behaviour of OpenSSL below", "why_tests_cant": "tests set each parameter once, before deriving one key, with a few lengths; wrong keys only show against another implementation", "anchors": ["reference/src/client/src/sa_provider_kdf.c:kdf_set_ctx_params", "reference/src/client/src/sa_provider_kdf.c:kdf_derive", "reference/src/client/src/sa_provider_kdf.c:kdf_reset", "reference/src/client/src/sa_provider_kdf.c:kdf_dupctx", "reference/src/util/src/digest_util.c:digest_algorithm_from_name"]}
{"id": "C78", "title": "Contexts of the OpenSSL provider release exactly the keys they own", "statement": "A cipher, MAC or KDF context of the SecApi provider releases each key that it imported itself, and each key that the application gave away to it, once, when the context is freed or the key replaced. It releases no other key, and never uses one that it released.", "quantifier": "for every sequence of operations on a context, every sequence of keys, every implementation of the API below", "why_tests_cant": "tests use a context with one key and look only at results; leaks and double releases show in no result", "anchors": ["reference/src/client/src/sa_provider_cipher.c:cipher_init", "reference/src/client/src/sa_provider_cipher.c:cipher_set_ctx_params", "reference/src/client/src/sa_provider_cipher.c:cipher_freectx", "reference/src/client/src/sa_provider_mac.c:mac_init", "reference/src/client/src/sa_provider_mac.c:mac_set_ctx_params", "reference/src/client/src/sa_provider_mac.c:mac_freectx", "reference/src/client/src/sa_provider_kdf.c:kdf_set_ctx_params", "reference/src/client/src/sa_provider_kdf.c:kdf_freectx"]}
{"id": "C79", "title": "MACs made through the OpenSSL provider are those of key, digest and message", "statement": "If an application gets a MAC with EVP_MAC calls through the SecApi provider, it is the MAC under the key and with the digest that it gave last, of all the data that it gave since it last initialised the context: however often the context was used before, however the data is cut into pieces, whatever calls failed.", "quantifier": "for every sequence of initialisations, settings, updates and finals on a context, every interleaving with calls of others, every implementation of the API below", "why_tests_cant": "tests make one MAC per context with one digest and look at no failing calls; the sequences are unbounded", "anchors": ["reference/src/client/src/sa_provider_mac.c:mac_init", "reference/src/client/src/sa_provider_mac.c:mac_update", "reference/src/client/src/sa_provider_mac.c:mac_final", "reference/src/client/src/sa_provider_mac.c:mac_set_ctx_params", "reference/src/util/src/digest_util.c:digest_algorithm_from_name"]}
{"id": "C80", "title": "Through the OpenSSL 1.1 engine messages are processed with the key, IV and direction given, and errors are told", "statement": "A message enciphered or deciphered with EVP calls through the SecApi engine gives what the API gives for the whole message with the key, IV and direction of the last initialisation, however it is cut into pieces and whatever the context was used for before. A message with a tag is accepted only if the API agreed that the tag belongs to all data and all additional data. If the API refuses anything, the application is told.", "quantifier": "for every message, every way to cut it into pieces, every cipher of the engine, every sequence of initialisations, every implementation of the API below", "why_tests_cant": "tests use each context once, with memory that does not change and an API that accepts everything", "anchors": ["reference/src/client/src/sa_engine_cipher.c:cipher_init", "reference/src/client/src/sa_engine_cipher.c:cipher_do_cipher", "reference/src/client/src/sa_engine_cipher.c:cipher_ctrl", "reference/src/client/src/sa_engine_cipher.c:cipher_cleanup"]}
{"id": "C81", "title": "The OpenSSL provider releases the keys handed over to it exactly once, when nothing refers to them any longer, and never those lent to it", "statement": "However an application makes, copies, uses and frees EVP_PKEYs and contexts for signatures, key exchange and encryption, a key of the API that was given to the provider to be deleted, or that the provider made itself, is released exactly once, at the moment the last thing that refers to it is freed. A key that was only lent is never released by the provider. No freed memory is used.", "quantifier": "for every sequence of operations, any number of keys and contexts, every pattern of failures of the API", "why_tests_cant": "tests free what they make in one order; whether references are lost or counted twice shows only in other orders and after failures", "anchors": ["reference/src/client/src/sa_provider_keymgt.c:keymgmt_import", "reference/src/client/src/sa_provider_keymgt.c:keymgmt_gen", "reference/src/client/src/sa_provider_keymgt.c:keymgmt_free", "reference/src/client/src/sa_provider_keymgt.c:sa_provider_key_data_dup", "reference/src/client/src/sa_provider_signature.c:signature_dupctx", "reference/src/client/src/sa_provider_signature.c:signature_digest_sign_init", "reference/src/client/src/sa_provider_keyexch.c:keyexch_dupctx", "reference/src/client/src/sa_provider_keyexch.c:keyexch_set_peer", "reference/src/client/src/sa_provider_asym_cipher.c:asym_cipher_dupctx"]}
{"id": "C82", "title": "Signatures made through the OpenSSL provider are of the whole message with the algorithm asked for, fit the announced length, and are named truly", "statement": "An application that signs with a provider key through EVP_DigestSign* or EVP_PKEY_sign gets the API's signature of the hash of the whole message, however it was cut into pieces, with the padding, digest, mask generation digest and salt length that it asked for. ECDSA signatures come out as the DER encoding of the two numbers. A buffer of the announced length is enough and one that is too small is refused. The provider verifies its own signatures with the same settings and its name for the algorithm is the right one.", "quantifier": "for every key, digest, padding, salt length, message and cutting into pieces, every answer of the API", "why_tests_cant": "tests sign short messages with a handful of combinations; numbers with leading zeros or a high first bit, lengths of salt for odd key sizes and defaults that nobody names are rarely met", "anchors": ["reference/src/client/src/sa_provider_signature.c:signature_sign", "reference/src/client/src/sa_provider_signature.c:signature_digest_sign_init", "reference/src/client/src/sa_provider_signature.c:signature_digest_sign_update", "reference/src/client/src/sa_provider_signature.c:signature_digest_sign_final", "reference/src/client/src/sa_provider_signature.c:signature_digest_sign", "reference/src/client/src/sa_provider_signature.c:signature_verify", "reference/src/client/src/sa_provider_signature.c:signature_set_ctx_params", "reference/src/client/src/sa_provider_signature.c:signature_get_ctx_params", "reference/src/client/src/sa_public_key.c:ec_encode_signature", "reference/src/util/src/digest_util.c:digest_algorithm_from_md"]}
{"id": "C83", "title": "Keys generated through the OpenSSL provider are of the size, curve or group asked for, and only the same key is equal", "statement": "When an application generates a key pair or parameters with the provider, the API is asked for the size, curve or group that the application named last, by number, by name, or by giving another key or parameters as an example, and for the default of the kind otherwise; what cannot be had is refused. EVP_PKEY_eq says that two keys are equal exactly if they are the same key, and a public key counts as one.", "quantifier": "for every kind of key, every sequence of settings and examples, all names and numbers", "why_tests_cant": "tests generate keys of usual sizes and curves; that another name or number is accepted and something else is made is not looked for, and equality is tested on equal keys", "anchors": ["reference/src/client/src/sa_provider_keymgt.c:keymgmt_gen_init", "reference/src/client/src/sa_provider_keymgt.c:keymgmt_gen_set_params", "reference/src/client/src/sa_provider_keymgt.c:keymgmt_gen_set_template", "reference/src/client/src/sa_provider_keymgt.c:keymgmt_gen", "reference/src/client/src/sa_provider_keymgt.c:keymgmt_import", "reference/src/client/src/sa_provider_keymgt.c:keymgmt_match", "reference/src/client/src/sa_provider_keymgt.c:keymgmt_has", "reference/src/client/src/sa_provider_keymgt.c:ec_get_curve_from_name"]}
{"id": "C84", "title": "RSA encryption through the OpenSSL provider uses padding, digests and label asked for, and what was encrypted can be decrypted", "statement": "What an application encrypts or decrypts with an RSA key of the provider is encrypted by OpenSSL and decrypted by the API with the padding, digest, mask generation digest and label that the application set last, and with OpenSSL's defaults where it set none. What was encrypted with a context can be decrypted with it or with a copy of it. What the provider tells about these settings is true, and what it cannot do it refuses.", "quantifier": "for every sequence of settings, all digests, labels and messages", "why_tests_cant": "tests set one combination and encrypt and decrypt with the same code, so a wrong setting used on both sides goes unnoticed", "anchors": ["reference/src/client/src/sa_provider_asym_cipher.c:asym_cipher_encrypt", "reference/src/client/src/sa_provider_asym_cipher.c:asym_cipher_decrypt", "reference/src/client/src/sa_provider_asym_cipher.c:asym_cipher_set_ctx_params", "reference/src/client/src/sa_provider_asym_cipher.c:asym_cipher_get_ctx_params", "reference/src/client/src/sa_provider_asym_cipher.c:asym_cipher_dupctx"]}
{"id": "C85", "title": "Ciphertexts, plaintexts and tags are those of the algorithm, direction, key, IV, counter and additional data that were asked for", "statement": "Whatever a client encrypts with a symmetric context, in any chunks, with any calls before and any IVs set in between, is the ciphertext of its data under the standard mode (ECB, CBC with or without PKCS#7 padding, CTR, GCM, ChaCha20, ChaCha20-Poly1305) for the key and the parameters given when the context was opened, with the IV set last; whatever it decrypts is what the data decrypts to in this mode, with correct padding; a tag is the tag of the additional data and the whole ciphertext, and a decryption that has a tag ends in success only if the tag given is a beginning of that tag. A context that cannot be made leaves nothing allocated.", "quantifier": "for every algorithm, key, IV, additional data, every sequence of calls before, every list of chunks, every failure of OpenSSL, and every block cipher whose decryption inverts its encryption", "why_tests_cant": "tests encrypt and decrypt a few messages, mostly with the same code on both sides; no finite set of messages, chunkings and IV changes shows that each is processed under the mode and parameters asked for", "anchors": ["reference/src/taimpl/src/internal/symmetric.c:symmetric_create_aes_ecb_encrypt_context", "reference/src/taimpl/src/internal/symmetric.c:symmetric_create_aes_cbc_decrypt_context", "reference/src/taimpl/src/internal/symmetric.c:symmetric_create_aes_ctr_encrypt_context", "reference/src/taimpl/src/internal/symmetric.c:symmetric_create_aes_gcm_encrypt_context", "reference/src/taimpl/src/internal/symmetric.c:symmetric_create_chacha20_encrypt_context", "reference/src/taimpl/src/internal/symmetric.c:symmetric_create_chacha20_poly1305_decrypt_context", "reference/src/taimpl/src/internal/symmetric.c:symmetric_context_set_iv", "reference/src/taimpl/src/ta_sa_crypto_cipher_init.c:ta_sa_crypto_cipher_init", "reference/src/taimpl/src/ta_sa_crypto_cipher_update_iv.c:ta_sa_crypto_cipher_update_iv"]}
{"id": "C86", "title": "Ciphers of the OpenSSL provider work as the cipher fetched, with the direction, key, IV and padding set last", "statement": "An application fetches a cipher from the provider and sets it up with EVP_CipherInit_ex2 and EVP_CIPHER_CTX_set_params, in any order and any number of times; its data is then processed by SecApi with the algorithm that belongs to the name of the cipher and the padding set last, the direction set last, the key set last (which has the size of the cipher's keys), and the IV set last; the sizes, the IV, the padding and the key that the provider reports are true; keys that the application lent stay its own. Whatever is done with a context, the SecApi cipher contexts it made are released with it and no others.", "quantifier": "for every cipher of the provider, every sequence of settings, every message and way of cutting it, and everything SecApi may answer", "why_tests_cant": "tests set up each cipher once, in one order, with the default IV length and one key; no finite set of sequences shows that the last setting always counts", "anchors": ["reference/src/client/src/sa_provider_cipher.c:cipher_newctx", "reference/src/client/src/sa_provider_cipher.c:cipher_init", "reference/src/client/src/sa_provider_cipher.c:cipher_set_ctx_params", "reference/src/client/src/sa_provider_cipher.c:cipher_get_ctx_params", "reference/src/client/src/sa_provider_cipher.c:cipher_get_params", "reference/src/client/src/sa_provider_cipher.c:cipher_cipher", "reference/src/client/src/sa_provider_cipher.c:cipher_freectx", "reference/src/client/src/sa_provider_cipher.c:SA_PROVIDER_CIPHER_FUNCTIONS"]}
{"id": "C87", "title": "Digests of the OpenSSL provider are those of the bytes given since initialisation, on every context and every copy", "statement": "An application that makes, copies, initialises, feeds, finishes and frees digest contexts of the provider in any order gets from each context the digest it asked for, of exactly the bytes given to it since it was last initialised (including those given to the context it was copied from, before the copy). A digest is written only where there is room for it. Every context that was made and not freed holds one OpenSSL digest context and one reference to a digest implementation, and nothing else is held, also when calls fail. What the provider says can be set or asked for is what can.", "quantifier": "for every sequence of operations on any number of contexts, every way of cutting the data, every pattern of failing calls", "why_tests_cant": "tests hash one message per digest in one context; interleavings with copies and failing allocations are not finitely enumerable", "anchors": ["reference/src/client/src/sa_provider_digest.c:digest_newctx", "reference/src/client/src/sa_provider_digest.c:digest_freectx", "reference/src/client/src/sa_provider_digest.c:digest_dupctx", "reference/src/client/src/sa_provider_digest.c:digest_init", "reference/src/client/src/sa_provider_digest.c:digest_update", "reference/src/client/src/sa_provider_digest.c:digest_final", "reference/src/client/src/sa_provider_digest.c:digest_gettable_ctx_params", "reference/src/client/src/sa_provider_digest.c:digest_settable_ctx_params"]}
{"id": "C88", "title": "Key exchange through the OpenSSL provider gives both sides the same secret, as a new key with all rights", "statement": "EVP_PKEY_derive with the provider stores the handle of a new key that is the shared secret of the private key and of the peer set last, agreed on with Diffie-Hellman for DH keys and ECDH for keys on the NIST curves, Curve25519 and Curve448; two applications that gave each other their public keys have the same secret. The new key (as every key that the provider makes) may be used for everything, by every TA, at any time and with any outputs. Without a peer or room for the handle the call fails and makes no key.", "quantifier": "for all keys, all sequences of settings and copies of the context, everything SecApi may answer, all times, TAs and output states", "why_tests_cant": "tests derive once per curve with a fresh context; that the last key and peer are used in every sequence and that the rights allow everything at every time cannot be sampled", "anchors": ["reference/src/client/src/sa_provider_keyexch.c:keyexch_init", "reference/src/client/src/sa_provider_keyexch.c:keyexch_set_peer", "reference/src/client/src/sa_provider_keyexch.c:keyexch_dupctx", "reference/src/client/src/sa_provider_keyexch.c:keyexch_derive", "reference/src/util/src/sa_rights.c:sa_rights_set_allow_all", "reference/src/taimpl/src/internal/rights.c:rights_allowed_uuid"]}
{"id": "C89", "title": "sa_get_provider gives all threads the same loaded provider and never blocks them for ever", "statement": "However many threads call sa_get_provider, at the same time or again, they all get the same library context or NULL, and at most one context is made; a context that is returned has the provider and the base provider loaded; every call returns.", "quantifier": "for any number of threads, any interleaving, any number of calls, any pattern of failing calls", "why_tests_cant": "unit tests run one schedule at a time and cannot make loading fail; deadlock freedom is a statement about all schedules", "anchors": ["reference/src/client/src/sa_provider.c:sa_get_provider", "reference/src/client/src/sa_provider.c:sa_provider_load"]}
{"id": "C90", "title": "sa_get_engine gives all threads the same engine, keeps it while it is used and never blocks them for ever", "statement": "However many threads call sa_get_engine and sa_engine_free, at the same time or again, they all get the same engine or NULL; an engine that is given out and not given back stays; each reference is counted once; every call returns; the engine's tables of methods stay while the engine is there.", "quantifier": "for any number of threads, any interleaving, any number of calls, any pattern of failing calls, both for OpenSSL 1.1 and earlier", "why_tests_cant": "unit tests run one thread and cannot make calls of OpenSSL fail; deadlock freedom and lifetimes are statements about all schedules", "anchors": ["reference/src/client/src/sa_engine.c:sa_get_engine", "reference/src/client/src/sa_engine.c:sa_engine_free", "reference/src/client/src/sa_engine_pkey_asn1_method.c:sa_get_engine_pkey_asn1_meths", "reference/src/client/src/sa_engine_pkey.c:sa_get_engine_pkey_methods"]}
{"id": "C91", "title": "MACs through the OpenSSL engine are those asked for, of the bytes given to each context", "statement": "An application that makes, initialises, feeds, finishes, copies and frees EVP_DigestSign contexts with symmetric keys of the engine in any order gets from each context the MAC it asked for (CMAC without a digest, HMAC with one; an error for a digest that SecApi does not have) with the key of the context, of exactly the bytes given to it since it was initialised, whatever happens with other contexts; a context can be asked again and fed further; a copy goes its own way. Each context that is initialised holds one MAC of SecApi, and nothing else does.", "quantifier": "for every sequence of operations on any number of contexts, every way of cutting the data, every choice of handles, every pattern of failing allocations", "why_tests_cant": "tests compute one MAC at a time in a new context; what contexts do to each other depends on the order of all operations", "anchors": ["reference/src/client/src/sa_engine_pkey.c:pkey_init", "reference/src/client/src/sa_engine_pkey.c:pkey_copy", "reference/src/client/src/sa_engine_pkey.c:pkey_cleanup", "reference/src/client/src/sa_engine_pkey.c:pkey_mac_init", "reference/src/client/src/sa_engine_pkey.c:pkey_mac_update", "reference/src/client/src/sa_engine_pkey.c:pkey_signctx_init", "reference/src/client/src/sa_engine_pkey.c:pkey_signctx", "reference/src/client/src/sa_engine_pkey.c:pkey_ctrl"]}
{"id": "C92", "title": "Signatures through the OpenSSL engine are those asked for, fit the buffer and verify", "statement": "An application that signs with RSA, EC or Ed keys of the engine gets from each context the signature with the padding, digest, MGF1 digest and salt length that it asked for last on that context or, before it was copied, on the original, whatever happened to other contexts; it is in the encoding of OpenSSL; a digest or padding that SecApi does not have is refused; nothing is written behind the end of the buffer; the engine accepts when verifying what it has signed with the same context.", "quantifier": "for every sequence of operations on any number of contexts, all keys, messages, cuts of messages and buffer sizes", "why_tests_cant": "tests sign with a few settings in a new context with a large buffer; defaults, copies and short buffers are combinations of histories and sizes", "anchors": ["reference/src/client/src/sa_engine_pkey.c:pkey_init", "reference/src/client/src/sa_engine_pkey.c:pkey_copy", "reference/src/client/src/sa_engine_pkey.c:pkey_cleanup", "reference/src/client/src/sa_engine_pkey.c:pkey_sign", "reference/src/client/src/sa_engine_pkey.c:pkey_verify", "reference/src/client/src/sa_engine_pkey.c:pkey_digestsign", "reference/src/client/src/sa_engine_pkey.c:pkey_ctrl", "reference/src/client/src/sa_public_key.c:ec_encode_signature"]}
{"id": "C93", "title": "RSA encryption through the OpenSSL engine uses what was asked for, can be undone and leaves nothing behind", "statement": "What an application encrypts and decrypts with an RSA key of the engine is encrypted and decrypted with the padding, digests and label that it asked for last on the context or, before it was copied, on the original; what was encrypted with one context can be decrypted with any context asked for the same; when all contexts are freed the engine keeps no memory and SecApi no cipher contexts for them.", "quantifier": "for every sequence of operations on any number of contexts, all keys, messages and buffer sizes", "why_tests_cant": "tests encrypt and decrypt with the same new context for a few settings, and see no leaks", "anchors": ["reference/src/client/src/sa_engine_pkey.c:pkey_init", "reference/src/client/src/sa_engine_pkey.c:pkey_copy", "reference/src/client/src/sa_engine_pkey.c:pkey_cleanup", "reference/src/client/src/sa_engine_pkey.c:pkey_encrypt", "reference/src/client/src/sa_engine_pkey.c:pkey_decrypt", "reference/src/client/src/sa_engine_pkey.c:pkey_ctrl"]}
{"id": "C94", "title": "A key loaded with the OpenSSL engine is the key asked for, and NULL stands for failure", "statement": "The key that ENGINE_load_private_key gives for a handle has the public part of the key with that handle, its operations use that handle, and it stays so until it is freed, whatever is done with other keys; if loading fails NULL is given; when all keys are freed no memory and no reference to the engine is held.", "quantifier": "for every sequence of loading, using and freeing keys, all key types, any behaviour of SecApi and any pattern of failing calls", "why_tests_cant": "tests load keys when nothing fails and do not see leaks; half-made keys appear only when calls inside fail", "anchors": ["reference/src/client/src/sa_engine_pkey.c:sa_load_engine_private_pkey", "reference/src/client/src/sa_engine_pkey_data.c:sa_set_pkey_data", "reference/src/client/src/sa_engine_pkey_data.c:sa_get_pkey_data", "reference/src/client/src/sa_engine_pkey_asn1_method.c:pkey_asn1_set_priv_key", "reference/src/client/src/sa_engine_pkey_asn1_method.c:pkey_asn1_free", "reference/src/client/src/sa_public_key.c:sa_get_public_key"]}
{"id": "C95", "title": "Shared secrets derived through the OpenSSL engine are those of the key loaded and the peer", "statement": "An application that derives with a key loaded by the engine gets the handle of just the key that SecApi exchanges for the loaded handle and the peer's public key, by the method for the type of key; a missing peer, or one of another type or with other parameters, is refused without asking SecApi; nothing is written behind the buffer; no call follows NULL.", "quantifier": "for all keys, peers, buffer sizes, any behaviour of SecApi and any operations between loading and deriving", "why_tests_cant": "tests derive with matching keys and large buffers", "anchors": ["reference/src/client/src/sa_engine_pkey.c:pkey_pderive_init", "reference/src/client/src/sa_engine_pkey.c:pkey_pderive", "reference/src/client/src/sa_engine_pkey.c:pkey_ctrl", "reference/src/client/src/sa_engine_pkey.c:sa_get_engine_pkey_methods", "reference/src/client/src/sa_engine_pkey_data.c:sa_get_pkey_data"]}
{"id": "C96", "title": "What is derived from the root keys is derived from the keys in the key store", "statement": "Keys of the root key ladder are derived from the device's key in the key store, those of the common root key ladder from the key called commonroot, however often and in whatever order they are asked for; once loaded the keys stay; requests are refused if the key is not there.", "quantifier": "for all key stores (safes, bags, names, keys), all sequences of requests and any changes of the file between them, any contents of the buffers", "why_tests_cant": "the tests use one key store with two keys in one order, both 16 bytes long", "anchors": ["reference/src/util/src/pkcs12.c:load_pkcs12_secret_key", "reference/src/util/src/pkcs12.c:parse_pkcs12_safe_bag", "reference/src/taimpl/src/porting/otp.c:get_root_key", "reference/src/taimpl/src/porting/otp.c:get_common_root_key", "reference/src/taimpl/src/porting/otp.c:otp_hw_key_ladder"]}
{"id": "C97", "title": "The device ID is the number in the name of the device's key, and stays so", "statement": "sa_get_device_id gives the number that the name of the device's key writes in hexadecimal digits; devices with different names have different IDs; the ID does not change and belongs to the key from which is derived.", "quantifier": "for all names, all sequences of requests and any changes of the key store between them", "why_tests_cant": "the tests only compare with the one ID of the test key store", "anchors": ["reference/src/taimpl/src/porting/otp.c:otp_device_id", "reference/src/taimpl/src/porting/otp.c:convert_str_to_int", "reference/src/taimpl/src/porting/otp.c:get_root_key", "reference/src/taimpl/src/ta_sa_get_device_id.c:ta_sa_get_device_id"]}
{"id": "C98", "title": "The octets taken out of a secret bag are those of its secret value", "statement": "For every secret bag the octets that are decrypted are those of the octet string that is its value; a bag with another value is refused; nothing outside the bag is read.", "quantifier": "for all DER encodings of secret bags: any lengths and forms of lengths, any object identifiers, any attributes", "why_tests_cant": "the tests parse one bag", "anchors": ["reference/src/util/src/pkcs12.c:find_asn1_item_length", "reference/src/util/src/pkcs12.c:parse_pkcs12_safe_bag"]}
{"id": "C99", "title": "Provisioning keeps no key in SecApi and is OK only if every key is genuine", "statement": "After sa_key_provision_ta the same keys with the same handles and owners are there as before, whatever was provisioned and whatever failed; it returns OK only if each key container of the object is genuine; incomplete objects and kinds that are not supported are refused with their statuses; one free handle is enough.", "quantifier": "for all objects, containers, parameters, stores and callers, and any failures of memory, session or cryptography", "why_tests_cant": "the tests provision one good object of each kind and do not look at the other keys or at what is left", "anchors": ["reference/src/clientimpl/src/sa_key_provision.c:sa_key_provision_ta", "reference/src/clientimpl/src/porting/sa_key_provision_impl.c:sa_key_provision_preprocessing", "reference/src/taimpl/src/internal/ta.c:ta_invoke_key_provision", "reference/src/taimpl/src/ta_sa_key_import.c:ta_sa_key_provision", "reference/src/client/include/sa_key.h:sa_key_provision_ta"]}
{"id": "C100", "title": "Random data is random throughout and is given once", "statement": "When sa_crypto_random returns OK every byte of the buffer comes from the random number generator; so do generated symmetric keys, of the length asked for, and what keys are wrapped with in the store; no output of the generator is used twice; with an error the buffer is as it was.", "quantifier": "for all sequences of requests for random data, generated keys and stored keys, any lengths, any output and failures of the generator, any contents of memory, with and without shared memory", "why_tests_cant": "the tests ask for a few bytes and cannot tell random bytes from others", "anchors": ["reference/src/clientimpl/src/sa_crypto_random.c:sa_crypto_random", "reference/src/taimpl/src/ta_sa_crypto_random.c:ta_sa_crypto_random", "reference/src/taimpl/src/porting/rand.c:rand_bytes", "reference/src/taimpl/src/internal/symmetric.c:symmetric_generate_key", "reference/src/taimpl/src/internal/key_store.c:wrapped_key_create"]}
{"id": "C101", "title": "Two sides that exchange public keys get the same secret", "statement": "If two sides each generate a key pair for the same Diffie-Hellman parameters or for the same curve with sa_key_generate, get its public key with sa_key_get_public and call sa_key_exchange (DH or ECDH) with the public key that the other side got, and all these calls succeed, then the keys made by the two exchanges have the same contents. For Diffie-Hellman with p and g it is g^(xy) mod p as a big-endian number in exactly as many bytes as p has; for a curve it is the secret of the point xyG. The same holds for the Netflix exchange over Diffie-Hellman: two sides that hold the same wrapping key get the same encryption key, the same HMAC key and the same new wrapping key. An exchange with a public key of another group, another curve or another kind never succeeds. This holds whatever else the two sides do with their keys before, between and after, except releasing the handles.", "quantifier": "for all parameters p and g and curves, all private numbers, all devices, all contents of the key tables, all rights, all histories of other calls between the steps, and all failures of OpenSSL", "why_tests_cant": "A test runs a few exchanges with a few groups; secrets with leading zero bytes, whose length is what goes wrong in practice, occur once in 256 runs, and the interleaving with other calls is unbounded.", "anchors": ["reference/src/taimpl/src/internal/dh.c: dh_compute_shared_secret, dh_generate_key, dh_get_public", "reference/src/taimpl/src/internal/ec.c: ec_compute_ecdh_shared_secret, ec_generate_key, ec_get_public, ec_get_type", "reference/src/taimpl/src/ta_sa_key_exchange.c: ta_sa_key_exchange_dh, ta_sa_key_exchange_ecdh", "reference/src/taimpl/src/ta_sa_key_generate.c", "reference/src/taimpl/src/ta_sa_key_get_public.c"]}
{"id": "C102", "title": "Signatures verify with the public key of the key that made them", "statement": "If sa_crypto_sign succeeds with a buffer, then everybody who has the public key that sa_key_get_public gives for the same handle, before or after, finds that what is in the buffer is a signature of the message with the algorithm, digest, MGF1 digest and salt length that were asked for (ECDSA: two numbers of equal length, most significant byte first). If the caller says that it gives a digest, it has the length of the digest, and the signature is one of every message with this digest. This holds whatever else is done with the key table in between, except releasing the handle. Conversely, a caller that may sign with a key which fits the algorithm, with documented parameters and a buffer of the documented length, gets a signature.", "quantifier": "for all keys, algorithms, parameters, messages and buffers, all contents of the key table, all histories of other calls between the two calls in either order, and all random numbers used in signing", "why_tests_cant": "A test signs a few messages with a few parameters and checks them; that the settings of OpenSSL are those asked for has to hold for all combinations of digests, salt lengths and precomputed digests, and whatever is done in between.", "anchors": ["reference/src/taimpl/src/ta_sa_crypto_sign.c: ta_sa_crypto_sign", "reference/src/taimpl/src/internal/rsa.c: rsa_sign_pkcs1v15, rsa_sign_pss, rsa_get_public", "reference/src/taimpl/src/internal/ec.c: ec_sign_ecdsa, ec_sign_eddsa, ec_get_public", "reference/src/taimpl/src/ta_sa_key_get_public.c: ta_sa_key_get_public", "reference/src/client/include/sa_crypto.h: sa_crypto_sign"]}
{"id": "C103", "title": "What is encrypted with the public key of a handle is what the handle gives", "statement": "Somebody gets the public key that sa_key_get_public tells for a handle and encrypts with it: by RSA with PKCS#1 or with OAEP with any digest, MGF1 digest and label, or by ElGamal on the curve of the key (which is the one that the header tells). sa_key_unwrap with the handle either fails and changes nothing or makes one new key with exactly the bytes that were encrypted (ElGamal: the part of the first coordinate that was asked for), restricted to the rights of the unwrapping key; sa_crypto_cipher_process with a context for decryption that was made with the handle writes exactly what was encrypted or reports a failure. This holds whatever is done between getting the public key and the use, except releasing the handle or the context. A well-formed wrapped key is accepted.", "quantifier": "for all histories of the key table and of the cipher contexts, all handles, callers, keys, messages, random numbers of the sender, parameters, buffers and states of memory, and all implementations of RSA and of the curves for which decryption undoes encryption and the group laws hold", "why_tests_cant": "The sender is outside of the device and encrypts with random numbers; tests decrypt a few fixed messages right after the key is imported and do not cover other calls in between, contexts that outlive their key, or all combinations of digest, MGF1 digest and label.", "anchors": ["reference/src/taimpl/src/ta_sa_key_unwrap.c: ta_sa_key_unwrap, ta_sa_key_unwrap_rsa, ta_sa_key_unwrap_ec", "reference/src/taimpl/src/ta_sa_crypto_cipher_init.c: ta_sa_crypto_cipher_init_rsa_pkcs1v15, ta_sa_crypto_cipher_init_rsa_oaep, ta_sa_crypto_cipher_init_ec_elgamal", "reference/src/taimpl/src/ta_sa_crypto_cipher_process.c: ta_sa_crypto_cipher_process", "reference/src/taimpl/src/ta_sa_key_get_public.c: ta_sa_key_get_public", "reference/src/taimpl/src/internal/rsa.c: rsa_decrypt_pkcs1v15, rsa_decrypt_oaep, rsa_get_public", "reference/src/taimpl/src/internal/ec.c: ec_decrypt_elgamal, ec_get_public"]}
{"id": "C104", "title": "What a TA is told does not depend on what others do in their sessions", "statement": "A caller of the library (the application or another TA, told apart by UUID) gets the same status codes, handles, headers, exported keys, public keys, digests, signatures, MACs and bytes of cipher output whatever other callers do in their sessions: which keys they generate, import, derive, agree, unwrap or release, which cipher, MAC and SVP contexts they use, and how often. All that can be noticed of others is how many sessions are open. A call in a session is served if and only if the caller was given that session and has not closed it; otherwise it is refused and changes nothing.", "quantifier": "for all histories of opened, used and closed sessions of any callers, all calls with all parameters and all outside conditions, and all implementations of the cryptographic primitives", "why_tests_cant": "This compares two executions that differ in what somebody else did, for all pairs of histories; tests look at one execution with one caller, mostly.", "anchors": ["reference/src/taimpl/src/ta.c: ta_open_session_handler, ta_close_session_handler, ta_invoke_command_handler", "reference/src/taimpl/src/ta_sa_init.c: ta_sa_init", "reference/src/taimpl/src/ta_sa_close.c: ta_sa_close", "reference/src/taimpl/src/internal/client_store.c: client_init, client_free, client_store_add, client_store_remove, client_store_acquire, client_store_release", "reference/src/taimpl/src/internal/object_store.c: object_store_add, object_store_acquire, object_store_remove"]}
{"id": "C105", "title": "A key handle denotes one key, from the call that gives it until it is released", "statement": "Callers can keep a book: a handle becomes a key of a session when a call in that session made a key and told its handle, and stops to be one when its release or the closing of the session succeeded. The book is right after any history: exactly the handles in it denote keys, for the holder of the session only; a handle given is never one already in it; a handle in it goes on to denote the same key, with the same header, rights and bytes, whatever other keys are made, released, agreed or provisioned and whatever others do. Every request of such a history is answered: no undefined behaviour, and neither closing a session nor any call on keys waits for ever.", "quantifier": "for all histories of sessions of any callers with all calls on keys, cipher contexts, MAC contexts and SVP buffers, all parameters and outside conditions that meet the conditions named, and all implementations of the cryptographic primitives with the laws named", "why_tests_cant": "It quantifies over histories of any length that mix fourteen ways to make keys with releases and sessions of several callers; tests make a key, use it, release it.", "anchors": ["reference/src/taimpl/src/internal/object_store.c: object_store_add, object_store_acquire, object_store_release, object_store_remove", "reference/src/taimpl/src/internal/key_store.c: key_store_import_stored_key, key_store_unwrap, key_store_get_header, key_store_remove", "reference/src/taimpl/src/internal/client_store.c: client_init, client_store_add, client_store_remove, client_store_acquire", "reference/src/taimpl/src/ta_sa_key_generate.c", "reference/src/taimpl/src/ta_sa_key_import.c", "reference/src/taimpl/src/ta_sa_key_unwrap.c", "reference/src/taimpl/src/ta_sa_key_derive.c", "reference/src/taimpl/src/ta_sa_key_exchange.c", "reference/src/taimpl/src/ta_sa_key_release.c", "reference/src/taimpl/src/ta_sa_key_provision.c"]}
{"id": "C106", "title": "A MAC is that of the key the handle denoted when the context was made, and of exactly the data processed since", "statement": "After any history of the TA, with any number of sessions and callers, a computation of a MAC that succeeds gives the MAC, of the kind asked for, under the bytes of the key that the handle denoted when the context was made, of the concatenation, in order, of the data and the keys processed successfully in this context since. The context was made by the same caller in the same session with a key that allowed to sign at that time. Nothing else that was done in between, by anyone, matters: not the release of the key, not a new key with the same handle, not calls on other contexts, not failed calls. History alone determines kind, key and string.", "quantifier": "for all histories of sessions of any callers with all calls on keys, cipher contexts, MAC contexts and SVP buffers, all contexts, keys and data, and all MAC libraries with the laws named", "why_tests_cant": "It quantifies over histories of any length that mix calls of several sessions, contexts and keys whose handles are used again; tests run one context from beginning to end.", "anchors": ["reference/src/taimpl/src/ta_sa_crypto_mac_init.c", "reference/src/taimpl/src/ta_sa_crypto_mac_process.c", "reference/src/taimpl/src/ta_sa_crypto_mac_process_key.c", "reference/src/taimpl/src/ta_sa_crypto_mac_compute.c", "reference/src/taimpl/src/ta_sa_crypto_mac_release.c", "reference/src/taimpl/src/internal/mac_store.c", "reference/src/taimpl/src/internal/hmac_context.c", "reference/src/taimpl/src/internal/cmac_context.c", "reference/src/taimpl/src/internal/key_store.c: key_store_unwrap", "reference/src/taimpl/src/internal/client_store.c"]}
{"id": "C107", "title": "Data is encrypted or decrypted with the key the handle denoted when the context was made, after exactly the data processed before, and written only where the caller and the key allow", "statement": "After any history of the TA, with any number of sessions and callers, a call that processes data in a cipher context: if it fails, the offsets of the caller's buffers are unchanged. It writes nothing, or writes within the output buffer given (memory of the caller or an SVP buffer of the session), and to unprotected memory only if the input is unprotected, too, and the key's rights say that protection is optional. If it succeeds, the key allows the operation now, and what is written is what the library gives for the input in the state reached by the data and IVs that were processed successfully in this context before, in order, or the decryption with the private key; with the key that the handle denoted when this caller made the context, the direction and the parameters given then. The history alone determines key, direction, parameters and, if no call on the context failed, the state.", "quantifier": "for all histories of sessions of any callers with all calls on keys, cipher contexts, MAC contexts and SVP buffers, all contexts, keys, buffers and data, and all cipher libraries with the laws named", "why_tests_cant": "It quantifies over histories of any length that mix calls of several sessions, contexts, buffers and keys whose handles are used again; tests run one context from beginning to end.", "anchors": ["reference/src/taimpl/src/ta_sa_crypto_cipher_init.c", "reference/src/taimpl/src/ta_sa_crypto_cipher_process.c", "reference/src/taimpl/src/ta_sa_crypto_cipher_process_last.c", "reference/src/taimpl/src/ta_sa_crypto_cipher_update_iv.c", "reference/src/taimpl/src/ta_sa_crypto_cipher_release.c", "reference/src/taimpl/src/internal/cipher_store.c", "reference/src/taimpl/src/internal/symmetric.c", "reference/src/taimpl/src/internal/buffer.c: convert_buffer", "reference/src/taimpl/src/internal/key_store.c: key_store_unwrap", "reference/src/taimpl/src/internal/client_store.c"]}
{"id": "C108", "title": "An SVP handle denotes the region with which it was made, for the session that made it, until it is released; nothing is read or written outside of it", "statement": "After any history of the TA, with any number of sessions and callers, the requests and what was told determine which SVP handles of a session are in use and which region of memory each denotes. A new buffer gets a handle that was not in use. A release by the holder returns, never waits, and hands back exactly the region with which the buffer was made; any other release fails and hands back nothing. Writing to, copying between and checking buffers succeed exactly if the handles are in use by this caller in this session and all segments or ranges lie within those regions (and the hash is right); all copies stay within them, and calls that fail copy nothing. The data of cipher contexts are read from and written to the places that the history names.", "quantifier": "for all histories of sessions of any callers with all calls on keys, cipher contexts, MAC contexts and SVP buffers, all regions, segments, offsets, sizes, hashes and memory contents", "why_tests_cant": "It quantifies over histories of any length that mix calls of several sessions and handles that are used again, and over all 64-bit addresses, offsets and sizes; tests use one or two buffers that they have just made.", "anchors": ["reference/src/taimpl/src/ta_sa_svp_buffer_create.c", "reference/src/taimpl/src/ta_sa_svp_buffer_release.c", "reference/src/taimpl/src/ta_sa_svp_buffer_write.c", "reference/src/taimpl/src/ta_sa_svp_buffer_copy.c", "reference/src/taimpl/src/ta_sa_svp_buffer_check.c", "reference/src/taimpl/src/internal/svp_store.c", "reference/src/taimpl/src/porting/svp.c", "reference/src/taimpl/src/internal/buffer.c: convert_buffer", "reference/src/taimpl/src/internal/client_store.c"]}
{"id": "C109", "title": "Samples in common encryption are decrypted with the key which the handle denoted when their context was made, or not at all", "statement": "After any history of the TA, with any number of sessions and callers: if a call to process samples in common encryption changes anything (memory or the offsets of buffers) or succeeds, then the context of every sample is one that this caller made in this session, for decryption in CTR or CBC mode, the rights of the key which the handle denoted then allow decryption now, clear output is made only of clear input and only if the key allows it, and the ranges of every sample lie within the caller's buffers and are apart. The call then succeeds, and memory is what results from decrypting one sample after the other with that key and the IV of the sample - clear bytes copied, the pattern followed - whatever the contexts have been used for before; the offsets advance by the sizes of the samples.", "quantifier": "for all histories of sessions of any callers with all calls on keys, cipher contexts, MAC contexts, SVP buffers and samples, all lists of samples, subsamples, patterns, IVs, buffers and memory contents", "why_tests_cant": "It quantifies over histories of any length in which contexts are made, used for other data, released and their handles used again by several sessions, and over all lists of samples; tests decrypt a few samples with a context that was just made.", "anchors": ["reference/src/taimpl/src/ta_sa_process_common_encryption.c", "reference/src/taimpl/src/internal/cenc.c", "reference/src/taimpl/src/internal/cipher_store.c", "reference/src/taimpl/src/internal/symmetric.c: symmetric_context_decrypt, symmetric_context_set_iv", "reference/src/taimpl/src/internal/buffer.c: convert_buffer", "reference/src/taimpl/src/internal/client_store.c"]}
{"id": "C110", "title": "No chain of keys made from a key gains an output that the key does not allow", "statement": "After any history of the TA, with any number of sessions and callers: a key that comes from another through any number of derivations, unwrappings, key exchanges, exports and imports - whatever rights were asked for on the way - may be output nowhere where the first may not. In particular, if the first requires protected memory, then data processed with any key of the chain, be it as a stream or as samples in common encryption, is written to the caller's SVP buffers only.", "quantifier": "for all histories of sessions of any callers with all calls on keys, cipher contexts, MAC contexts, SVP buffers and samples, all chains of keys in them, of any length, and all rights asked for", "why_tests_cant": "It quantifies over chains of any length of keys made from one another in several sessions; tests make one child of one parent.", "anchors": ["reference/src/taimpl/src/internal/unwrap.c", "reference/src/taimpl/src/internal/kdf.c", "reference/src/taimpl/src/internal/dh.c", "reference/src/taimpl/src/internal/ec.c", "reference/src/taimpl/src/internal/netflix.c", "reference/src/taimpl/src/internal/typej.c", "reference/src/taimpl/src/internal/stored_key.c: restrict_child_rights, stored_key_create", "reference/src/taimpl/src/ta_sa_key_export.c", "reference/src/taimpl/src/ta_sa_key_import.c", "reference/src/taimpl/src/internal/client_store.c"]}
{"id": "C111", "title": "Applications are told the name, the version and their UUID, and nothing else is written", "statement": "Asked without a buffer, sa_get_name tells the number of bytes which the name of the implementation takes. With a buffer that is too short it fails and writes nothing; with any buffer that is long enough it stores the name and its terminating zero at the beginning, sets the length to that of the name, and leaves the rest of the buffer alone. sa_get_version gives the version of the implementation and sa_get_ta_uuid the UUID under which the caller is known. All this through the client library, with or without shared memory.", "quantifier": "for all names, versions, UUIDs, lengths of buffers below 2^64, contents of the application's buffers and variables, both builds of the client library and all contents of padding", "why_tests_cant": "It quantifies over all lengths and contents of buffers and over both builds; the tests use a buffer of the length told, in one build.", "anchors": ["reference/src/taimpl/src/ta_sa_get_name.c: ta_sa_get_name", "reference/src/taimpl/src/ta_sa_get_version.c: ta_sa_get_version", "reference/src/taimpl/src/ta_sa_get_ta_uuid.c: ta_sa_get_ta_uuid", "reference/src/taimpl/src/internal/saimpl.c: get_implementation_name, get_implementation_version", "reference/src/taimpl/src/internal/ta.c: ta_invoke_get_name", "reference/src/clientimpl/src/sa_get_name.c: sa_get_name", "reference/src/clientimpl/src/porting/ta_client.h: COPY_OUT_PARAM"]}
{"id": "C112", "title": "Whatever was done before, a call that uses a key and succeeds is one that the key allows to this caller now", "statement": "After any history of calls by any applications in any sessions: if a call that uses a key - to unwrap, derive, exchange, sign, encrypt, decrypt, make a MAC, import a TypeJ container, check a key, hash it, put it into a MAC or get its public part - succeeds, then every handle it uses denotes a key of the caller's own session, the caller is on the list of applications of that key, the time lies in its period, the video outputs are those it allows, and it has the usage flag for the operation. A call for which this does not hold returns and does not succeed. A key that is exported has the flag that allows it.", "quantifier": "for all histories of calls, sessions, callers, keys, rights, times, output states, parameters and behaviours of the cryptographic library", "why_tests_cant": "It quantifies over all histories and all calls, including handles that were released and given out again in between; the tests try one missing right at a time on a key just made.", "anchors": ["reference/src/taimpl/src/internal/key_store.c: key_store_unwrap, key_store_export", "reference/src/taimpl/src/internal/rights.c: rights_allowed_uuid, rights_allowed_time, rights_allowed_video_output_state, rights_allowed_derive, rights_allowed_exchange, rights_allowed_unwrap, rights_allowed_encrypt, rights_allowed_decrypt, rights_allowed_sign", "reference/src/taimpl/src/ta_sa_key_unwrap.c: ta_sa_key_unwrap", "reference/src/taimpl/src/ta_sa_key_derive.c: ta_sa_key_derive", "reference/src/taimpl/src/ta_sa_key_exchange.c: ta_sa_key_exchange", "reference/src/taimpl/src/ta_sa_key_import.c: ta_sa_key_import", "reference/src/taimpl/src/ta_sa_crypto_sign.c: ta_sa_crypto_sign", "reference/src/taimpl/src/ta_sa_crypto_cipher_init.c: ta_sa_crypto_cipher_init", "reference/src/taimpl/src/ta_sa_crypto_mac_init.c: ta_sa_crypto_mac_init", "reference/src/taimpl/src/ta_sa_crypto_mac_process_key.c: ta_sa_crypto_mac_process_key", "reference/src/taimpl/src/ta_sa_key_get_public.c: ta_sa_key_get_public", "reference/src/taimpl/src/ta_sa_key_digest.c: ta_sa_key_digest", "reference/src/taimpl/src/ta_sa_svp_key_check.c: ta_sa_svp_key_check"]}
{"id": "C113", "title": "Threads that look up digests in the engine are given the digest asked for, and nothing is lost", "statement": "However many threads look up digests through the OpenSSL engine, in whatever order their steps come and whether or not memory runs out: each is given the digest whose number it asked for, with the size of state that the engine sets, or is told that there is none exactly if the number is not listed; a digest that was given stays valid until the engine is shut down; a lookup always ends; no NULL pointer is used; and when the engine is shut down all digests it made are freed.", "quantifier": "for all numbers of threads, all interleavings of their steps, all sequences of lookups, all numbers asked for and all failures of allocation", "why_tests_cant": "It quantifies over all interleavings; the races are windows of a few instructions and occur only at the first lookup of each digest in a process, and the tests look digests up from one thread with memory to spare.", "anchors": ["reference/src/client/src/sa_engine_digest.c: sa_get_engine_digests, sa_free_engine_digests", "reference/src/client/src/sa_engine.c: sa_engine_shutdown"]}
{"id": "C114", "title": "A key that is kept, or exported and imported again any number of times, is one key for everybody who sees it", "statement": "Over every history of requests from any number of callers in any number of sessions: all handles that come from one handle - the handle itself as long as it is not released, and those that are given when its export is imported, by whomever, whenever, in whatever session, also from exports of imports and after the first handle is gone - denote the same key: the same bytes, type and rights, and the same header is told for all of them. So the public key that is told for one of them verifies the signatures that are made with any other.", "quantifier": "for all histories of requests (all calls, callers, sessions and arguments), all chains of keeping, exporting and importing, all device keys, all messages and parameters of signatures and all failures of allocation and of the cryptographic library", "why_tests_cant": "Tests export a key and import it once, in one session with nothing in between, and compare the header; they cannot cover all chains of exports and imports between sessions, with arbitrary calls by others in between, nor keys that the one who passes them on may not use.", "anchors": ["reference/src/taimpl/src/ta_sa_key_export.c: ta_sa_key_export", "reference/src/taimpl/src/ta_sa_key_import.c: ta_sa_key_import_exported", "reference/src/taimpl/src/internal/key_store.c: key_store_export, key_store_import_exported", "reference/src/taimpl/src/ta_sa_key_get_public.c: ta_sa_key_get_public", "reference/src/taimpl/src/ta_sa_crypto_sign.c: ta_sa_crypto_sign", "reference/src/taimpl/src/internal/client_store.c: client_store_acquire"]}
{"id": "C115", "title": "A key that somebody encrypts for a handle arrives unchanged, wherever copies of the handle's key are", "statement": "Over every history of requests from any number of callers in any number of sessions: if somebody takes the public key that is told for a handle, encrypts a key with it (RSA with PKCS#1 or OAEP, or ElGamal on a curve), and this is unwrapped with the handle or with any copy of its key (kept, or exported and imported, in any session), before or after the public key was told, then either no handle is given, or the new handle and all its copies denote exactly the key that was encrypted, with the type asked for and with the rights asked for as restricted by the rights of the unwrapping key.", "quantifier": "for all histories of requests, all chains of copies of the unwrapping key and of the new key, all keys and public keys, all paddings, digests, labels, offsets and lengths, and all failures outside", "why_tests_cant": "Tests unwrap in the session in which the public key was got, directly afterwards; they cannot cover all chains of copies in between, all keys, and all rights.", "anchors": ["reference/src/taimpl/src/ta_sa_key_unwrap.c: ta_sa_key_unwrap, ta_sa_key_unwrap_rsa, ta_sa_key_unwrap_ec", "reference/src/taimpl/src/ta_sa_key_get_public.c: ta_sa_key_get_public", "reference/src/taimpl/src/internal/unwrap.c: unwrap_rsa, unwrap_ec", "reference/src/taimpl/src/internal/key_store.c: key_store_export, key_store_import_exported, key_store_unwrap", "reference/src/taimpl/src/internal/client_store.c: client_store_acquire"]}
{"id": "C116", "title": "What is encrypted in pieces with a key is decrypted, in any other pieces, with any copy of the key", "statement": "Over every history of requests from any number of callers in any number of sessions: data is processed in pieces in a context for encryption made with a handle; what came out, or a part of it from its beginning, is processed in any other pieces in a context for decryption made with the same parameters and with the same handle or any copy of its key (kept, or exported and imported, in any session, by anybody). If all these calls succeed, then what comes out of the decryption is the data that went into the encryption, from its beginning, of the length processed - whatever else was asked of the TA in between, in other contexts, by anyone.", "quantifier": "for all histories of requests, all chains of copies, all keys, algorithms without padding, parameters, pieces of data and their places in memory or SVP buffers", "why_tests_cant": "Tests decrypt what they encrypted in one session, in one order, with one or two ways of cutting the data; they cannot cover all interleavings with other contexts, all chains of copies of the key and all ways of cutting.", "anchors": ["reference/src/taimpl/src/ta_sa_crypto_cipher_init.c: ta_sa_crypto_cipher_init", "reference/src/taimpl/src/ta_sa_crypto_cipher_process.c: ta_sa_crypto_cipher_process", "reference/src/taimpl/src/internal/symmetric.c: symmetric_context_encrypt, symmetric_context_decrypt", "reference/src/taimpl/src/internal/cipher_store.c: cipher_store_acquire_exclusive", "reference/src/taimpl/src/internal/key_store.c: key_store_export, key_store_import_exported, key_store_unwrap"]}
{"id": "C117", "title": "A MAC is the same with every copy of a key, however the message was cut", "statement": "Over every history of requests from any number of callers in any number of sessions: two MAC contexts for the same algorithm, made with two copies of one key (kept, or exported and imported, in any sessions, by anybody), give the same MAC if the messages processed in them are alike: the same data, cut into calls in whatever ways, and between it keys, processed by handle, that are again copies of the same keys - whatever else was asked of the TA in between, by anyone. So a MAC that one session made can be checked by any other that holds a copy of the key.", "quantifier": "for all histories of requests, all chains of copies of the MAC key and of the keys processed, all MAC algorithms, all messages and all ways of cutting them", "why_tests_cant": "Tests compute a MAC in one session and compare it with one computed by OpenSSL for a few messages in one cut; they cannot cover all interleavings, all cuts and all chains of copies.", "anchors": ["reference/src/taimpl/src/ta_sa_crypto_mac_init.c: ta_sa_crypto_mac_init", "reference/src/taimpl/src/ta_sa_crypto_mac_process.c: ta_sa_crypto_mac_process", "reference/src/taimpl/src/ta_sa_crypto_mac_process_key.c: ta_sa_crypto_mac_process_key", "reference/src/taimpl/src/ta_sa_crypto_mac_compute.c: ta_sa_crypto_mac_compute", "reference/src/taimpl/src/internal/key_store.c: key_store_export, key_store_import_exported, key_store_unwrap"]}
{"id": "C118", "title": "Keys derived in the same way from copies of a key are one key", "statement": "Over every history of requests from any number of callers in any number of sessions: if from two copies of one key (kept, or exported and imported, in any sessions, by anybody) keys are derived with the same algorithm (HKDF, the concatenation KDF, ANSI X9.63 or CMAC; or, from copies of two keys, Netflix derivation) and the same parameters, and both calls succeed, then the new keys have the same bytes, namely those the standard gives for the bytes of the key, of the length asked for. Their rights are those asked for, restricted by the rights of the key. If the same rights were asked for, every copy of the one and every copy of the other is the same key. So two sessions that share a key can derive session keys from it without exchanging them.", "quantifier": "for all histories of requests, all chains of copies of the keys and of the derived keys, all five algorithms and all parameters", "why_tests_cant": "Tests derive a key once in one session and compare a few results with OpenSSL; they cannot cover all interleavings, all chains of copies and all parameters.", "anchors": ["reference/src/taimpl/src/ta_sa_key_derive.c: ta_sa_key_derive", "reference/src/taimpl/src/internal/kdf.c: kdf_hkdf_hmac, kdf_concat_kdf, kdf_ansi_x963, kdf_cmac", "reference/src/taimpl/src/internal/key_store.c: key_store_import_stored_key, key_store_export, key_store_import_exported, key_store_unwrap", "reference/src/taimpl/src/internal/stored_key.c: stored_key_create"]}
