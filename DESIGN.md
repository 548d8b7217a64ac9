# Formal model of tasecureapi (reference TA implementation)

The code is `/repo/reference/src` (C).  The model is Lean 4, in `/verif/lean`.
Properties are listed in `properties.jsonl`; `MANIFEST.json` maps each to theorem names.

## Layout

* `Verif/Model/*.lean` - the model.  One Lean definition per C function (every definition cites file and lines).  `*Spec.lean` files
  in this directory are not part of the model: they are the independent definitions (standards, RFCs) that theorems compare with.
* `Verif/Lemmas/*.lean` - helper lemmas.
* `Verif/Props/Cnn.lean` - for property Cnn: a small independent spec, the theorems, and concrete `example`s that
  meet the hypotheses of each theorem.
* Theorems named `Cnn_..._partial` prove a part; theorems named `Cnn_violated...` (or `Cnn_..._violated`) prove with a
  concrete witness that the code as written does *not* have the full property.
* `seeded/LOG.jsonl` - wrong programs tried against the theorems.

## Modelling conventions

* C statuses are an inductive type with the numbering of `sa_types.h`.
* Bytes are `UInt8`, `List UInt8` is a memory region of known size.  Out-of-bounds accesses, NULL dereferences, double
  frees, uses after free, uses of unset values and signed overflows are modelled as *distinct outcomes* (an outer `none`, or an
  event of a trace), never totalised away.
* `size_t`/`uint64_t` arithmetic that can wrap is modelled with `UInt64`, or with `Nat` and explicit `% 2^64`.
* Cryptographic primitives (AES, SHA, HMAC, CMAC, RSA, EC), allocation success, time, video state, random bytes are
  parameters of the model (a structure of functions, or oracle inputs).  What is assumed of them appears as a hypothesis of the
  theorem (a `...Good` structure), never as an axiom.
* Concurrency: small-step transition systems, one step per mutex-protected region / atomic access, arbitrary number of
  threads; theorems are invariants over all reachable states.
* Container parsers (SoC, Type-J) are runs: a list of memory events and a result.  Whether the events are harmless is the subject
  of the theorems about them.

## Trusted base

* Lean 4.33.0 kernel; axioms used by theorems: at most `propext`, `Classical.choice`, `Quot.sound` (no `sorry`, no
  `native_decide`, no `bv_decide`, no added axioms).
* Faithfulness of the hand-written model to the C source (per-definition line citations; seeded-bug experiments in
  `seeded/LOG.jsonl`).

Assumptions on the outside world, each a hypothesis of the theorems that need it (and each shown satisfiable by a concrete toy
instance in an `example`):

| hypothesis | says | used for |
|---|---|---|
| `Prims.Good` | AES block decryption inverts encryption and keeps the block length; HMAC-SHA256 gives 32 bytes | C08, C13-C16, everything using the key store |
| `MacPrim.Good` | a MAC context computes the MAC of the bytes it was given; a failing update changes nothing | C27, C28 |
| `KdfPrims.Good` | lengths of hashes, HMACs and CMACs; HMAC with the one-byte zero key equals HMAC with the zero salt (zero padding of short keys) | C29-C31, C45, C46, C53 |
| `UnwrapPrims.Good` | lengths of decrypted texts, RSA/EC parse results have sane sizes | C32, C44, C48, C53, C54 |
| `AgreeEnv.Good` | a failing key agreement does not report OK; secrets shorter than 2^32 | C32, C45, C46 |
| `GenEnv.Good` | generated keys have the requested length; failures do not report OK | C52 |
| `CipherPrim.Good` | lengths output by `EVP_*Update/Final`, bytes held back; final call as in OpenSSL 3 (the difference in 1.1.1 is `C34_violated_twice`) | C34 |
| `CipherPrim.Inverse` | OpenSSL decryption inverts encryption chunk by chunk, and tags verify | C35 |
| `Evp.Algos.Good` | AES blocks have 16 bytes and decryption inverts encryption, tags have 16 bytes; with it `CipherPrim.Good` and `CipherPrim.Inverse` are proved for the EVP layer of `Model/Evp.lean` | C85 |
| `SignPrims`, `KeyFits` | RSA signatures have the size of the key, EdDSA signatures twice the curve's | C55 |
| strptime `Good` | `strptime` reads the canonical form and stops behind it; `timegm` is the POSIX formula | C47, C62 |
| `Kc.Env.Good` | base64 decoding gives at most three bytes for four characters | C43, C59-C61 |
| `TjEnv.Good` | decoded sizes fit the address space | C40, C61, C62 |
| `TaParam.WF` | the transport gives memory of the announced size | C37, C38, C58 |

Modelling decisions that are not hypotheses and have to be trusted: `mtx_lock` does not fail where it is not modelled as failing;
allocations inside the container parsers and the JSON callbacks succeed; lengths in containers are below 2^31; the layout of command
structures is that of LP64; the paths of `Model/Balance.lean` over-approximate the conditions of the code by an oracle; yajl calls the
callbacks in document order.

Modelled (functions and lines are cited at each definition): `slots.c`, `object_store.c`, `client_store.c`, `memory.c` (the helpers),
`rights.c`, `stored_key.c`, `key_type.c`, `key_store.c`, `otp.c` (key ladders, unwrapping, root keys and device ID), `rand.c` with `ta_sa_crypto_random.c`, `pkcs12.c`, `pad.c`, `overflow.c`/`buffer.c`, `svp.c`,
`svp_store.c`, `cenc.c`, `ta_sa_process_common_encryption.c`, `cmac_context.c`/`hmac_context.c`, `mac_store.c`, `ta_sa_crypto_mac_*.c`,
`kdf.c`, `netflix.c`, `ta_sa_key_derive.c`, `unwrap.c`, `ta_sa_key_unwrap.c`, `ta_sa_key_exchange.c`, `ta_sa_key_generate.c`,
`ta_sa_key_import.c`, `ta_sa_key_provision.c`, `cipher_store.c`, `symmetric.c` (the EVP layer of OpenSSL below it is assumed, see `Model/Evp.lean`), `ta_sa_crypto_cipher_*.c`, `ta_sa_crypto_sign.c` with the
signing functions of `rsa.c` and `ec.c`, OpenSSL's part of signing, decrypting, key agreement and public keys in `rsa.c`, `ec.c` and `dh.c` (settings of contexts, see `Model/Asym.lean` and `Model/Agree.lean`; its arithmetic is a parameter), `ta_sa_svp_key_check.c`, `ta_sa_svp_buffer_check.c`, `ta_sa_key_digest.c`,
`ta_sa_key_get_public.c`, the `sa_*.c` functions of the client library `clientimpl`, the ciphers, KDFs and MACs of the OpenSSL 3 provider in `client` (`sa_provider_cipher.c`, `sa_provider_kdf.c`, `sa_provider_mac.c`) its signatures (`sa_provider_signature.c`, `ec_encode_signature` of `sa_public_key.c`), digests, key exchange and loading (`sa_provider_digest.c`, `sa_provider_keyexch.c`, `sa_provider.c`), key generation and RSA encryption (`sa_provider_keymgt.c`, `sa_provider_asym_cipher.c`) and its handling of keys and of the contexts that use them (`sa_provider_keymgt.c`, and making, copying and freeing contexts in `sa_provider_signature.c`, `sa_provider_keyexch.c`, `sa_provider_asym_cipher.c`), the ciphers of the OpenSSL 1.1 engine (`sa_engine_cipher.c`; the EVP layer of OpenSSL 1.1.1 that calls them is assumed, see `Model/EngineCipher.lean`), its loading and freeing (`sa_engine.c`) its loading of keys (`sa_engine_pkey_data.c`) and its MACs, signatures, RSA encryption and key exchange (`sa_engine_pkey.c`), the dispatcher `ta.c`, `json.c`, `typej.c`, `soc_key_container.c`, and the lock and reference
behaviour of every `ta_sa_*.c` entry point.

Not modelled: OpenSSL, yajl, libc, the compiler; the parsing of
RSA/EC/DH keys below the interface of OpenSSL; the rest of the OpenSSL provider (its tables, shutting down) and the rest of the engine in `client`; `util` (other than `digest_util.c`, `pkcs12.c` and `sa_rights.c`), `util_mbedtls`, logging, the clearing
of secrets (`memory_memset_unoptimizable`), `transport.c`, `hardware_rng.c`, `video_output.c` and `svp` in `porting` beyond their
interface.

## Properties

`status` is that of MANIFEST.json.  For each property: what is modelled and how it is proved, and the result if it is partial.

### C01 Handles are never aliased and never run out early - proved

`Model/Slots`, `Model/StoreHistory`: the slot bit field with 64-bit words.  Invariant by induction over histories of allocate/free: the bits are exactly the live handles; the k-th allocation succeeds iff fewer than capacity are live.

Theorems: `C01_handles_unique`, `C01_bitfield_is_live_set`, `C01_add_succeeds_iff` (`Verif/Props/C01.lean`).

### C02 The handle tables behave like an abstract map - proved

`Model/ObjectStore`: the sequential operations.  Simulation with a finite map from handles to (owner, object), for every sequence of operations.

Theorems: `C02_refines_map`, `C02_other_handles_unaffected` (`Verif/Props/C02.lean`).

### C03 A caller can never use or destroy an object of another TA - proved

`Model/ObjectStore`: per-operation theorem (a foreign caller gets a failure and changes nothing) lifted to histories.

Theorems: `C03_foreign_call_rejected`, `C03_only_own_objects` (`Verif/Props/C03.lean`).

### C04 An object in use is never destroyed - proved

`Model/StoreConc`: object_store.c as a transition system with any number of threads and any schedule.  Inductive invariant.

Theorems: `C04_referenced_not_destroyed`, `C04_step_never_destroys_referenced`, `C04_release_succeeds` (`Verif/Props/C04.lean`).

### C05 Every object is destroyed exactly once - proved

`Model/StoreConc`: counting invariant on destructor calls, plus shutdown.

Theorems: `C05_destroyed_at_most_once`, `C05_single_destroyer`, `C05_all_destroyed_after_shutdown` (`Verif/Props/C05.lean`).

### C06 Closing never races with a concurrent call - partial

`Model/StoreConc`: shutdown as steps.  Violating schedule, and invariants for what remains true.

Result: Violated for a table that is itself shut down (object_store.c:242 vs 247): C06_shutdown_race_violated is a concrete schedule. Proved: session tables are never closed under a caller, no use after free before a shutdown starts, and exactly which accesses can still happen after the free.

Theorems: `C06_shutdown_race_violated`, `C06_after_free_only_partial`, `C06_session_not_closed_under_caller_partial`, `C06_no_race_without_shutdown_partial` (`Verif/Props/C06.lean`).

### C07 Sessions are isolated from each other - proved

`Model/Client`: sessions with their tables; frame theorem over interleaved histories.

Theorems: `C07_sessions_isolated`, `C07_no_use_after_free`, `C07_noninterference`, `C07_tables_independent` (`Verif/Props/C07.lean`).

### C08 Key material is released only under its rights - proved

`Model/KeyStore`: `key_store_unwrap` succeeds iff an independently stated condition on owner, TA list, dates, video and container holds.

Theorems: `C08_released_only_under_rights`, `C08_decision`, `C08_foreign_handle` (`Verif/Props/C08.lean`).

### C09 The allowed-TA list means membership - proved

`Model/Rights`: equivalence with list membership.

Theorems: `C09_allowed_iff_member`, `C09_position_irrelevant` (`Verif/Props/C09.lean`).

### C10 Video output protection is enforced per output - proved

`Model/Rights`: per-output specification; monotonicity; the DTCP flag.

Theorems: `C10_output_iff`, `C10_monotone`, `C10_fewer_outputs` (`Verif/Props/C10.lean`).

### C11 A child key never gains output rights its parent lacks - partial

`Model/StoredKey`: bit-level lemmas on `restrict_child_rights`.

Result: Violated for unwrap-only parents with non-zero child usage flags (stored_key.c:48-51): C11_violated. Proved for all other parents.

Theorems: `C11_violated`, `C11_child_output_rights_partial`, `C11_child_flags_requested`, `C11_other_rights_kept` (`Verif/Props/C11.lean`).

### C12 Child usage limits of key-only parents are enforced - proved

`Model/StoredKey`: bit-level lemmas on `restrict_child_rights` for key-only parents.

Theorems: `C12_child_usage_limited`, `C12_otherwise_as_requested` (`Verif/Props/C12.lean`).

### C13 Export then import gives back the same key - proved

`Model/KeyStore`, `Model/Container`: export then import as a round trip, for every key and every valid store.

Theorems: `C13_export_import` (`Verif/Props/C13.lean`).

### C14 Exported containers are tamper evident and parsed within bounds - proved

`Model/Container`: parsing of arbitrary bytes is in bounds; an accepted container has the right MAC and its bytes determine the header.

Theorems: `C14_in_bounds`, `C14_tag_checked`, `C14_tamper_evident`, `C14_mixin_covered` (`Verif/Props/C14.lean`).

### C15 Only cacheable keys can leave the store - proved

`Model/KeyStore`: decision logic of export; histories.

Theorems: `C15_export_needs_cacheable`, `C15_decision` (`Verif/Props/C15.lean`).

### C16 Stored keys always satisfy the header invariant - proved

`Model/StoredKey`, `Model/KeyHistory`: invariant of all keys in the store over all histories of key operations.

Theorems: `C16_header_invariant`, `C16_created`, `C16_persists` (`Verif/Props/C16.lean`).

### C17 Padding round-trips and malformed padding is rejected - proved

`Model/Pad`: round trip and iff with the definition of PKCS#7, for all inputs.

Theorems: `C17_accepts_iff`, `C17_round_trip`, `C17_apply_refuses` (`Verif/Props/C17.lean`).

### C18 Constant-time comparison is equality - proved

`Model/Memory`: result zero iff equal, for all inputs.

Theorems: `C18_memcmp_constant`, `C18_uuid` (`Verif/Props/C18.lean`).

### C19 TA identifiers in key containers are parsed faithfully - partial

`Model/Rights`: conversion of identifier texts; round trip for canonical texts.

Result: Violated for texts with hyphens missing or too short (callers ignore the result / no hyphen is required): C19_violated_no_hyphens, C19_violated_short. Proved: every canonical text gives exactly its 16 bytes, the conversion stays in bounds and distinct canonical texts give distinct identifiers.

Theorems: `C19_partial`, `C19_injective`, `C19_canonical`, `C19_in_bounds`, `C19_violated_no_hyphens`, `C19_violated_short` (`Verif/Props/C19.lean`).

### C20 Offset and length checks are overflow proof - proved

`Model/Svp`: equivalence with the condition in unbounded arithmetic.

Theorems: `C20_clear`, `C20_svp` (`Verif/Props/C20.lean`).

### C21 SVP writes and copies are all-or-nothing and in bounds - partial

`Model/Svp`: all-or-nothing and contents of write and copy with segments.

Result: Write proved completely. Copy between buffers sharing memory calls memcpy with overlapping ranges (C21_copy_violated); everything else about copy is proved (C21_copy_partial).

Theorems: `C21_write`, `C21_copy_partial`, `C21_copy_violated` (`Verif/Props/C21.lean`).

### C22 SVP buffers are created only over SVP memory - partial

`Model/Svp`: buffers exist only over SVP regions, over histories.

Result: Violated: creating a buffer over a wrapping region reports success (svp.c returns an error code as bool). Proved: no buffer over an invalid region ever exists; valid regions give usable buffers.

Theorems: `C22_partial`, `C22_violated`, `C22_violated_release`, `C22_violated_check` (`Verif/Props/C22.lean`).

### C23 Common-encryption CTR decryption uses the right keystream - partial

`Model/Cenc`, `Model/CencSpec`: the block loop against the counter-mode stream of the whole protected data.

Result: Violated when a protected range ends before the block begun by earlier ranges (cenc.c:51 underflow, C23_violated_short) and when a range starting inside a block passes the counter wrap (cenc.c:84, C23_violated_carry). Proved for all other samples below 2^31 bytes, in particular whole-block ranges and patterns, counter wraps included.

Theorems: `C23_partial`, `C23_whole_blocks`, `C23_violated_short`, `C23_violated_carry` (`Verif/Props/C23.lean`).

### C24 Samples are validated before any byte is processed - partial

`Model/Cenc`: verification loop before processing loop.

Result: First half proved. A later sample can be rejected after an earlier one was written if they share an sa_buffer (C24_violated); proved without sharing.

Theorems: `C24_accepted`, `C24_rejected`, `C24_partial`, `C24_violated` (`Verif/Props/C24.lean`).

### C25 Sample processing preserves clear bytes and reports failures - partial

`Model/Cenc`: per-subsample loop invariants.

Result: Violated: pattern failures overwritten by the next subsample, lengths of 2^32 converted to int, endless loop for wrapping patterns. Proved: content of the output for CTR, CBC and CBC patterns (samples below 2^31 bytes), offsets for every cipher, reporting of failures without a pattern.

Theorems: `C25_clear_bytes`, `C25_partial_ctr`, `C25_partial_cbc`, `C25_partial_pattern`, `C25_offsets`, `C25_reported_partial`, `C25_violated_failure`, `C25_violated_length`, `C25_violated_hang` (`Verif/Props/C25.lean`).

### C26 Overlapping input and output are rejected - partial

`Model/Cenc`: overlap check.

Result: The check itself is proved (C26_check); offsets moved by an earlier sample of the same call defeat it (C26_violated); proved without shared buffers.

Theorems: `C26_check`, `C26_partial`, `C26_violated` (`Verif/Props/C26.lean`).

### C27 A MAC context can be finished only once - proved

`Model/Mac`, state machine invariant over call sequences.

Theorems: `C27_finished`, `C27_size_query` (`Verif/Props/C27.lean`).

### C28 Chunking does not change a MAC - proved

`Model/Mac`, `Model/MacSpec`: any chunking gives the MAC of the concatenation.

Theorems: `C28_chunks`, `C28_obtained` (`Verif/Props/C28.lean`).

### C29 HKDF derives the RFC 5869 output of exactly the requested length - proved

`Model/Kdf`, `Model/KdfSpec`: equality with RFC 5869.

Theorems: `C29_hkdf`, `C29_supported` (`Verif/Props/C29.lean`).

### C30 Concat and X9.63 KDFs derive the standard output of exactly the requested length - proved

`Model/Kdf`, `Model/KdfSpec`: equality with NIST SP 800-56A and X9.63.

Theorems: `C30_concat`, `C30_x963`, `C30_supported` (`Verif/Props/C30.lean`).

### C31 CMAC KDF stays inside its four block schedule - proved

`Model/Kdf`: bounds of the schedule, equality with the counter-mode definition.

Theorems: `C31_cmac`, `C31_rejected`, `C31_supported` (`Verif/Props/C31.lean`).

### C32 Derivation, exchange, unwrap and signing need the matching right - proved

`Model/Kdf`, `Model/Unwrap`, `Model/Exchange`, `Model/Sign`, `Model/Cipher`: without the right no key is made and nothing is written.

Theorems: `C32_derive`, `C32_exchange`, `C32_netflix`, `C32_unwrap`, `C32_cipher`, `C32_sign` (`Verif/Props/C32.lean`).

### C33 Every API call returns the references it took - partial

`Model/Balance`: a small language for what the entry points acquire, release and on which paths they leave; every path of every entry point, and histories.

Result: Violated by sa_crypto_cipher_process and sa_crypto_cipher_process_last with an unknown buffer type and by sa_svp_buffer_release when the memory cannot be taken (return statements inside the block). Proved for every path of every other entry point, over histories of calls, and for these three on all other paths. Paths are over-approximated by an oracle.

Theorems: `C33_returned`, `C33_history_partial`, `C33_returned_partial`, `C33_violated_cipher`, `C33_violated_svp` (`Verif/Props/C33.lean`).

### C34 Cipher processing obeys the rights and moves offsets exactly - partial

`Model/Cipher`: processing with cipher contexts, memory and SVP buffers.

Result: Violated for lengths of 2^31 bytes and more (C34_violated_length) and, with an OpenSSL 1.1.1 that keeps the rest after EncryptFinal, for two final calls (C34_violated_twice). Everything is proved for calls below 2^31 bytes with the final call of OpenSSL 3.

Theorems: `C34_process_partial`, `C34_violated_length`, `C34_violated_twice` (`Verif/Props/C34.lean`).

### C35 What was encrypted can be decrypted - partial

`Model/Cipher`, `Model/CipherSpec`: encryption of a chunk sequence followed by decryption of any chunking of the result.

Result: Violated for AES-CTR and ChaCha20 with a final chunk of more than 16 bytes (C35_violated). Proved for all other algorithms and for those with final chunks up to 16 bytes, over chunk sequences; assumes that OpenSSL decryption inverts encryption (CipherPrim.Inverse).

Theorems: `C35_roundtrip_partial`, `C35_violated` (`Verif/Props/C35.lean`).

### C36 Opening a cipher context never leaves a dangling key - partial

`Model/Cipher`: heap of contexts and key copies; invariant over histories (no dangling pointer, no leak, no double free).

Result: Violated for RSA-OAEP when the new context cannot be locked or its label not be allocated: a context with a freed key stays in the table (C36_violated). Proved otherwise, over all histories.

Theorems: `C36_init_partial`, `C36_owned_partial`, `C36_violated` (`Verif/Props/C36.lean`).

### C37 Untrusted command parameters never overflow TA memory - partial

`Model/Dispatch`: each command handler as a list of accesses; in-bounds for all parameters.

Result: Violated by key derivation, SoC import, provisioning, cipher processing with SVP buffers, key header and the SVP key check: each C37_violated theorem gives parameters for which an access is out of bounds or through NULL. Proved for the 27 other commands and unknown numbers with any parameters, and for these commands outside the named cases (provisioning: not at all).

Theorems: `C37_commands`, `C37_partial`, `C37_violated_derive`, `C37_violated_import`, `C37_violated_provision`, `C37_violated_process`, `C37_violated_header`, `C37_violated_key_check` (`Verif/Props/C37.lean`).

### C38 Subsample tables are sized without wraparound - partial

`Model/Dispatch`: the subsample table in wrapping arithmetic.

Result: Violated: 2^60+1 subsamples with a one-entry table are accepted (C38_violated). Proved for fewer than 2^60, and that this bound is exact.

Theorems: `C38_partial`, `C38_exactly_partial`, `C38_violated` (`Verif/Props/C38.lean`).

### C39 Type-J content rights map to exactly the documented flags - proved

`Model/TypejRights`: for every list of codes the flags are those of an order-independent definition.

Theorems: `C39`, `C39_order` (`Verif/Props/C39.lean`).

### C40 A Type-J key is imported only if its MAC verifies - partial

`Model/Typej`: authenticity of accepted containers; heap life cycle of every run.

Result: Authenticity and the rights of the helper keys are proved in full (C40_authentic). The memory part is false: a part that is not base64 is freed twice before the MAC is checked (C40_violated_parts); authentic containers with a bad IV or wrapped key are freed twice (C40_violated_fields), unset length, NULL and reads before a block (C40_violated_reads). C40_heap_partial gives conditions under which every block is freed exactly once; C40_unauthentic_partial shows that without the MAC key only the first of these can happen.

Theorems: `C40_authentic`, `C40_heap_partial`, `C40_unauthentic_partial`, `C40_violated_parts`, `C40_violated_fields`, `C40_violated_reads` (`Verif/Props/C40.lean`).

### C41 JSON documents are represented faithfully - proved

`Model/Json`: round trip by induction on JSON trees; lookup.

Theorems: `C41_parse`, `C41_find`, `C41_document` (`Verif/Props/C41.lean`).

### C42 SoC container key types are matched exactly - partial

`Model/Soc`: key type names against the documented list.

Result: Violated: any non-empty prefix of a documented name is accepted (C42_violated) and names longer than 8 bytes make the comparison read past literals (C42_overread). Proved: documented names get their type and size, an accepted string without zero bytes of at most 8 bytes is a prefix of a documented name and gets that type and size, and such strings never read past literals.

Theorems: `C42_names`, `C42_partial`, `C42_violated`, `C42_overread`, `C42_reads` (`Verif/Props/C42.lean`).

### C43 SoC containers cannot overflow the parser's buffers - partial

`Model/Soc`: writes into fixed-size objects.

Result: Violated before authentication for the IV, the ladder inputs, the TA identifiers and the authenticated data (C43_violated_*). Proved when decoded IV and ladder inputs fit, at most 32 identifiers and a key type of at most 72 bytes.

Theorems: `C43_partial`, `C43_violated_iv`, `C43_violated_ids`, `C43_violated_aad`, `C43_violated_ladder` (`Verif/Props/C43.lean`).

### C44 Wrapped keys are authenticated with a full-length tag - partial

`Model/Unwrap`: AEAD unwrapping.

Result: Violated: AES-GCM unwrap accepts a tag of any length from 1 to 16 bytes. Proved for tags of 16 bytes and ChaCha20-Poly1305; the SoC container is covered by C43.

Theorems: `C44_tag_partial`, `C44_violated` (`Verif/Props/C44.lean`).

### C45 Authenticated key exchange is all-or-nothing - proved

`Model/Exchange`: the store and handles after a failing or successful exchange.

Theorems: `C45_all_or_nothing`, `C45_ta_outputs_stale` (`Verif/Props/C45.lean`).

### C46 Keys derived from two parents respect both - partial

`Model/Exchange`, `Model/Kdf`: rights of the keys made from two parents.

Result: Violated by the Netflix exchange: the keys made are not restricted by the DH private key (C46_exchange_violated). Proved: restricted by Kw, and for the derivation by Kenc.

Theorems: `C46_exchange_partial`, `C46_derive_partial`, `C46_exchange_violated` (`Verif/Props/C46.lean`).

### C47 Validity dates in containers keep their meaning - partial

`Model/Iso8601`: equality with the proleptic Gregorian calendar, for all dates.

Result: Violated: one second before 1970 is accepted and becomes 2^64-1 (C47_violated). Proved for every other real date up to year 9999 in canonical form, for any strptime that reads the canonical form.

Theorems: `C47_partial`, `C47_monotone`, `C47_violated` (`Verif/Props/C47.lean`).

### C48 EC ElGamal unwrap extracts the key in bounds - proved

`Model/Unwrap`: bounds of `unwrap_ec` in unbounded arithmetic.

Theorems: `C48_elgamal`, `C48_rejected` (`Verif/Props/C48.lean`).

### C49 Container key usage maps to exact usage flags - proved

`Model/Rights`: bit-level characterisation of `key_usage_to_usage_flags`.

Theorems: `C49_exact` (`Verif/Props/C49.lean`).

### C50 Open cipher contexts respect key validity - partial

`Model/Cipher`, `Model/Cenc`, `Model/Mac`: rights at the time of use, over histories.

Result: Violated by MAC contexts, which check the key only when they are made: C50_violated computes a MAC after the key has expired. Proved for every cipher and CENC call, and for making MAC contexts.

Theorems: `C50_cipher_partial`, `C50_cenc_partial`, `C50_mac_partial`, `C50_violated` (`Verif/Props/C50.lean`).

### C51 Context operations are exclusive - proved

`Model/StoreExcl`: object mutexes on top of the concurrent tables; invariant over all schedules.

Theorems: `C51_exclusive`, `C51_alive`, `C51_waits` (`Verif/Props/C51.lean`).

### C52 Key length limits are enforced before use - partial

`Model/KeyMake`: decision tables of generation and import.

Result: Violated: an RSA modulus length whose bit count overflows int is not refused before the overflow (rsa.c:619). Everything else about generation and import of symmetric, EC, RSA and DH keys is proved.

Theorems: `C52_generate_partial`, `C52_import`, `C52_null`, `C52_generate_violated` (`Verif/Props/C52.lean`).

### C53 Unwrapping imports exactly the decrypted bytes with rights restricted by the wrapping key - proved

`Model/Unwrap`, `Model/UnwrapSpec`: per algorithm, the new key is the decryption by the standard, restricted by the wrapping key.

Theorems: `C53_unwrap`, `C53_complete` (`Verif/Props/C53.lean`).

### C54 Unwrapping never reads outside its buffers - partial

`Model/Unwrap`: all accesses in bounds.

Result: Violated: PKCS7 algorithms with an empty input read the byte before the buffer. Proved for all other inputs.

Theorems: `C54_in_bounds_partial`, `C54_violated` (`Verif/Props/C54.lean`).

### C55 A signature that is reported exists - partial

`Model/Sign`: status OK implies that the signature was written, with the right length.

Result: Violated by RSA-PSS: rsa_sign_pss starts with status OK, so a failure inside OpenSSL is reported as success with nothing written (C55_violated). Proved for every other case.

Theorems: `C55_signature_partial`, `C55_violated` (`Verif/Props/C55.lean`).

### C56 Concurrent calls never block each other forever - partial

`Model/StoreExcl`: progress and deadlock.

Result: Violated: two sa_svp_buffer_copy calls with input and output exchanged deadlock, because both lock the output first (C56_violated). Proved for calls that lock objects in a common order (C56_progress_partial).

Theorems: `C56_progress_partial`, `C56_violated` (`Verif/Props/C56.lean`).

### C57 An SVP buffer is released exactly once - partial

`Model/StoreExcl`: concurrent release of SVP buffers.

Result: Violated: of two concurrent releases one returns OK with the buffer still locked and referenced, and the other waits forever (C57_violated). Proved: the memory is handed out at most once.

Theorems: `C57_once_partial`, `C57_violated` (`Verif/Props/C57.lean`).

### C58 Memory declared input-only is never written - partial

`Model/Dispatch`: no write event on a parameter declared as input.

Result: Violated by cipher processing and common encryption with clear output in a parameter declared as input. Proved for all other commands, and for these in all other cases.

Theorems: `C58_commands`, `C58_partial`, `C58_violated_process`, `C58_violated_cenc` (`Verif/Props/C58.lean`).

### C59 Parsing an SoC container keeps the heap intact - partial

`Model/Soc`: heap life cycle of every run.

Result: Violated before authentication: double free, unset lengths, NULL reads and reads past literals (C59_violated_*). Proved for containers whose fields have the expected types and lengths, accepted or not; that decoded text fits its heap block is proved for all containers.

Theorems: `C59_partial`, `C59_fills`, `C59_violated_double_free`, `C59_violated_unset`, `C59_violated_ladder`, `C59_violated_literal` (`Verif/Props/C59.lean`).

### C60 The tag of an SoC container protects all it says - partial

`Model/Soc`: the authenticated data determine the payload.

Result: A tag of 1 to 15 bytes is accepted if it is a prefix of the true tag (C60_violated). Proved: an accepted container has a non-empty prefix of the GCM tag over data that determines all it says (C60_partial, C60_binding); key types with a zero byte are excluded from the latter.

Theorems: `C60_binding`, `C60_partial`, `C60_violated` (`Verif/Props/C60.lean`).

### C61 Only the TAs a key container lists can use its key - partial

`Model/Soc`, `Model/Typej`, `Model/KeyStore`: from the text of the list to the check at use.

Result: Violated: malformed texts entitle other TAs because the result of the conversion is ignored (C61_violated_malformed); an SoC container with an empty list or a single text instead of a list is for every TA (C61_violated_empty, C61_violated_no_list). Proved for absent lists and lists of canonical texts, in the parsers and in the store.

Theorems: `C61_typej_partial`, `C61_typej_store_partial`, `C61_soc_partial`, `C61_soc_store_partial`, `C61_violated_malformed`, `C61_violated_empty`, `C61_violated_no_list` (`Verif/Props/C61.lean`).

### C62 A key imported from a Type-J container is the key it describes - partial

`Model/Typej`: an accepted container and the fields of its JSON document determine the stored key.

Result: Violated: a usage that is not a JSON integer is read as 0, data and key (C62_violated_usage). Proved for all containers whose usage is an integer; dates in the canonical form.

Theorems: `C62_partial`, `C62_violated_usage` (`Verif/Props/C62.lean`).

### C63 The trusted application is called with the arguments of the application - partial

`Model/ClientLib` (the bytes and parameters each library function sends) and `Model/TaCall` (how the command handler reads them): round trip, case by case over all functions, for all arguments.

Result: Violated twice: unwrapping with AES-GCM or ChaCha20-Poly1305 and no additional data is always refused (C63_violated_unwrap), and sa_svp_buffer_write with several offsets writes with copies of the first (C63_violated_write). Proved for all other calls; the only other refusals are calls without any element (Empty).

Theorems: `C63_arrives_partial`, `C63_unaltered_partial`, `C63_violated_unwrap`, `C63_violated_unwrap_sent`, `C63_violated_write` (`Verif/Props/C63.lean`).

### C64 Applications that use the client library cannot make the command handler misbehave - partial

`Model/ClientLib` composed with `Model/Dispatch`: every request of the library meets the hypotheses of C37 and C58; the two models of the handler (`Model/Dispatch`, `Model/TaCall`) are proved to agree.

Result: Violated by the import of an SoC container whose parameter structure states a length above 624 bytes: the library passes it on and the handler copies it into a local variable (C64_violated). Proved for all other calls; C64_called_partial excludes the calls of C63 that are refused or altered.

Theorems: `C64_partial`, `C64_called_partial`, `C64_violated` (`Verif/Props/C64.lean`).

### C65 An algorithm runs only with keys and parameters it is defined for - proved

`Model/Sign`, `Model/Cipher`, `Model/Mac`, `Model/Kdf`, `Model/Unwrap`, `Model/Exchange`: the needs of each algorithm are a table of numbers (`SignNeeds`, `CipherNeeds`, …) apart from the model.

Theorems: `C65_sign`, `C65_cipher`, `C65_update_iv`, `C65_process`, `C65_block_accepted`, `C65_mac`, `C65_mac_key`, `C65_derive`, `C65_unwrap`, `C65_dh`, `C65_ecdh`, `C65_netflix` (`Verif/Props/C65.lean`).

### C66 A key imported from an SoC container has exactly the rights the container states - partial

Over the model of the SoC container (Model/Soc), with the meaning of the usage codes from the specification of C49 and the names from that of C42; RightsOf states flags bit by bit. Partial: usages are taken modulo 256.

Result: C66_partial: exact rights for the usages modulo 256; missing: undocumented usages such as 257 or 259 are accepted as 1 and 3 (C66_violated).

Theorems: `C66_partial`, `C66_violated` (`Verif/Props/C66.lean`).

### C67 A key check tells only whether the key decrypts the data, and only those entitled - partial

Model/Inquiry models the call, the comparison and the union of sa_buffer word by word; the cases are split once (`cases_of`), then the exact condition, the independence of other memory, and, for unknown buffer types, the oracle on arbitrary addresses follow

Result: Violated: the buffer type is not checked. For types other than clear and SVP neither the clear right is required nor the REE refused, and the handle given is used as an address: any memory of the TA can be compared (C67_violated). Allocation failures are reported as wrong values (C67_violated_failure). Proved for the two types that exist, below 2 GiB.

Theorems: `C67_partial`, `C67_reads`, `C67_violated`, `C67_violated_failure` (`Verif/Props/C67.lean`).

### C68 A buffer check compares the hash of exactly the bytes named, for TAs only - partial

Model/Inquiry.svpBufferCheck over the SVP table of Model/Svp; exact condition for both answers, dependence on memory only through the range

Result: Violated: an unknown algorithm with hash length 2^64-1 makes the code declare an array of that size (C68_violated_algorithm); a range outside of the buffer gives INTERNAL_ERROR and the REE gets OPERATION_NOT_ALLOWED instead of the documented statuses (C68_violated_status); handles without a buffer dereference NULL (C22). The rest is proved.

Theorems: `C68_partial`, `C68_reads`, `C68_violated_algorithm`, `C68_violated_status` (`Verif/Props/C68.lean`).

### C69 Key digests and public keys are those of the key and tell nothing else - partial

Model/Inquiry.taKeyDigest and taKeyGetPublic over the key store; hash and public key encoding are parameters; exact conditions and exact contents of the buffer; the two-call protocol as a corollary

Result: Violated: RSA and EC keys cannot be digested (C69_violated_types); too short a buffer for a digest gives INTERNAL_ERROR, the public key of a symmetric key INVALID_PARAMETER (C69_violated_status). The rest is proved.

Theorems: `C69_digest_partial`, `C69_public_partial`, `C69_length`, `C69_violated_types`, `C69_violated_status` (`Verif/Props/C69.lean`).

### C70 The application gets what the TA returned; after a failure its variables are as before - proved

Model/ClientRet models what the handler writes back (`respond`), where the writes land in each build, and what the library copies (`finish`); each field is followed through command structure and parameter memory by lemmas on `put`/`slice`; `Shown` and `Kept` say what the application expects without reference to commands or parameters

Result: The hypotheses `Fits` are the contract of the functions of the TA (outputs fit the length given, offsets stay in the buffers). ta_sa_get_name breaks it for buffers that are longer than the name (C111). In builds without shared memory output memory may hold unverified output after a failure; that is how `Kept` states it. In the build with shared memory sa_key_header.c does not compile (a pointer is copied to a struct); the intended copy is modelled.

Theorems: `C70_returned`, `C70_as_meant`, `C70_refused` (`Verif/Props/C70.lean`).

### C71 Several samples are processed one after the other, up to the first failure - partial

Model/ClientCenc models the loop over pointers, buffers and memory with a stream of allocation results; each round is tied to the single call by C63 and C70's lemmas, the loop by induction on the array; the inductive relation `Done` is the specification

Result: Violated in builds with shared memory: CREATE_PARAM ends with `continue`, which inside the loop goes on with the next sample; the call can succeed with a sample never processed (C71_violated_skipped). Violated if a sample has one sa_buffer for input and output: its offset moves twice (C71_violated_in_place). Proved for the rest.

Theorems: `C71_in_order_partial`, `C71_none`, `C71_all_partial`, `C71_violated_skipped`, `C71_violated_in_place` (`Verif/Props/C71.lean`).

### C72 A call of the library gives all its memory back - partial

Model/ClientMem gives for each function the allocations, ways out and releases; `outcomes` covers all decisions (block_outcome), the table is checked in full and lifted; the loop over samples by an invariant

Result: Violated by sa_get_device_id (return instead of break), by sa_key_header with shared memory (parameter never released), by sa_key_provision_ta (command read after its allocation failed) and by sa_process_common_encryption with shared memory (variables overwritten after `continue`). Proved for all other functions, and for the samples without shared memory.

Theorems: `C72_clean_partial`, `C72_samples_partial`, `C72_violated_device_id`, `C72_violated_key_header`, `C72_violated_provision`, `C72_violated_samples` (`Verif/Props/C72.lean`).

### C73 All threads of an application use one session, closed at the end - partial

Model/Session is a transition system with one step per access to a shared variable; an inductive invariant over all reachable states

Result: Violated if mtx_init fails: the failure is only logged and the uninitialised mutex is locked (C73_violated_mutex). Proved otherwise, with the unsynchronised read of the session taken to be atomic.

Theorems: `C73_one_session_partial`, `C73_null_partial`, `C73_exclusive_partial`, `C73_progress_partial`, `C73_closed_partial`, `C73_violated_mutex` (`Verif/Props/C73.lean`).

### C74 An SVP buffer and its memory live together - partial

Model/SvpApp composes the library functions with the SVP table of the TA and a heap; an invariant over all histories ties handles, blocks and the blocks held by the application

Result: Violated for a handle over an invalid region, which sa_svp_buffer_create reports to have made (C22): sa_svp_buffer_free then reports success and frees a pointer from uninitialised memory (C74_violated). Proved for all histories in which buffers are made only of memory the application holds.

Theorems: `C74_always_partial`, `C74_alloc_partial`, `C74_free_partial`, `C74_violated` (`Verif/Props/C74.lean`).

### C75 Through the OpenSSL provider a message may be cut into any pieces - partial

Model/ProviderCipher follows the loop of cipher_update with its left over bytes; induction over the pieces shows that complete blocks go to the API in order, for an API that processes blocks as a stream (shown for the TA by C34)

Result: Violated: of two short pieces in a row the first is lost without an error (C75_violated_short); left over bytes of an earlier message get into the next (C75_violated_reuse); an update reports success though the API refused a block (C75_violated_status). Proved for new contexts and for ways of cutting in which no piece stays within a block that was begun before; for ciphers without blocks for all ways of cutting.

Theorems: `C75_message_partial`, `C75_stream_partial`, `C75_cut_partial`, `C75_violated_short`, `C75_violated_reuse`, `C75_violated_status` (`Verif/Props/C75.lean`).

### C76 Through the OpenSSL provider only authentic data is accepted - partial

same model; the calls of an application are composed and reduced to one question to the API

Result: Violated: finishing without an output buffer succeeds and checks nothing (C76_violated_final); additional data after the first call is ignored (C76_violated_aad); tags shorter than 16 bytes are replaced by others (C76_violated_short). Proved for additional data in one call, an output buffer in the last call and 16-byte tags.

Theorems: `C76_accept_partial`, `C76_violated_final`, `C76_violated_aad`, `C76_violated_short` (`Verif/Props/C76.lean`).

### C77 Keys derived through the OpenSSL provider are those of the standards - partial

Model/ProviderKdf follows the context of the provider; an invariant ties it to the parameters set last, and its call of the API is instantiated with the TA of Model/Kdf, so that C29, C30 and C31 give the key

Result: Violated: CMAC keys of 32 bytes consist of the blocks 2 and 3 instead of 1 and 2 (C77_violated_blocks); CMAC keys of 48 and 64 bytes are refused (C77_violated_long); the length in the fixed data counts bytes (C77_violated_length); other values than 0 and 1 of use-l write behind allocated memory (C77_violated_memory); after a reset HKDF without salt is refused (C77_violated_reset); duplicates never derive a key (C77_violated_dup) and duplicating after a reset reads from NULL (C77_violated_null); SHA-512/256 and others are taken as the digest their name begins with (C77_violated_digest). Proved for the other cases, for CMAC with keys of 16 bytes.

Theorems: `C77_params`, `C77_derive_partial`, `C77_cmac_partial`, `C77_violated_blocks`, `C77_violated_long`, `C77_violated_length`, `C77_violated_memory`, `C77_violated_reset`, `C77_violated_dup`, `C77_violated_null`, `C77_violated_digest` (`Verif/Props/C77.lean`).

### C78 Contexts of the OpenSSL provider release exactly the keys they own - partial

the API is wrapped to record imports and releases; an invariant over all operations of a context relates the record to the key it holds

Result: Violated: an application's own key is released when another one is set (C78_violated_foreign), also when it is the same one, which is used on (C78_violated_used); a failed second initialisation releases a key twice (C78_violated_twice); imported keys of the wrong size are never released (C78_violated_lost); setting a key on a duplicated KDF context releases the key with handle 0 (C78_violated_dup). Proved for contexts that get one key, with all other operations in any number and order.

Theorems: `C78_cipher_partial`, `C78_mac_partial`, `C78_kdf_partial`, `C78_reset_partial`, `C78_violated_foreign`, `C78_violated_used`, `C78_violated_twice`, `C78_violated_lost`, `C78_violated_dup` (`Verif/Props/C78.lean`).

### C79 MACs made through the OpenSSL provider are those of key, digest and message - partial

Props/C79: what an application knows from its calls is tracked apart from the model; an invariant shows that the context agrees with it, for any API that keeps keys and MAC contexts (C28 for the TA)

Result: Violated: HMAC with SHA-512/256 or SHA-512/224 gives that with SHA-512 (C79_violated_digest, C79_violated_names); initialising HMAC without a digest reads from NULL (C79_violated_null); after an initialisation with key bytes that are refused, the next one uses whatever key has got the handle of the released one (C79_violated_stale). Proved for all other sequences of calls.

Theorems: `C79_mac_partial`, `C79_obtained`, `C79_violated_digest`, `C79_violated_names`, `C79_violated_null`, `C79_violated_stale` (`Verif/Props/C79.lean`).

### C80 Through the OpenSSL 1.1 engine messages are processed with the key, IV and direction given, and errors are told - partial

Model/EngineCipher follows the engine, with the memory of the application that it reads late, and OpenSSL's EVP layer above it as an assumption; induction over the pieces relates what was fed to the API with what was given

Result: Violated: for AES-ECB, CBC, CTR and ChaCha20 data that the API refuses is reported as processed (C80_violated_told, C80_violated_refused), as -1 is not 0; once used, a context ignores new keys, IVs and directions (C80_violated_reinit); the direction of the first initialisation is kept (C80_violated_direction); key and IV are read when the first data comes, not when given (C80_violated_memory); finishing without output checks no tag (C80_violated_final); later additional data is ignored (C80_violated_aad); deciphering without a tag reads memory never set (C80_violated_untagged). Proved for new contexts; deciphering with padding is left to OpenSSL.

Theorems: `C80_message_partial`, `C80_aead_partial`, `C80_told_partial`, `C80_violated_told`, `C80_violated_refused`, `C80_violated_reinit`, `C80_violated_direction`, `C80_violated_memory`, `C80_violated_final`, `C80_violated_aad`, `C80_violated_untagged`, `C80_released` (`Verif/Props/C80.lean`).

### C81 The OpenSSL provider releases the keys handed over to it exactly once, when nothing refers to them any longer, and never those lent to it - partial

Model/ProviderKey has a heap of key data with reference counts and the objects of the application; an invariant says that every count is the number of references held, with references in flight as an explicit list; the specification is a book kept by the application without any counts

Result: Violated: a key imported in the clear is lost when the API refuses a later question about it (C81_violated_import); setting a second peer loses the first (C81_violated_peer); an unknown digest is accepted, loses the key, and using the context follows NULL (C81_violated_digest); a copy of a context for signatures without a digest, as for Ed25519, is memory that has been freed (C81_violated_copy); key exchange without a peer follows NULL (C81_violated_no_peer); contexts for encryption without a label cannot be copied, and the attempt loses the key (C81_violated_label). C81_released_partial covers all other histories; C81_not_more and C81_lent hold for all. Single thread.

Theorems: `C81_released_partial`, `C81_not_more`, `C81_lent`, `C81_violated_import`, `C81_violated_peer`, `C81_violated_digest`, `C81_violated_copy`, `C81_violated_no_peer`, `C81_violated_label` (`Verif/Props/C81.lean`).

### C82 Signatures made through the OpenSSL provider are of the whole message with the algorithm asked for, fit the announced length, and are named truly - partial

Model/ProviderSign follows setting of parameters, hashing and signing; the specification has its own greatest salt length (RFC 8017, 9.1.1), its own reader of DER that refuses encodings which are not the shortest, and its own object identifiers from dotted numbers; round trip for all signatures of up to 249 bytes by induction over the bytes

Result: Violated: PSS with another digest than SHA-256 uses SHA-256 for MGF1 unless it is named, while verification uses the digest of the message (C82_violated_mgf1); hashes of digests which the API lacks are signed as SHA-256 (C82_violated_digest); the size of the buffer is ignored (C82_violated_size); unknown digests are accepted and NULL is followed later (C82_violated_init); RSA with SHA-1 is named RSA with SHA-256 (C82_violated_name) and PSS is named PKCS#1 v1.5 (C82_violated_pss_name). The rest is proved; C82_eddsa and C82_room hold in full. That i2d_ECDSA_SIG writes DER is assumed.

Theorems: `C82_rsa_partial`, `C82_ecdsa_partial`, `C82_eddsa`, `C82_room`, `C82_verify_partial`, `C82_name_partial`, `C82_violated_mgf1`, `C82_violated_digest`, `C82_violated_size`, `C82_violated_init`, `C82_violated_name`, `C82_violated_pss_name` (`Verif/Props/C82.lean`).

### C83 Keys generated through the OpenSSL provider are of the size, curve or group asked for, and only the same key is equal - partial

Model/ProviderGen has the generator's context with type_parameters as the union it is (bytes, the curve over the first four); the specification keeps only what was asked for last; induction over the sequence of settings; the default group is compared with the number of RFC 3526

Result: Violated: sizes that are not whole bytes are rounded down (C83_violated_bits); a generator for X25519 makes keys of any other curve that is named (C83_violated_group); naming a curve overwrites the first four bytes of the DH prime (C83_violated_dh_group); DH parameters given by the application are stored byte-reversed (C83_violated_dh_import) and behind the array if longer than 512 bytes (C83_violated_dh_long); all keys are equal (C83_violated_match); a public key is said not to be there (C83_violated_has). All other sequences are covered; C83_names holds in full.

Theorems: `C83_generate_partial`, `C83_params_partial`, `C83_names`, `C83_import_partial`, `C83_has_partial`, `C83_violated_bits`, `C83_violated_group`, `C83_violated_dh_group`, `C83_violated_dh_import`, `C83_violated_dh_import_witness`, `C83_violated_dh_long`, `C83_violated_match`, `C83_violated_has` (`Verif/Props/C83.lean`).

### C84 RSA encryption through the OpenSSL provider uses padding, digests and label asked for, and what was encrypted can be decrypted - partial

Model/ProviderRsa follows setting, reading and use of the parameters; the specification keeps the last word on each setting and the scheme meant by RFC 8017; induction over the sequence of calls; the round trip assumes that API and OpenSSL agree on each scheme

Result: Violated: a digest named for MGF1 is ignored though reported (C84_violated_mgf1); OAEP without naming a digest asks for MGF1 with no digest at all (C84_violated_default); any other padding, even no padding or an unknown name, is accepted and decrypted as PKCS#1 v1.5 (C84_violated_padding); copies of contexts have uninitialised labels, fail, or follow NULL (C84_violated_copy); reading the padding as a number fails exactly if it works (C84_violated_pad_int). All other settings are covered.

Theorems: `C84_settings_partial`, `C84_roundtrip_partial`, `C84_pad_name_partial`, `C84_violated_mgf1`, `C84_violated_mgf1_reached`, `C84_violated_default`, `C84_violated_padding`, `C84_violated_copy`, `C84_violated_pad_int` (`Verif/Props/C84.lean`).

### C85 Ciphertexts, plaintexts and tags are those of the algorithm, direction, key, IV, counter and additional data that were asked for - partial

Model/Evp has OpenSSL's EVP contexts, written after its documentation, above a block cipher, key streams and tags that are parameters, and every symmetric_create_*_context as the calls it makes; Model/EvpSpec has the modes after NIST SP 800-38A, block by block. The context after any chunks is described by what was put in (induction over chunks); the assumptions of C34 and C35 about contexts are proved for this model, so that the round trip holds without them

Result: Violated for long additional data: its length becomes an int, so that of 4 GB nothing is authenticated (C85_violated_aad). The theorems are for chunks shorter than 2 GB (see C34_violated_length) and, for tags, additional data shorter than 2 GB; C85_create covers everything.

Theorems: `C85_create`, `C85_chunks_partial`, `C85_encrypt_partial`, `C85_decrypt_partial`, `C85_roundtrip_partial`, `C85_violated_aad` (`Verif/Props/C85.lean`).

### C86 Ciphers of the OpenSSL provider work as the cipher fetched, with the direction, key, IV and padding set last - partial

a specification folds what was asked for over the sequence of settings; an invariant, shown for each setting, relates it to the context; C75 and C76 then give the message. The API is wrapped with the list of open cipher contexts for the last part

Result: Violated: a length of the IV set by the application is ignored with success and the first 12 bytes are used (C86_violated_ivlen); setting the same key once more releases it while it stays in use (C86_violated_again); setting another key releases one that was only lent (C86_violated_lent). C86_message_partial and C86_open_partial hold for settings that succeed and IVs of the default length, with the restrictions of C75 and C76; C86_released is not restricted.

Theorems: `C86_message_partial`, `C86_open_partial`, `C86_report_partial`, `C86_released`, `C86_violated_ivlen`, `C86_violated_again`, `C86_violated_lent` (`Verif/Props/C86.lean`).

### C87 Digests of the OpenSSL provider are those of the bytes given since initialisation, on every context and every copy - partial

operations with answers form a trace; a specification reads off it what each context was told; an invariant over all traces relates contexts to it, with OpenSSL's own digests as a parameter of which only the hash law is assumed; a second induction counts contexts and references

Result: Violated: a copied context has digest size 0, so that digest_final writes a whole digest to a buffer that is said to be shorter (C87_violated_copy; OpenSSL 3 itself passes the size of the digest); the lists of parameters that can be set and asked for are swapped (C87_violated_names). C87_digest_partial, C87_answers and C87_held are not restricted; C87_room_partial shows that only copies can overflow.

Theorems: `C87_digest_partial`, `C87_answers`, `C87_room_partial`, `C87_held`, `C87_violated_copy`, `C87_violated_names` (`Verif/Props/C87.lean`).

### C88 Key exchange through the OpenSSL provider gives both sides the same secret, as a new key with all rights - partial

a specification reads the last key and peer off the sequence of settings; sa_key_exchange is a parameter with a law; the rights theorem evaluates all checks of rights.c with the rights set by sa_rights_set_allow_all, symbolically in time, outputs and caller

Result: Violated: deriving without a peer uses NULL instead of failing (C88_violated_peer). C88_rights excludes the time 2^64-1 and outputs that cannot be polled.

Theorems: `C88_secret_partial`, `C88_answers`, `C88_length`, `C88_agree`, `C88_rights`, `C88_violated_peer` (`Verif/Props/C88.lean`).

### C89 sa_get_provider gives all threads the same loaded provider and never blocks them for ever - partial

transition system with one step per visible call and an unbounded number of threads; invariants by induction over steps; for the violation, an invariant of all continuations

Result: Violated: when loading fails sa_provider_load returns without unlocking the mutex, so that every other thread that calls sa_get_provider blocks for ever (C89_violated_lock), and the loading thread gets a library context without the provider (C89_violated_unloaded). C89_same and C89_bounded hold whatever fails; C89_loaded_partial and C89_returns_partial hold when no call fails. Process exit (sa_provider_shutdown) is not modelled.

Theorems: `C89_same`, `C89_loaded_partial`, `C89_returns_partial`, `C89_bounded`, `C89_violated_unloaded`, `C89_violated_lock` (`Verif/Props/C89.lean`).

### C90 sa_get_engine gives all threads the same engine, keeps it while it is used and never blocks them for ever - partial

transition system with one step per visible call and an unbounded number of threads; OpenSSL's structural and functional references are counted; invariants by induction over steps, the counts over a list of all threads with references; for the violations, invariants of all continuations

Result: Violated: in OpenSSL 1.1 registering the engine asks sa_get_engine_pkey_asn1_meths for its list, which locks the mutex and returns without unlocking, so that no other thread ever gets an engine (C90_violated_one, C90_violated_blocks); a failing call makes sa_get_engine return without unlocking (C90_violated_failed); the methods are released with an engine that could not be added, but stay in use for the next one (C90_violated_methods). C90_same, C90_references, C90_alive, C90_bounded and C90_alone hold whatever fails; C90_gets_partial, C90_returns_partial hold without the list of ASN.1 methods (OpenSSL before 1.1) when nothing fails, C90_methods_partial when adding does not fail.

Theorems: `C90_same`, `C90_references`, `C90_alive`, `C90_bounded`, `C90_alone`, `C90_gets_partial`, `C90_returns_partial`, `C90_methods_partial`, `C90_violated_one`, `C90_violated_blocks`, `C90_violated_failed`, `C90_violated_methods` (`Verif/Props/C90.lean`).

### C91 MACs through the OpenSSL engine are those asked for, of the bytes given to each context - partial

operations with answers form a trace; a specification reads off it what each context was told; an invariant over all careful traces relates contexts, handles and the MACs of SecApi to it; SecApi is a parameter of which only is assumed that a new MAC gets a free handle

Result: Violated: OpenSSL asks a copy of the context for the MAC and frees the copy, which releases the MAC of SecApi while the original keeps its number. So a context asked twice fails, or answers another context's MAC (C91_violated_again, C91_violated_wrong), freeing it takes another context's MAC away (C91_violated_free), copies are not independent (C91_violated_copy). An unknown digest gives a CMAC (C91_violated_digest); initialising again leaks a MAC (C91_violated_reinit). The theorems hold for careful use: no copies, no second initialisation, known digests, and no context initialised while another one that was asked for its MAC has not been freed.

Theorems: `C91_mac_partial`, `C91_updates_partial`, `C91_answers_partial`, `C91_held_partial`, `C91_violated_wrong`, `C91_violated_free`, `C91_violated_copy`, `C91_violated_digest`, `C91_violated_reinit`, `C91_violated_again` (`Verif/Props/C91.lean`).

### C92 Signatures through the OpenSSL engine are those asked for, fit the buffer and verify - partial

operations with answers form a trace; a specification reads off it what each context was asked for; an invariant by induction over operations relates the engine's data to it; signing and verifying are then compared with RFC 8017 and the OpenSSL manual; SecApi's signing and OpenSSL's verifying are parameters

Result: Violated: PSS without a named MGF1 digest takes SHA-1 instead of the signature's digest (C92_violated_mgf1); without a digest the bytes are signed as a SHA-1 hash instead of as they are (C92_violated_raw); an ECDSA signature overruns a short buffer (C92_violated_size); an empty message given as NULL cannot be signed with EdDSA (C92_violated_empty). C92_rsa_partial, C92_message_partial and C92_ecdsa_partial exclude just these cases; C92_refused, C92_room (buffers of the announced length), C92_eddsa and C92_verifies hold in full.

Theorems: `C92_rsa_partial`, `C92_message_partial`, `C92_refused`, `C92_ecdsa_partial`, `C92_room`, `C92_eddsa`, `C92_verifies`, `C92_violated_mgf1`, `C92_violated_raw`, `C92_violated_size`, `C92_violated_empty` (`Verif/Props/C92.lean`).

### C93 RSA encryption through the OpenSSL engine uses what was asked for, can be undone and leaves nothing behind - partial

the traces and invariant of C92; a second invariant equates the memory held with the sum over living contexts; OpenSSL's encryption and SecApi's decryption are parameters of which the round trip assumes only that they are inverse for equal schemes

Result: Violated: other paddings are decrypted as PKCS #1 v1.5 (C93_violated_padding); OAEP without a named MGF1 digest takes SHA-1 instead of the digest of OAEP (C93_violated_mgf1); a second label leaks the first (C93_violated_label), a failing copy leaks its data (C93_violated_copy), an unsupported decryption leaks its cipher context (C93_violated_cipher). The partial theorems exclude just these cases; C93_roundtrip holds in full.

Theorems: `C93_encrypt_partial`, `C93_decrypt_partial`, `C93_roundtrip`, `C93_released_partial`, `C93_violated_padding`, `C93_violated_mgf1`, `C93_violated_label`, `C93_violated_copy`, `C93_violated_cipher` (`Verif/Props/C93.lean`).

### C94 A key loaded with the OpenSSL engine is the key asked for, and NULL stands for failure - partial

EVP_PKEYs, key structures, the numbers in them and references to the engine are counted; by induction over operations the counts are sums over the keys the application has; loading is analysed for every pattern of failing calls

Result: Violated: when a call inside fails, the application gets a key with the public part only (C94_violated_public), an empty one, leaking the structure (C94_violated_empty), or one without the engine (C94_violated_engine) instead of NULL; before OpenSSL 1.1 loading a symmetric key follows NULL (C94_violated_old). C94_loaded, C94_stays and C94_never_another hold in full (key structures of at most 512 bytes assumed), the partial theorems exclude these failures.

Theorems: `C94_loaded`, `C94_loaded_symmetric_partial`, `C94_stays`, `C94_never_another`, `C94_null_partial`, `C94_released_partial`, `C94_violated_public`, `C94_violated_empty`, `C94_violated_engine`, `C94_violated_old` (`Verif/Props/C94.lean`).

### C95 Shared secrets derived through the OpenSSL engine are those of the key loaded and the peer - partial

the world of C94 with the state of SecApi as a parameter that may change arbitrarily between operations; deriving is compared with one exchange of SecApi; an invariant shows that keys with the engine have handles

Result: Violated: with an EC key eight bytes are written into a smaller buffer (C95_violated_room); C95_room_partial excludes just this. C95_secret, C95_refused and C95_handle hold in full.

Theorems: `C95_secret`, `C95_refused`, `C95_room_partial`, `C95_handle`, `C95_violated_room` (`Verif/Props/C95.lean`).

### C96 What is derived from the root keys is derived from the keys in the key store - partial

load_pkcs12_secret_key, get_root_key and get_common_root_key with their static variables; a key store is described by DER; by induction over the bags what is read is the first entry of its kind, by induction over requests the statics hold what the first file gave

Result: Violated: with the common root key first the device's is not found (C96_violated_order); after a refusal the next request is answered with the other key (C96_violated_second, C96_violated_second_common); so it is with keys in two safes (C96_violated_safes); names that begin commonroot or are too long are taken for it (C96_violated_beginning, C96_violated_long_name); a key of 32 bytes overruns the buffer (C96_violated_long_key); an unknown safe has bags released twice (C96_violated_freed); a key that cannot be decrypted counts as loaded (C96_violated_undecryptable). The partial theorems are for key stores with both keys in one safe, in the order that can be read.

Theorems: `C96_read_partial`, `C96_unreadable_partial`, `C96_derived_partial`, `C96_stays_partial`, `C96_violated_order`, `C96_violated_second`, `C96_violated_second_common`, `C96_violated_safes`, `C96_violated_beginning`, `C96_violated_long_name`, `C96_violated_long_key`, `C96_violated_freed`, `C96_violated_undecryptable` (`Verif/Props/C96.lean`).

### C97 The device ID is the number in the name of the device's key, and stays so - partial

the conversion is compared with what hexadecimal digits write, by induction over the digits; the trace theorem of C96 for the device ID

Result: Violated: without a key store the ID is 0 with the status OK (C97_violated_none); a name that is no number is refused once, and then its key is used and the ID is 0 (C97_violated_name). C97_number, C97_distinct and C97_fits hold in full; the trace theorems are for key stores as in C96.

Theorems: `C97_number`, `C97_distinct`, `C97_fits`, `C97_id_partial`, `C97_stays_partial`, `C97_violated_none`, `C97_violated_name` (`Verif/Props/C97.lean`).

### C98 The octets taken out of a secret bag are those of its secret value - partial

find_asn1_item_length and the search for the two A0 tags, with reads outside the bytes and overflowing lengths as a distinct outcome; DER elements are described by a relation, and the walk is followed over it; the bound on the loop is shown not to matter

Result: Violated: octets that are no encrypted key are passed on as NULL to PKCS8_decrypt (C98_violated_null). C98_found, C98_refused, C98_inside and C98_turns hold in full.

Theorems: `C98_found`, `C98_refused`, `C98_inside`, `C98_turns`, `C98_violated_null` (`Verif/Props/C98.lean`).

### C99 Provisioning keeps no key in SecApi and is OK only if every key is genuine - partial

the client's checks, the command and the imports over the modelled store and container; equality of what two stores hold is defined by itself, add and remove are followed by their specifications; genuineness is that of C60

Result: Violated: if the command cannot be allocated, it is read through NULL (C99_violated_null); a structure shorter than its kind has the TA read behind it (C99_violated_short); parameters that say they are longer than 624 bytes overrun the TA's copy (C99_violated_parameters). The partial theorems leave out these three; tags can be short as in C60. C99_refused holds in full.

Theorems: `C99_refused`, `C99_nothing_kept_partial`, `C99_genuine_partial`, `C99_accepted_partial`, `C99_violated_null`, `C99_violated_short`, `C99_violated_parameters` (`Verif/Props/C99.lean`).

### C100 Random data is random throughout and is given once - partial

rand_bytes over a generator that is a stream, with the conversion of the length to int and the test of the result; by induction over requests the pieces are successive parts of the stream

Result: Violated: of a buffer of 4 GiB and n bytes only n are filled, with OK (C100_violated_long); 2 to 4 GiB overrun with OpenSSL 1.1 (C100_violated_overrun); a generator that answers "not supported" (-1) is taken for success, and buffers and keys are what was in memory (C100_violated_unsupported). The partial theorem is for buffers below 2 GiB and generators that answer 1 or 0; C100_disjoint holds in full.

Theorems: `C100_random_partial`, `C100_disjoint`, `C100_violated_long`, `C100_violated_overrun`, `C100_violated_unsupported` (`Verif/Props/C100.lean`).

### C101 Two sides that exchange public keys get the same secret - proved

Model/Agree.lean models OpenSSL's part of the three calls: Diffie-Hellman with numbers, curves with a parameter multiplication that commutes, encodings that can be decoded. A structure `Side` records one side's calls with arbitrary histories of the key table between them; the theorems combine two sides.

Theorems: `C101_group`, `C101_dh`, `C101_ecdh`, `C101_netflix` (`Verif/Props/C101.lean`).

### C102 Signatures verify with the public key of the key that made them - partial

Model/Asym.lean models OpenSSL's part of the signing functions: a context whose settings (padding, digest, MGF1 digest, salt) are set one after the other, and operations as parameters whose signatures are assumed to verify; the checker is separate from the model. The theorem combines it with the call that gives the public key and the history of the key table.

Result: RSA-PSS with a precomputed digest of another length gives OK and no signature, for every key (C102_violated_pss); the theorem is about what is written to the buffer.

Theorems: `C102_verifies_partial`, `C102_signs`, `C102_violated_pss` (`Verif/Props/C102.lean`).

### C103 What is encrypted with the public key of a handle is what the handle gives - proved

OpenSSL's decryption with the settings of its contexts is modelled (Model/Asym.lean) and put into the models of unwrapping and of cipher contexts. Contexts for decryption with a private key are shown to be kept by all calls that do not release them (Lemmas/CipherKeep.lean); what comes out is then compared with what an independent sender (Sender, Sealed) put in, using the group laws for ElGamal.

Theorems: `C103_unwrap`, `C103_unwraps`, `C103_decrypt` (`Verif/Props/C103.lean`).

### C104 What a TA is told does not depend on what others do in their sessions - proved

The whole TA: the tables of a session with the calls on keys, cipher contexts, MAC contexts and SVP buffers as modelled elsewhere (Model/Whole.lean), the table of sessions around them, and histories of requests. Noninterference by purging: the run without the others' calls is shown to go along with the full run, with equal session tables and equal tables of the caller. Common encryption and the calls without tables are not part of it; time, video outputs, random numbers and memory come with each call.

Theorems: `C104_purge`, `C104_secrets`, `C104_refused` (`Verif/Props/C104.lean`).

### C105 A key handle denotes one key, from the call that gives it until it is released - partial

On the whole TA of Model/Whole.lean: the effect of every call on the table of keys (which handles are new, which were free, who owns them, what stays) from the theorems on the single calls, an invariant on all tables of all sessions, and induction over the history. The book is a function of the requests and replies alone.

Result: Theorems on all histories whose calls meet `Fine`. Left out are calls known to go wrong: RSA keys whose size overflows (C52), unwrapping nothing with padding, OAEP contexts without lock or label (C38), provisioning of structures that are too short (C99), key checks of 2 GiB and more, SVP buffers over regions that wrap around the address space (C22), and checks of SVP buffers with a hash that is not as long as stated (C68).

Theorems: `C105_answered_partial`, `C105_book_partial`, `C105_stays_partial`, `C105_fresh_partial` (`Verif/Props/C105.lean`).

### C106 A MAC is that of the key the handle denoted when the context was made, and of exactly the data processed since - partial

On the whole TA of Model/Whole.lean: `Made` reads requests and replies of the history and says key and string of a context; induction over the history joins C105 (what a handle denotes), C28 (what a MAC table knows) and C104's cases of a request.

Result: Theorems on all histories whose calls meet `Fine`, the same condition as in C105: it leaves out the calls shown there to go wrong.

Theorems: `C106_mac_partial`, `C106_one` (`Verif/Props/C106.lean`).

### C107 Data is encrypted or decrypted with the key the handle denoted when the context was made, after exactly the data processed before, and written only where the caller and the key allow - partial

On the whole TA of Model/Whole.lean: `Opened` reads requests and replies of the history and says key, parameters and state of a context; Lemmas/CipherWatch says what a call does to the state of its context and that it leaves the others; induction over the history joins this with C105 (what a handle denotes) and C34 (what a call writes).

Result: Theorems on all histories whose calls meet `Fine`, the same condition as in C105, and for chunks below 2^31 bytes (C34 shows what goes wrong above). After a failed call only the operations that the library was called with are not known: the state is some state the library can reach from the one before.

Theorems: `C107_process_partial`, `C107_one` (`Verif/Props/C107.lean`).

### C108 An SVP handle denotes the region with which it was made, for the session that made it, until it is released; nothing is read or written outside of it - partial

On the whole TA of Model/Whole.lean: `regions` is computed from requests and replies alone. Invariant by induction over the history: the tables of all sessions hold exactly what `regions` says, every buffer has memory and no call holds a reference (Lemmas/WholeSvp; added to the invariant of C105). With it C21, C68 and C107 become statements about histories.

Result: Theorems on all histories whose calls meet `Fine`, the same condition as in C105; in particular no buffer is made over a region that wraps around the address space (C22 shows that the TA accepts it and what follows). The contents after a copy are stated for regions that do not overlap (C21).

Theorems: `C108_handles_partial`, `C108_write_partial`, `C108_copy_partial`, `C108_check_partial`, `C108_process_partial` (`Verif/Props/C108.lean`).

### C109 Samples in common encryption are decrypted with the key which the handle denoted when their context was made, or not at all - partial

Model/WholeCenc.lean joins the model of common encryption (C23-C26) with the session's table of cipher contexts and is part of Model/Whole.lean. `cencCall_rel`: any relation kept by the calls of the library holds between the contexts before and after, hence the invariants of C105 and C107 hold with samples as well. That the model's AES (`ctrOps`, `cbcOps`) may be replaced by a library that behaves like it after its IV is set (`DecLib`) is proved by a simulation (Lemmas/CencSim); with it C25 gives the content, and `Opened` of C107 the key.

Result: Theorems on all histories whose calls meet `Fine`, the same condition as in C105, which now excludes patterns that never end (`C25_violated_hang`). What is written is stated for samples of less than 2^31 bytes that share no buffer with another sample of the call, with ranges as in C23: the others are not decrypted correctly, or are placed elsewhere than checked (violations proved in C23, C24, C25, C26). What is checked is proved for all samples.

Theorems: `C109_checked_partial`, `C109_content_partial` (`Verif/Props/C109.lean`).

### C110 No chain of keys made from a key gains an output that the key does not allow - partial

`Line` (Props/C110) is an inductive relation over the histories of Model/Whole.lean: the key a handle denotes comes from a first key by the replies the callers got. The theorem is by induction over it: each call that makes a key (unwrap, the five derivations, DH, ECDH, the Netflix exchange, TypeJ) gives the child `restrictChildRights` of the rights of the key its handle denotes (Lemmas/Lineage, from the theorems of C29-C31, C36, C45, C53), whose output flags are masked by the parent's; an export opens only to the rights exported (C40). With `Opened` of C107 and C109 this gives where data is written.

Result: Theorems on all histories whose calls meet `Fine`, the same condition as in C105, and on chains whose parents are of the kind that binds: another use than unwrapping or no flags for children. A key for unwrapping only with flags for children passes on outputs it does not have: `C110_violated` gives the history (C11 has the decision alone). Of the calls of Netflix the chain goes through the key whose rights are passed on (C46 shows that the other key's are not).

Theorems: `C110_outputs_partial`, `C110_content_partial`, `C110_samples_partial`, `C110_violated` (`Verif/Props/C110.lean`).

### C111 Applications are told the name, the version and their UUID, and nothing else is written - partial

Model/Info.lean has the functions of the TA; `exec` of Model/ClientRet.lean (C63, C70) carries the call and the answer through the client library and the command handler. The memory after the call is computed for all inputs (`name_ok`).

Result: The name is stored in every buffer that is long enough and the two calls by which applications usually get it work (`C111_twice`). But with a longer buffer the length is not set (`C111_violated`, in every build), and with shared memory the library overwrites the whole buffer with what is in the shared block (`C111_violated_rest`); hence this function breaks the contract `Fits` of C70 (`C111_violated_contract`). The shared block is modelled as zeros.

Theorems: `C111_length`, `C111_short`, `C111_name_partial`, `C111_twice`, `C111_version`, `C111_violated`, `C111_violated_rest`, `C111_violated_contract` (`Verif/Props/C111.lean`).

### C112 Whatever was done before, a call that uses a key and succeeds is one that the key allows to this caller now - partial

For each call: it succeeds only if `keyStoreUnwrap` gave the key and the flag was there (`..._took`, by cases over the model). With the invariant of C105 over the history and C08 for the decision of `keyStoreUnwrap` this gives the statement, in terms of `Denotes` (C105), `MayUse` (C08) and the table `uses` that says which flag each call needs.

Result: For histories of calls `Cmd.Fine` (C105: calls excluded there may have undefined behaviour). No usage flag is asked for by sa_key_digest, sa_key_get_public and sa_crypto_mac_process_key, and neither callers, time nor outputs by sa_key_export and sa_key_header.

Theorems: `C112_allowed_partial`, `C112_refused_partial`, `C112_exported_partial` (`Verif/Props/C112.lean`).

### C113 Threads that look up digests in the engine are given the digest asked for, and nothing is lost - partial

Model/EngineDigest.lean is a transition system: each thread is at one of the steps of `sa_get_engine_digests`. An invariant (`Inv`) holds over all interleavings with memory; a stronger one (`One`) if no call begins while another is going on, from which follows the property in full (`Fine`). The three ways in which it fails are concrete executions.

Result: Proved for all interleavings as long as there is memory: every answer is the digest asked for, and lookups end (`C113_right_partial`, `C113_answered_partial`); the full property if lookups do not overlap (`C113_serial_partial`). Violated: the variables are set without a lock, so that two threads both make a digest and one is never freed (`C113_violated_leak`), or one is given it before its size is set (`C113_violated_size`); if EVP_MD_meth_dup fails its NULL is used (`C113_violated_memory`). Each step is atomic in the model, while in C the unsynchronised accesses are undefined.

Theorems: `C113_right_partial`, `C113_serial_partial`, `C113_same`, `C113_again_partial`, `C113_answered_partial`, `C113_violated_memory`, `C113_violated_leak`, `C113_violated_size`, `C113_violated` (`Verif/Props/C113.lean`).

### C114 A key that is kept, or exported and imported again any number of times, is one key for everybody who sees it - partial

`Copy` relates places (a history, a session, a caller, a handle) by the requests and replies only. What a slot holds in its wrapping is kept by every step of the whole TA (from C105) and taken over by an import of an export (as in C13, but with arbitrary failures outside); induction over `Copy` gives one key for all copies. Verification then follows from C102's lemmas on signing.

Result: Proved for histories of calls `Fine` in the sense of C105 (sizes that occur; primitives of the device that work) and, for signatures, for what is written to the buffer (C102: salts of PSS over 255 are the exception there). `C114_same_partial` (one key), `C114_header_partial` (one header), `C114_verifies_partial` (one public key).

Theorems: `C114_same_partial`, `C114_header_partial`, `C114_verifies_partial` (`Verif/Props/C114.lean`).

### C115 A key that somebody encrypts for a handle arrives unchanged, wherever copies of the handle's key are - partial

From C114 (all copies of the unwrapping key are one key, of which the public key is told) and C103's lemmas (what is encrypted with the public key is what the key decrypts); the new key is followed from the slot into which it is put, so that C114 applies to it again.

Result: Proved for histories of calls `Fine` in the sense of C105; the header must agree with the public key on the curve (as in C103, for keys made or imported by the TA). `C115_arrives_partial`.

Theorems: `C115_arrives_partial` (`Verif/Props/C115.lean`).

### C116 What is encrypted in pieces with a key is decrypted, in any other pieces, with any copy of the key - partial

`Stream` lists by the requests and replies alone the pieces that went into a context and came out. By induction over it, with C107 (what a call gives is what the library gives in the state of the context) the pieces are one run of the library's context made from the key of the place; by C114 both contexts are made from one key. That the library's decryption undoes its encryption is the assumption `Undone`.

Result: Proved for histories of calls `Fine` in the sense of C105 and `PrivOk` in that of C107, for the algorithms without padding (AES-ECB, AES-CBC of whole blocks, AES-CTR, AES-GCM, ChaCha20 and ChaCha20-Poly1305), and for pieces of less than 2^31 bytes. `C116_back_partial`.

Theorems: `C116_back_partial` (`Verif/Props/C116.lean`).

### C117 A MAC is the same with every copy of a key, however the message was cut - partial

`Fed` lists by the requests and replies alone what was processed in a context, `Alike` says when two such lists are the same message. Induction over `Fed` shows that what C106 knows about the context (key and message) is what the pieces mean; C114 makes the copies one key.

Result: Proved for histories of calls `Fine` in the sense of C105 (sizes that occur; primitives of the device that work). `C117_same_partial`.

Theorems: `C117_same_partial` (`Verif/Props/C117.lean`).

### C118 Keys derived in the same way from copies of a key are one key - partial

`Recipe` is a derivation without its handle, `Recipe.bytes` what the standards give (the specifications of C29-C31). It is shown what is in the slot of a derived key in its wrapping; C114 makes the copies of the first key one key, and carries the derived key to all its copies.

Result: Proved for histories of calls `Fine` in the sense of C105 (sizes that occur; primitives of the device that work). `C118_same_partial`, `C118_netflix_partial`.

Theorems: `C118_same_partial`, `C118_netflix_partial` (`Verif/Props/C118.lean`).

