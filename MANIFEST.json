{
 "claims": [
  {
   "property": "C01",
   "status": "proved",
   "theorems": [
    "Sa.C01.C01_handles_unique",
    "Sa.C01.C01_bitfield_is_live_set",
    "Sa.C01.C01_add_succeeds_iff"
   ],
   "note": ""
  },
  {
   "property": "C02",
   "status": "proved",
   "theorems": [
    "Sa.C02.C02_refines_map",
    "Sa.C02.C02_other_handles_unaffected"
   ],
   "note": ""
  },
  {
   "property": "C03",
   "status": "proved",
   "theorems": [
    "Sa.C03.C03_foreign_call_rejected",
    "Sa.C03.C03_only_own_objects"
   ],
   "note": ""
  },
  {
   "property": "C04",
   "status": "proved",
   "theorems": [
    "Sa.C04.C04_referenced_not_destroyed",
    "Sa.C04.C04_step_never_destroys_referenced",
    "Sa.C04.C04_release_succeeds"
   ],
   "note": ""
  },
  {
   "property": "C05",
   "status": "proved",
   "theorems": [
    "Sa.C05.C05_destroyed_at_most_once",
    "Sa.C05.C05_single_destroyer",
    "Sa.C05.C05_all_destroyed_after_shutdown"
   ],
   "note": ""
  },
  {
   "property": "C06",
   "status": "partial",
   "theorems": [
    "Sa.C06.C06_shutdown_race_violated",
    "Sa.C06.C06_after_free_only_partial",
    "Sa.C06.C06_session_not_closed_under_caller_partial",
    "Sa.C06.C06_no_race_without_shutdown_partial"
   ],
   "note": "Violated for a table that is itself shut down (object_store.c:242 vs 247): C06_shutdown_race_violated is a concrete schedule. Proved: session tables are never closed under a caller, no use after free before a shutdown starts, and exactly which accesses can still happen after the free."
  },
  {
   "property": "C07",
   "status": "proved",
   "theorems": [
    "Sa.C07.C07_sessions_isolated",
    "Sa.C07.C07_no_use_after_free",
    "Sa.C07.C07_noninterference",
    "Sa.C07.C07_tables_independent"
   ],
   "note": ""
  },
  {
   "property": "C08",
   "status": "proved",
   "theorems": [
    "Sa.C08.C08_released_only_under_rights",
    "Sa.C08.C08_decision",
    "Sa.C08.C08_foreign_handle"
   ],
   "note": ""
  },
  {
   "property": "C09",
   "status": "proved",
   "theorems": [
    "Sa.C09.C09_allowed_iff_member",
    "Sa.C09.C09_position_irrelevant"
   ],
   "note": ""
  },
  {
   "property": "C10",
   "status": "proved",
   "theorems": [
    "Sa.C10.C10_output_iff",
    "Sa.C10.C10_monotone",
    "Sa.C10.C10_fewer_outputs"
   ],
   "note": ""
  },
  {
   "property": "C11",
   "status": "partial",
   "theorems": [
    "Sa.C11.C11_violated",
    "Sa.C11.C11_child_output_rights_partial",
    "Sa.C11.C11_child_flags_requested",
    "Sa.C11.C11_other_rights_kept"
   ],
   "note": "Violated for unwrap-only parents with non-zero child usage flags (stored_key.c:48-51): C11_violated. Proved for all other parents."
  },
  {
   "property": "C12",
   "status": "proved",
   "theorems": [
    "Sa.C12.C12_child_usage_limited",
    "Sa.C12.C12_otherwise_as_requested"
   ],
   "note": ""
  },
  {
   "property": "C13",
   "status": "proved",
   "theorems": [
    "Sa.C13.C13_export_import"
   ],
   "note": ""
  },
  {
   "property": "C14",
   "status": "proved",
   "theorems": [
    "Sa.C14.C14_in_bounds",
    "Sa.C14.C14_tag_checked",
    "Sa.C14.C14_tamper_evident",
    "Sa.C14.C14_mixin_covered"
   ],
   "note": ""
  },
  {
   "property": "C15",
   "status": "proved",
   "theorems": [
    "Sa.C15.C15_export_needs_cacheable",
    "Sa.C15.C15_decision"
   ],
   "note": ""
  },
  {
   "property": "C16",
   "status": "proved",
   "theorems": [
    "Sa.C16.C16_header_invariant",
    "Sa.C16.C16_created",
    "Sa.C16.C16_persists"
   ],
   "note": ""
  },
  {
   "property": "C17",
   "status": "proved",
   "theorems": [
    "Sa.C17.C17_accepts_iff",
    "Sa.C17.C17_round_trip",
    "Sa.C17.C17_apply_refuses"
   ],
   "note": ""
  },
  {
   "property": "C18",
   "status": "proved",
   "theorems": [
    "Sa.C18.C18_memcmp_constant",
    "Sa.C18.C18_uuid"
   ],
   "note": ""
  },
  {
   "property": "C19",
   "status": "partial",
   "theorems": [
    "Sa.C19.C19_partial",
    "Sa.C19.C19_injective",
    "Sa.C19.C19_canonical",
    "Sa.C19.C19_in_bounds",
    "Sa.C19.C19_violated_no_hyphens",
    "Sa.C19.C19_violated_short"
   ],
   "note": "Violated for texts with hyphens missing or too short (callers ignore the result / no hyphen is required): C19_violated_no_hyphens, C19_violated_short. Proved: every canonical text gives exactly its 16 bytes, the conversion stays in bounds and distinct canonical texts give distinct identifiers."
  },
  {
   "property": "C20",
   "status": "proved",
   "theorems": [
    "Sa.C20.C20_clear",
    "Sa.C20.C20_svp"
   ],
   "note": ""
  },
  {
   "property": "C21",
   "status": "partial",
   "theorems": [
    "Sa.C21.C21_write",
    "Sa.C21.C21_copy_partial",
    "Sa.C21.C21_copy_violated"
   ],
   "note": "Write proved completely. Copy between buffers sharing memory calls memcpy with overlapping ranges (C21_copy_violated); everything else about copy is proved (C21_copy_partial)."
  },
  {
   "property": "C22",
   "status": "partial",
   "theorems": [
    "Sa.C22.C22_partial",
    "Sa.C22.C22_violated",
    "Sa.C22.C22_violated_release",
    "Sa.C22.C22_violated_check"
   ],
   "note": "Violated: creating a buffer over a wrapping region reports success (svp.c returns an error code as bool). Proved: no buffer over an invalid region ever exists; valid regions give usable buffers."
  },
  {
   "property": "C23",
   "status": "partial",
   "theorems": [
    "Sa.C23.C23_partial",
    "Sa.C23.C23_whole_blocks",
    "Sa.C23.C23_violated_short",
    "Sa.C23.C23_violated_carry"
   ],
   "note": "Violated when a protected range ends before the block begun by earlier ranges (cenc.c:51 underflow, C23_violated_short) and when a range starting inside a block passes the counter wrap (cenc.c:84, C23_violated_carry). Proved for all other samples below 2^31 bytes, in particular whole-block ranges and patterns, counter wraps included."
  },
  {
   "property": "C24",
   "status": "partial",
   "theorems": [
    "Sa.C24.C24_accepted",
    "Sa.C24.C24_rejected",
    "Sa.C24.C24_partial",
    "Sa.C24.C24_violated"
   ],
   "note": "First half proved. A later sample can be rejected after an earlier one was written if they share an sa_buffer (C24_violated); proved without sharing."
  },
  {
   "property": "C25",
   "status": "partial",
   "theorems": [
    "Sa.C25.C25_clear_bytes",
    "Sa.C25.C25_partial_ctr",
    "Sa.C25.C25_partial_cbc",
    "Sa.C25.C25_partial_pattern",
    "Sa.C25.C25_offsets",
    "Sa.C25.C25_reported_partial",
    "Sa.C25.C25_violated_failure",
    "Sa.C25.C25_violated_length",
    "Sa.C25.C25_violated_hang"
   ],
   "note": "Violated: pattern failures overwritten by the next subsample, lengths of 2^32 converted to int, endless loop for wrapping patterns. Proved: content of the output for CTR, CBC and CBC patterns (samples below 2^31 bytes), offsets for every cipher, reporting of failures without a pattern."
  },
  {
   "property": "C26",
   "status": "partial",
   "theorems": [
    "Sa.C26.C26_check",
    "Sa.C26.C26_partial",
    "Sa.C26.C26_violated"
   ],
   "note": "The check itself is proved (C26_check); offsets moved by an earlier sample of the same call defeat it (C26_violated); proved without shared buffers."
  },
  {
   "property": "C27",
   "status": "proved",
   "theorems": [
    "Sa.C27.C27_finished",
    "Sa.C27.C27_size_query"
   ],
   "note": ""
  },
  {
   "property": "C28",
   "status": "proved",
   "theorems": [
    "Sa.C28.C28_chunks",
    "Sa.C28.C28_obtained"
   ],
   "note": ""
  },
  {
   "property": "C29",
   "status": "proved",
   "theorems": [
    "Sa.C29.C29_hkdf",
    "Sa.C29.C29_supported"
   ],
   "note": ""
  },
  {
   "property": "C30",
   "status": "proved",
   "theorems": [
    "Sa.C30.C30_concat",
    "Sa.C30.C30_x963",
    "Sa.C30.C30_supported"
   ],
   "note": ""
  },
  {
   "property": "C31",
   "status": "proved",
   "theorems": [
    "Sa.C31.C31_cmac",
    "Sa.C31.C31_rejected",
    "Sa.C31.C31_supported"
   ],
   "note": ""
  },
  {
   "property": "C32",
   "status": "proved",
   "theorems": [
    "Sa.C32.C32_derive",
    "Sa.C32.C32_exchange",
    "Sa.C32.C32_netflix",
    "Sa.C32.C32_unwrap",
    "Sa.C32.C32_cipher",
    "Sa.C32.C32_sign"
   ],
   "note": ""
  },
  {
   "property": "C33",
   "status": "partial",
   "theorems": [
    "Sa.C33.C33_returned",
    "Sa.C33.C33_history_partial",
    "Sa.C33.C33_returned_partial",
    "Sa.C33.C33_violated_cipher",
    "Sa.C33.C33_violated_svp"
   ],
   "note": "Violated by sa_crypto_cipher_process and sa_crypto_cipher_process_last with an unknown buffer type and by sa_svp_buffer_release when the memory cannot be taken (return statements inside the block). Proved for every path of every other entry point, over histories of calls, and for these three on all other paths. Paths are over-approximated by an oracle."
  },
  {
   "property": "C34",
   "status": "partial",
   "theorems": [
    "Sa.C34.C34_process_partial",
    "Sa.C34.C34_violated_length",
    "Sa.C34.C34_violated_twice"
   ],
   "note": "Violated for lengths of 2^31 bytes and more (C34_violated_length) and, with an OpenSSL 1.1.1 that keeps the rest after EncryptFinal, for two final calls (C34_violated_twice). Everything is proved for calls below 2^31 bytes with the final call of OpenSSL 3."
  },
  {
   "property": "C35",
   "status": "partial",
   "theorems": [
    "Sa.C35.C35_roundtrip_partial",
    "Sa.C35.C35_violated"
   ],
   "note": "Violated for AES-CTR and ChaCha20 with a final chunk of more than 16 bytes (C35_violated). Proved for all other algorithms and for those with final chunks up to 16 bytes, over chunk sequences; assumes that OpenSSL decryption inverts encryption (CipherPrim.Inverse)."
  },
  {
   "property": "C36",
   "status": "partial",
   "theorems": [
    "Sa.C36.C36_init_partial",
    "Sa.C36.C36_owned_partial",
    "Sa.C36.C36_violated"
   ],
   "note": "Violated for RSA-OAEP when the new context cannot be locked or its label not be allocated: a context with a freed key stays in the table (C36_violated). Proved otherwise, over all histories."
  },
  {
   "property": "C37",
   "status": "partial",
   "theorems": [
    "Sa.C37.C37_commands",
    "Sa.C37.C37_partial",
    "Sa.C37.C37_violated_derive",
    "Sa.C37.C37_violated_import",
    "Sa.C37.C37_violated_provision",
    "Sa.C37.C37_violated_process",
    "Sa.C37.C37_violated_header",
    "Sa.C37.C37_violated_key_check"
   ],
   "note": "Violated by key derivation, SoC import, provisioning, cipher processing with SVP buffers, key header and the SVP key check: each C37_violated theorem gives parameters for which an access is out of bounds or through NULL. Proved for the 27 other commands and unknown numbers with any parameters, and for these commands outside the named cases (provisioning: not at all)."
  },
  {
   "property": "C38",
   "status": "partial",
   "theorems": [
    "Sa.C38.C38_partial",
    "Sa.C38.C38_exactly_partial",
    "Sa.C38.C38_violated"
   ],
   "note": "Violated: 2^60+1 subsamples with a one-entry table are accepted (C38_violated). Proved for fewer than 2^60, and that this bound is exact."
  },
  {
   "property": "C39",
   "status": "proved",
   "theorems": [
    "Sa.C39.C39",
    "Sa.C39.C39_order"
   ],
   "note": ""
  },
  {
   "property": "C40",
   "status": "partial",
   "theorems": [
    "Sa.Kc.C40.C40_authentic",
    "Sa.Kc.C40.C40_heap_partial",
    "Sa.Kc.C40.C40_unauthentic_partial",
    "Sa.Kc.C40.C40_violated_parts",
    "Sa.Kc.C40.C40_violated_fields",
    "Sa.Kc.C40.C40_violated_reads"
   ],
   "note": "Authenticity and the rights of the helper keys are proved in full (C40_authentic). The memory part is false: a part that is not base64 is freed twice before the MAC is checked (C40_violated_parts); authentic containers with a bad IV or wrapped key are freed twice (C40_violated_fields), unset length, NULL and reads before a block (C40_violated_reads). C40_heap_partial gives conditions under which every block is freed exactly once; C40_unauthentic_partial shows that without the MAC key only the first of these can happen."
  },
  {
   "property": "C41",
   "status": "proved",
   "theorems": [
    "Sa.C41.C41_parse",
    "Sa.C41.C41_find",
    "Sa.C41.C41_document"
   ],
   "note": ""
  },
  {
   "property": "C42",
   "status": "partial",
   "theorems": [
    "Sa.Kc.C42.C42_names",
    "Sa.Kc.C42.C42_partial",
    "Sa.Kc.C42.C42_violated",
    "Sa.Kc.C42.C42_overread",
    "Sa.Kc.C42.C42_reads"
   ],
   "note": "Violated: any non-empty prefix of a documented name is accepted (C42_violated) and names longer than 8 bytes make the comparison read past literals (C42_overread). Proved: documented names get their type and size, an accepted string without zero bytes of at most 8 bytes is a prefix of a documented name and gets that type and size, and such strings never read past literals."
  },
  {
   "property": "C43",
   "status": "partial",
   "theorems": [
    "Sa.Kc.C43.C43_partial",
    "Sa.Kc.C43.C43_violated_iv",
    "Sa.Kc.C43.C43_violated_ids",
    "Sa.Kc.C43.C43_violated_aad",
    "Sa.Kc.C43.C43_violated_ladder"
   ],
   "note": "Violated before authentication for the IV, the ladder inputs, the TA identifiers and the authenticated data (C43_violated_*). Proved when decoded IV and ladder inputs fit, at most 32 identifiers and a key type of at most 72 bytes."
  },
  {
   "property": "C44",
   "status": "partial",
   "theorems": [
    "Sa.C44.C44_tag_partial",
    "Sa.C44.C44_violated"
   ],
   "note": "Violated: AES-GCM unwrap accepts a tag of any length from 1 to 16 bytes. Proved for tags of 16 bytes and ChaCha20-Poly1305; the SoC container is covered by C43."
  },
  {
   "property": "C45",
   "status": "proved",
   "theorems": [
    "Sa.C45.C45_all_or_nothing",
    "Sa.C45.C45_ta_outputs_stale"
   ],
   "note": ""
  },
  {
   "property": "C46",
   "status": "partial",
   "theorems": [
    "Sa.C46.C46_exchange_partial",
    "Sa.C46.C46_derive_partial",
    "Sa.C46.C46_exchange_violated"
   ],
   "note": "Violated by the Netflix exchange: the keys made are not restricted by the DH private key (C46_exchange_violated). Proved: restricted by Kw, and for the derivation by Kenc."
  },
  {
   "property": "C47",
   "status": "partial",
   "theorems": [
    "Sa.C47.C47_partial",
    "Sa.C47.C47_monotone",
    "Sa.C47.C47_violated"
   ],
   "note": "Violated: one second before 1970 is accepted and becomes 2^64-1 (C47_violated). Proved for every other real date up to year 9999 in canonical form, for any strptime that reads the canonical form."
  },
  {
   "property": "C48",
   "status": "proved",
   "theorems": [
    "Sa.C48.C48_elgamal",
    "Sa.C48.C48_rejected"
   ],
   "note": ""
  },
  {
   "property": "C49",
   "status": "proved",
   "theorems": [
    "Sa.C49.C49_exact"
   ],
   "note": ""
  },
  {
   "property": "C50",
   "status": "partial",
   "theorems": [
    "Sa.C50.C50_cipher_partial",
    "Sa.C50.C50_cenc_partial",
    "Sa.C50.C50_mac_partial",
    "Sa.C50.C50_violated"
   ],
   "note": "Violated by MAC contexts, which check the key only when they are made: C50_violated computes a MAC after the key has expired. Proved for every cipher and CENC call, and for making MAC contexts."
  },
  {
   "property": "C51",
   "status": "proved",
   "theorems": [
    "Sa.C51.C51_exclusive",
    "Sa.C51.C51_alive",
    "Sa.C51.C51_waits"
   ],
   "note": ""
  },
  {
   "property": "C52",
   "status": "partial",
   "theorems": [
    "Sa.C52.C52_generate_partial",
    "Sa.C52.C52_import",
    "Sa.C52.C52_null",
    "Sa.C52.C52_generate_violated"
   ],
   "note": "Violated: an RSA modulus length whose bit count overflows int is not refused before the overflow (rsa.c:619). Everything else about generation and import of symmetric, EC, RSA and DH keys is proved."
  },
  {
   "property": "C53",
   "status": "proved",
   "theorems": [
    "Sa.C53.C53_unwrap",
    "Sa.C53.C53_complete"
   ],
   "note": ""
  },
  {
   "property": "C54",
   "status": "partial",
   "theorems": [
    "Sa.C54.C54_in_bounds_partial",
    "Sa.C54.C54_violated"
   ],
   "note": "Violated: PKCS7 algorithms with an empty input read the byte before the buffer. Proved for all other inputs."
  },
  {
   "property": "C55",
   "status": "partial",
   "theorems": [
    "Sa.C55.C55_signature_partial",
    "Sa.C55.C55_violated"
   ],
   "note": "Violated by RSA-PSS: rsa_sign_pss starts with status OK, so a failure inside OpenSSL is reported as success with nothing written (C55_violated). Proved for every other case."
  },
  {
   "property": "C56",
   "status": "partial",
   "theorems": [
    "Sa.C56.C56_progress_partial",
    "Sa.C56.C56_violated"
   ],
   "note": "Violated: two sa_svp_buffer_copy calls with input and output exchanged deadlock, because both lock the output first (C56_violated). Proved for calls that lock objects in a common order (C56_progress_partial)."
  },
  {
   "property": "C57",
   "status": "partial",
   "theorems": [
    "Sa.C57.C57_once_partial",
    "Sa.C57.C57_violated"
   ],
   "note": "Violated: of two concurrent releases one returns OK with the buffer still locked and referenced, and the other waits forever (C57_violated). Proved: the memory is handed out at most once."
  },
  {
   "property": "C58",
   "status": "partial",
   "theorems": [
    "Sa.C58.C58_commands",
    "Sa.C58.C58_partial",
    "Sa.C58.C58_violated_process",
    "Sa.C58.C58_violated_cenc"
   ],
   "note": "Violated by cipher processing and common encryption with clear output in a parameter declared as input. Proved for all other commands, and for these in all other cases."
  },
  {
   "property": "C59",
   "status": "partial",
   "theorems": [
    "Sa.Kc.C59.C59_partial",
    "Sa.Kc.C59.C59_fills",
    "Sa.Kc.C59.C59_violated_double_free",
    "Sa.Kc.C59.C59_violated_unset",
    "Sa.Kc.C59.C59_violated_ladder",
    "Sa.Kc.C59.C59_violated_literal"
   ],
   "note": "Violated before authentication: double free, unset lengths, NULL reads and reads past literals (C59_violated_*). Proved for containers whose fields have the expected types and lengths, accepted or not; that decoded text fits its heap block is proved for all containers."
  },
  {
   "property": "C60",
   "status": "partial",
   "theorems": [
    "Sa.Kc.C60.C60_binding",
    "Sa.Kc.C60.C60_partial",
    "Sa.Kc.C60.C60_violated"
   ],
   "note": "A tag of 1 to 15 bytes is accepted if it is a prefix of the true tag (C60_violated). Proved: an accepted container has a non-empty prefix of the GCM tag over data that determines all it says (C60_partial, C60_binding); key types with a zero byte are excluded from the latter."
  },
  {
   "property": "C61",
   "status": "partial",
   "theorems": [
    "Sa.Kc.C61.C61_typej_partial",
    "Sa.Kc.C61.C61_typej_store_partial",
    "Sa.Kc.C61.C61_soc_partial",
    "Sa.Kc.C61.C61_soc_store_partial",
    "Sa.Kc.C61.C61_violated_malformed",
    "Sa.Kc.C61.C61_violated_empty",
    "Sa.Kc.C61.C61_violated_no_list"
   ],
   "note": "Violated: malformed texts entitle other TAs because the result of the conversion is ignored (C61_violated_malformed); an SoC container with an empty list or a single text instead of a list is for every TA (C61_violated_empty, C61_violated_no_list). Proved for absent lists and lists of canonical texts, in the parsers and in the store."
  },
  {
   "property": "C62",
   "status": "partial",
   "theorems": [
    "Sa.Kc.C62.C62_partial",
    "Sa.Kc.C62.C62_violated_usage"
   ],
   "note": "Violated: a usage that is not a JSON integer is read as 0, data and key (C62_violated_usage). Proved for all containers whose usage is an integer; dates in the canonical form."
  },
  {
   "property": "C63",
   "status": "partial",
   "theorems": [
    "Sa.C63.C63_arrives_partial",
    "Sa.C63.C63_unaltered_partial",
    "Sa.C63.C63_violated_unwrap",
    "Sa.C63.C63_violated_unwrap_sent",
    "Sa.C63.C63_violated_write"
   ],
   "note": "Violated twice: unwrapping with AES-GCM or ChaCha20-Poly1305 and no additional data is always refused (C63_violated_unwrap), and sa_svp_buffer_write with several offsets writes with copies of the first (C63_violated_write). Proved for all other calls; the only other refusals are calls without any element (Empty)."
  },
  {
   "property": "C64",
   "status": "partial",
   "theorems": [
    "Sa.C64.C64_partial",
    "Sa.C64.C64_called_partial",
    "Sa.C64.C64_violated"
   ],
   "note": "Violated by the import of an SoC container whose parameter structure states a length above 624 bytes: the library passes it on and the handler copies it into a local variable (C64_violated). Proved for all other calls; C64_called_partial excludes the calls of C63 that are refused or altered."
  },
  {
   "property": "C65",
   "status": "proved",
   "theorems": [
    "Sa.C65.C65_sign",
    "Sa.C65.C65_cipher",
    "Sa.C65.C65_update_iv",
    "Sa.C65.C65_process",
    "Sa.C65.C65_block_accepted",
    "Sa.C65.C65_mac",
    "Sa.C65.C65_mac_key",
    "Sa.C65.C65_derive",
    "Sa.C65.C65_unwrap",
    "Sa.C65.C65_dh",
    "Sa.C65.C65_ecdh",
    "Sa.C65.C65_netflix"
   ],
   "note": ""
  },
  {
   "property": "C66",
   "status": "partial",
   "theorems": [
    "Sa.Kc.C66.C66_partial",
    "Sa.Kc.C66.C66_violated"
   ],
   "note": "C66_partial: exact rights for the usages modulo 256; missing: undocumented usages such as 257 or 259 are accepted as 1 and 3 (C66_violated)."
  },
  {
   "property": "C67",
   "status": "partial",
   "theorems": [
    "Sa.C67.C67_partial",
    "Sa.C67.C67_reads",
    "Sa.C67.C67_violated",
    "Sa.C67.C67_violated_failure"
   ],
   "note": "Violated: the buffer type is not checked. For types other than clear and SVP neither the clear right is required nor the REE refused, and the handle given is used as an address: any memory of the TA can be compared (C67_violated). Allocation failures are reported as wrong values (C67_violated_failure). Proved for the two types that exist, below 2 GiB."
  },
  {
   "property": "C68",
   "status": "partial",
   "theorems": [
    "Sa.C68.C68_partial",
    "Sa.C68.C68_reads",
    "Sa.C68.C68_violated_algorithm",
    "Sa.C68.C68_violated_status"
   ],
   "note": "Violated: an unknown algorithm with hash length 2^64-1 makes the code declare an array of that size (C68_violated_algorithm); a range outside of the buffer gives INTERNAL_ERROR and the REE gets OPERATION_NOT_ALLOWED instead of the documented statuses (C68_violated_status); handles without a buffer dereference NULL (C22). The rest is proved."
  },
  {
   "property": "C69",
   "status": "partial",
   "theorems": [
    "Sa.C69.C69_digest_partial",
    "Sa.C69.C69_public_partial",
    "Sa.C69.C69_length",
    "Sa.C69.C69_violated_types",
    "Sa.C69.C69_violated_status"
   ],
   "note": "Violated: RSA and EC keys cannot be digested (C69_violated_types); too short a buffer for a digest gives INTERNAL_ERROR, the public key of a symmetric key INVALID_PARAMETER (C69_violated_status). The rest is proved."
  },
  {
   "property": "C70",
   "status": "proved",
   "theorems": [
    "Sa.C70.C70_returned",
    "Sa.C70.C70_as_meant",
    "Sa.C70.C70_refused"
   ],
   "note": "The hypotheses `Fits` are the contract of the functions of the TA (outputs fit the length given, offsets stay in the buffers). ta_sa_get_name breaks it for buffers that are longer than the name (C111). In builds without shared memory output memory may hold unverified output after a failure; that is how `Kept` states it. In the build with shared memory sa_key_header.c does not compile (a pointer is copied to a struct); the intended copy is modelled."
  },
  {
   "property": "C71",
   "status": "partial",
   "theorems": [
    "Sa.C71.C71_in_order_partial",
    "Sa.C71.C71_none",
    "Sa.C71.C71_all_partial",
    "Sa.C71.C71_violated_skipped",
    "Sa.C71.C71_violated_in_place"
   ],
   "note": "Violated in builds with shared memory: CREATE_PARAM ends with `continue`, which inside the loop goes on with the next sample; the call can succeed with a sample never processed (C71_violated_skipped). Violated if a sample has one sa_buffer for input and output: its offset moves twice (C71_violated_in_place). Proved for the rest."
  },
  {
   "property": "C72",
   "status": "partial",
   "theorems": [
    "Sa.C72.C72_clean_partial",
    "Sa.C72.C72_samples_partial",
    "Sa.C72.C72_violated_device_id",
    "Sa.C72.C72_violated_key_header",
    "Sa.C72.C72_violated_provision",
    "Sa.C72.C72_violated_samples"
   ],
   "note": "Violated by sa_get_device_id (return instead of break), by sa_key_header with shared memory (parameter never released), by sa_key_provision_ta (command read after its allocation failed) and by sa_process_common_encryption with shared memory (variables overwritten after `continue`). Proved for all other functions, and for the samples without shared memory."
  },
  {
   "property": "C73",
   "status": "partial",
   "theorems": [
    "Sa.C73.C73_one_session_partial",
    "Sa.C73.C73_null_partial",
    "Sa.C73.C73_exclusive_partial",
    "Sa.C73.C73_progress_partial",
    "Sa.C73.C73_closed_partial",
    "Sa.C73.C73_violated_mutex"
   ],
   "note": "Violated if mtx_init fails: the failure is only logged and the uninitialised mutex is locked (C73_violated_mutex). Proved otherwise, with the unsynchronised read of the session taken to be atomic."
  },
  {
   "property": "C74",
   "status": "partial",
   "theorems": [
    "Sa.C74.C74_always_partial",
    "Sa.C74.C74_alloc_partial",
    "Sa.C74.C74_free_partial",
    "Sa.C74.C74_violated"
   ],
   "note": "Violated for a handle over an invalid region, which sa_svp_buffer_create reports to have made (C22): sa_svp_buffer_free then reports success and frees a pointer from uninitialised memory (C74_violated). Proved for all histories in which buffers are made only of memory the application holds."
  },
  {
   "property": "C75",
   "status": "partial",
   "theorems": [
    "Sa.Pv.C75.C75_message_partial",
    "Sa.Pv.C75.C75_stream_partial",
    "Sa.Pv.C75.C75_cut_partial",
    "Sa.Pv.C75.C75_violated_short",
    "Sa.Pv.C75.C75_violated_reuse",
    "Sa.Pv.C75.C75_violated_status"
   ],
   "note": "Violated: of two short pieces in a row the first is lost without an error (C75_violated_short); left over bytes of an earlier message get into the next (C75_violated_reuse); an update reports success though the API refused a block (C75_violated_status). Proved for new contexts and for ways of cutting in which no piece stays within a block that was begun before; for ciphers without blocks for all ways of cutting."
  },
  {
   "property": "C76",
   "status": "partial",
   "theorems": [
    "Sa.Pv.C76.C76_accept_partial",
    "Sa.Pv.C76.C76_violated_final",
    "Sa.Pv.C76.C76_violated_aad",
    "Sa.Pv.C76.C76_violated_short"
   ],
   "note": "Violated: finishing without an output buffer succeeds and checks nothing (C76_violated_final); additional data after the first call is ignored (C76_violated_aad); tags shorter than 16 bytes are replaced by others (C76_violated_short). Proved for additional data in one call, an output buffer in the last call and 16-byte tags."
  },
  {
   "property": "C77",
   "status": "partial",
   "theorems": [
    "Sa.Pv.C77.C77_params",
    "Sa.Pv.C77.C77_derive_partial",
    "Sa.Pv.C77.C77_cmac_partial",
    "Sa.Pv.C77.C77_violated_blocks",
    "Sa.Pv.C77.C77_violated_long",
    "Sa.Pv.C77.C77_violated_length",
    "Sa.Pv.C77.C77_violated_memory",
    "Sa.Pv.C77.C77_violated_reset",
    "Sa.Pv.C77.C77_violated_dup",
    "Sa.Pv.C77.C77_violated_null",
    "Sa.Pv.C77.C77_violated_digest"
   ],
   "note": "Violated: CMAC keys of 32 bytes consist of the blocks 2 and 3 instead of 1 and 2 (C77_violated_blocks); CMAC keys of 48 and 64 bytes are refused (C77_violated_long); the length in the fixed data counts bytes (C77_violated_length); other values than 0 and 1 of use-l write behind allocated memory (C77_violated_memory); after a reset HKDF without salt is refused (C77_violated_reset); duplicates never derive a key (C77_violated_dup) and duplicating after a reset reads from NULL (C77_violated_null); SHA-512/256 and others are taken as the digest their name begins with (C77_violated_digest). Proved for the other cases, for CMAC with keys of 16 bytes."
  },
  {
   "property": "C78",
   "status": "partial",
   "theorems": [
    "Sa.Pv.C78.C78_cipher_partial",
    "Sa.Pv.C78.C78_mac_partial",
    "Sa.Pv.C78.C78_kdf_partial",
    "Sa.Pv.C78.C78_reset_partial",
    "Sa.Pv.C78.C78_violated_foreign",
    "Sa.Pv.C78.C78_violated_used",
    "Sa.Pv.C78.C78_violated_twice",
    "Sa.Pv.C78.C78_violated_lost",
    "Sa.Pv.C78.C78_violated_dup"
   ],
   "note": "Violated: an application's own key is released when another one is set (C78_violated_foreign), also when it is the same one, which is used on (C78_violated_used); a failed second initialisation releases a key twice (C78_violated_twice); imported keys of the wrong size are never released (C78_violated_lost); setting a key on a duplicated KDF context releases the key with handle 0 (C78_violated_dup). Proved for contexts that get one key, with all other operations in any number and order."
  },
  {
   "property": "C79",
   "status": "partial",
   "theorems": [
    "Sa.Pv.C79.C79_mac_partial",
    "Sa.Pv.C79.C79_obtained",
    "Sa.Pv.C79.C79_violated_digest",
    "Sa.Pv.C79.C79_violated_names",
    "Sa.Pv.C79.C79_violated_null",
    "Sa.Pv.C79.C79_violated_stale"
   ],
   "note": "Violated: HMAC with SHA-512/256 or SHA-512/224 gives that with SHA-512 (C79_violated_digest, C79_violated_names); initialising HMAC without a digest reads from NULL (C79_violated_null); after an initialisation with key bytes that are refused, the next one uses whatever key has got the handle of the released one (C79_violated_stale). Proved for all other sequences of calls."
  },
  {
   "property": "C80",
   "status": "partial",
   "theorems": [
    "Sa.Eng.C80.C80_message_partial",
    "Sa.Eng.C80.C80_aead_partial",
    "Sa.Eng.C80.C80_told_partial",
    "Sa.Eng.C80.C80_violated_told",
    "Sa.Eng.C80.C80_violated_refused",
    "Sa.Eng.C80.C80_violated_reinit",
    "Sa.Eng.C80.C80_violated_direction",
    "Sa.Eng.C80.C80_violated_memory",
    "Sa.Eng.C80.C80_violated_final",
    "Sa.Eng.C80.C80_violated_aad",
    "Sa.Eng.C80.C80_violated_untagged",
    "Sa.Eng.C80.C80_released"
   ],
   "note": "Violated: for AES-ECB, CBC, CTR and ChaCha20 data that the API refuses is reported as processed (C80_violated_told, C80_violated_refused), as -1 is not 0; once used, a context ignores new keys, IVs and directions (C80_violated_reinit); the direction of the first initialisation is kept (C80_violated_direction); key and IV are read when the first data comes, not when given (C80_violated_memory); finishing without output checks no tag (C80_violated_final); later additional data is ignored (C80_violated_aad); deciphering without a tag reads memory never set (C80_violated_untagged). Proved for new contexts; deciphering with padding is left to OpenSSL."
  },
  {
   "property": "C81",
   "status": "partial",
   "theorems": [
    "Sa.Pk.C81.C81_released_partial",
    "Sa.Pk.C81.C81_not_more",
    "Sa.Pk.C81.C81_lent",
    "Sa.Pk.C81.C81_violated_import",
    "Sa.Pk.C81.C81_violated_peer",
    "Sa.Pk.C81.C81_violated_digest",
    "Sa.Pk.C81.C81_violated_copy",
    "Sa.Pk.C81.C81_violated_no_peer",
    "Sa.Pk.C81.C81_violated_label"
   ],
   "note": "Violated: a key imported in the clear is lost when the API refuses a later question about it (C81_violated_import); setting a second peer loses the first (C81_violated_peer); an unknown digest is accepted, loses the key, and using the context follows NULL (C81_violated_digest); a copy of a context for signatures without a digest, as for Ed25519, is memory that has been freed (C81_violated_copy); key exchange without a peer follows NULL (C81_violated_no_peer); contexts for encryption without a label cannot be copied, and the attempt loses the key (C81_violated_label). C81_released_partial covers all other histories; C81_not_more and C81_lent hold for all. Single thread."
  },
  {
   "property": "C82",
   "status": "partial",
   "theorems": [
    "Sa.Psig.C82.C82_rsa_partial",
    "Sa.Psig.C82.C82_ecdsa_partial",
    "Sa.Psig.C82.C82_eddsa",
    "Sa.Psig.C82.C82_room",
    "Sa.Psig.C82.C82_verify_partial",
    "Sa.Psig.C82.C82_name_partial",
    "Sa.Psig.C82.C82_violated_mgf1",
    "Sa.Psig.C82.C82_violated_digest",
    "Sa.Psig.C82.C82_violated_size",
    "Sa.Psig.C82.C82_violated_init",
    "Sa.Psig.C82.C82_violated_name",
    "Sa.Psig.C82.C82_violated_pss_name"
   ],
   "note": "Violated: PSS with another digest than SHA-256 uses SHA-256 for MGF1 unless it is named, while verification uses the digest of the message (C82_violated_mgf1); hashes of digests which the API lacks are signed as SHA-256 (C82_violated_digest); the size of the buffer is ignored (C82_violated_size); unknown digests are accepted and NULL is followed later (C82_violated_init); RSA with SHA-1 is named RSA with SHA-256 (C82_violated_name) and PSS is named PKCS#1 v1.5 (C82_violated_pss_name). The rest is proved; C82_eddsa and C82_room hold in full. That i2d_ECDSA_SIG writes DER is assumed."
  },
  {
   "property": "C83",
   "status": "partial",
   "theorems": [
    "Sa.Pg.C83.C83_generate_partial",
    "Sa.Pg.C83.C83_params_partial",
    "Sa.Pg.C83.C83_names",
    "Sa.Pg.C83.C83_import_partial",
    "Sa.Pg.C83.C83_has_partial",
    "Sa.Pg.C83.C83_violated_bits",
    "Sa.Pg.C83.C83_violated_group",
    "Sa.Pg.C83.C83_violated_dh_group",
    "Sa.Pg.C83.C83_violated_dh_import",
    "Sa.Pg.C83.C83_violated_dh_import_witness",
    "Sa.Pg.C83.C83_violated_dh_long",
    "Sa.Pg.C83.C83_violated_match",
    "Sa.Pg.C83.C83_violated_has"
   ],
   "note": "Violated: sizes that are not whole bytes are rounded down (C83_violated_bits); a generator for X25519 makes keys of any other curve that is named (C83_violated_group); naming a curve overwrites the first four bytes of the DH prime (C83_violated_dh_group); DH parameters given by the application are stored byte-reversed (C83_violated_dh_import) and behind the array if longer than 512 bytes (C83_violated_dh_long); all keys are equal (C83_violated_match); a public key is said not to be there (C83_violated_has). All other sequences are covered; C83_names holds in full."
  },
  {
   "property": "C84",
   "status": "partial",
   "theorems": [
    "Sa.Pr.C84.C84_settings_partial",
    "Sa.Pr.C84.C84_roundtrip_partial",
    "Sa.Pr.C84.C84_pad_name_partial",
    "Sa.Pr.C84.C84_violated_mgf1",
    "Sa.Pr.C84.C84_violated_mgf1_reached",
    "Sa.Pr.C84.C84_violated_default",
    "Sa.Pr.C84.C84_violated_padding",
    "Sa.Pr.C84.C84_violated_copy",
    "Sa.Pr.C84.C84_violated_pad_int"
   ],
   "note": "Violated: a digest named for MGF1 is ignored though reported (C84_violated_mgf1); OAEP without naming a digest asks for MGF1 with no digest at all (C84_violated_default); any other padding, even no padding or an unknown name, is accepted and decrypted as PKCS#1 v1.5 (C84_violated_padding); copies of contexts have uninitialised labels, fail, or follow NULL (C84_violated_copy); reading the padding as a number fails exactly if it works (C84_violated_pad_int). All other settings are covered."
  },
  {
   "property": "C85",
   "status": "partial",
   "theorems": [
    "Sa.C85.C85_create",
    "Sa.C85.C85_chunks_partial",
    "Sa.C85.C85_encrypt_partial",
    "Sa.C85.C85_decrypt_partial",
    "Sa.C85.C85_roundtrip_partial",
    "Sa.C85.C85_violated_aad"
   ],
   "note": "Violated for long additional data: its length becomes an int, so that of 4 GB nothing is authenticated (C85_violated_aad). The theorems are for chunks shorter than 2 GB (see C34_violated_length) and, for tags, additional data shorter than 2 GB; C85_create covers everything."
  },
  {
   "property": "C86",
   "status": "partial",
   "theorems": [
    "Sa.Pv.C86.C86_message_partial",
    "Sa.Pv.C86.C86_open_partial",
    "Sa.Pv.C86.C86_report_partial",
    "Sa.Pv.C86.C86_released",
    "Sa.Pv.C86.C86_violated_ivlen",
    "Sa.Pv.C86.C86_violated_again",
    "Sa.Pv.C86.C86_violated_lent"
   ],
   "note": "Violated: a length of the IV set by the application is ignored with success and the first 12 bytes are used (C86_violated_ivlen); setting the same key once more releases it while it stays in use (C86_violated_again); setting another key releases one that was only lent (C86_violated_lent). C86_message_partial and C86_open_partial hold for settings that succeed and IVs of the default length, with the restrictions of C75 and C76; C86_released is not restricted."
  },
  {
   "property": "C87",
   "status": "partial",
   "theorems": [
    "Sa.Pd.C87.C87_digest_partial",
    "Sa.Pd.C87.C87_answers",
    "Sa.Pd.C87.C87_room_partial",
    "Sa.Pd.C87.C87_held",
    "Sa.Pd.C87.C87_violated_copy",
    "Sa.Pd.C87.C87_violated_names"
   ],
   "note": "Violated: a copied context has digest size 0, so that digest_final writes a whole digest to a buffer that is said to be shorter (C87_violated_copy; OpenSSL 3 itself passes the size of the digest); the lists of parameters that can be set and asked for are swapped (C87_violated_names). C87_digest_partial, C87_answers and C87_held are not restricted; C87_room_partial shows that only copies can overflow."
  },
  {
   "property": "C88",
   "status": "partial",
   "theorems": [
    "Sa.Px.C88.C88_secret_partial",
    "Sa.Px.C88.C88_answers",
    "Sa.Px.C88.C88_length",
    "Sa.Px.C88.C88_agree",
    "Sa.Px.C88.C88_rights",
    "Sa.Px.C88.C88_violated_peer"
   ],
   "note": "Violated: deriving without a peer uses NULL instead of failing (C88_violated_peer). C88_rights excludes the time 2^64-1 and outputs that cannot be polled."
  },
  {
   "property": "C89",
   "status": "partial",
   "theorems": [
    "Sa.Pl.C89.C89_same",
    "Sa.Pl.C89.C89_loaded_partial",
    "Sa.Pl.C89.C89_returns_partial",
    "Sa.Pl.C89.C89_bounded",
    "Sa.Pl.C89.C89_violated_unloaded",
    "Sa.Pl.C89.C89_violated_lock"
   ],
   "note": "Violated: when loading fails sa_provider_load returns without unlocking the mutex, so that every other thread that calls sa_get_provider blocks for ever (C89_violated_lock), and the loading thread gets a library context without the provider (C89_violated_unloaded). C89_same and C89_bounded hold whatever fails; C89_loaded_partial and C89_returns_partial hold when no call fails. Process exit (sa_provider_shutdown) is not modelled."
  },
  {
   "property": "C90",
   "status": "partial",
   "theorems": [
    "Sa.El.C90.C90_same",
    "Sa.El.C90.C90_references",
    "Sa.El.C90.C90_alive",
    "Sa.El.C90.C90_bounded",
    "Sa.El.C90.C90_alone",
    "Sa.El.C90.C90_gets_partial",
    "Sa.El.C90.C90_returns_partial",
    "Sa.El.C90.C90_methods_partial",
    "Sa.El.C90.C90_violated_one",
    "Sa.El.C90.C90_violated_blocks",
    "Sa.El.C90.C90_violated_failed",
    "Sa.El.C90.C90_violated_methods"
   ],
   "note": "Violated: in OpenSSL 1.1 registering the engine asks sa_get_engine_pkey_asn1_meths for its list, which locks the mutex and returns without unlocking, so that no other thread ever gets an engine (C90_violated_one, C90_violated_blocks); a failing call makes sa_get_engine return without unlocking (C90_violated_failed); the methods are released with an engine that could not be added, but stay in use for the next one (C90_violated_methods). C90_same, C90_references, C90_alive, C90_bounded and C90_alone hold whatever fails; C90_gets_partial, C90_returns_partial hold without the list of ASN.1 methods (OpenSSL before 1.1) when nothing fails, C90_methods_partial when adding does not fail."
  },
  {
   "property": "C91",
   "status": "partial",
   "theorems": [
    "Sa.Em.C91.C91_mac_partial",
    "Sa.Em.C91.C91_updates_partial",
    "Sa.Em.C91.C91_answers_partial",
    "Sa.Em.C91.C91_held_partial",
    "Sa.Em.C91.C91_violated_wrong",
    "Sa.Em.C91.C91_violated_free",
    "Sa.Em.C91.C91_violated_copy",
    "Sa.Em.C91.C91_violated_digest",
    "Sa.Em.C91.C91_violated_reinit",
    "Sa.Em.C91.C91_violated_again"
   ],
   "note": "Violated: OpenSSL asks a copy of the context for the MAC and frees the copy, which releases the MAC of SecApi while the original keeps its number. So a context asked twice fails, or answers another context's MAC (C91_violated_again, C91_violated_wrong), freeing it takes another context's MAC away (C91_violated_free), copies are not independent (C91_violated_copy). An unknown digest gives a CMAC (C91_violated_digest); initialising again leaks a MAC (C91_violated_reinit). The theorems hold for careful use: no copies, no second initialisation, known digests, and no context initialised while another one that was asked for its MAC has not been freed."
  },
  {
   "property": "C92",
   "status": "partial",
   "theorems": [
    "Sa.Ek.C92.C92_rsa_partial",
    "Sa.Ek.C92.C92_message_partial",
    "Sa.Ek.C92.C92_refused",
    "Sa.Ek.C92.C92_ecdsa_partial",
    "Sa.Ek.C92.C92_room",
    "Sa.Ek.C92.C92_eddsa",
    "Sa.Ek.C92.C92_verifies",
    "Sa.Ek.C92.C92_violated_mgf1",
    "Sa.Ek.C92.C92_violated_raw",
    "Sa.Ek.C92.C92_violated_size",
    "Sa.Ek.C92.C92_violated_empty"
   ],
   "note": "Violated: PSS without a named MGF1 digest takes SHA-1 instead of the signature's digest (C92_violated_mgf1); without a digest the bytes are signed as a SHA-1 hash instead of as they are (C92_violated_raw); an ECDSA signature overruns a short buffer (C92_violated_size); an empty message given as NULL cannot be signed with EdDSA (C92_violated_empty). C92_rsa_partial, C92_message_partial and C92_ecdsa_partial exclude just these cases; C92_refused, C92_room (buffers of the announced length), C92_eddsa and C92_verifies hold in full."
  },
  {
   "property": "C93",
   "status": "partial",
   "theorems": [
    "Sa.Ek.C93.C93_encrypt_partial",
    "Sa.Ek.C93.C93_decrypt_partial",
    "Sa.Ek.C93.C93_roundtrip",
    "Sa.Ek.C93.C93_released_partial",
    "Sa.Ek.C93.C93_violated_padding",
    "Sa.Ek.C93.C93_violated_mgf1",
    "Sa.Ek.C93.C93_violated_label",
    "Sa.Ek.C93.C93_violated_copy",
    "Sa.Ek.C93.C93_violated_cipher"
   ],
   "note": "Violated: other paddings are decrypted as PKCS #1 v1.5 (C93_violated_padding); OAEP without a named MGF1 digest takes SHA-1 instead of the digest of OAEP (C93_violated_mgf1); a second label leaks the first (C93_violated_label), a failing copy leaks its data (C93_violated_copy), an unsupported decryption leaks its cipher context (C93_violated_cipher). The partial theorems exclude just these cases; C93_roundtrip holds in full."
  },
  {
   "property": "C94",
   "status": "partial",
   "theorems": [
    "Sa.Ekey.C94.C94_loaded",
    "Sa.Ekey.C94.C94_loaded_symmetric_partial",
    "Sa.Ekey.C94.C94_stays",
    "Sa.Ekey.C94.C94_never_another",
    "Sa.Ekey.C94.C94_null_partial",
    "Sa.Ekey.C94.C94_released_partial",
    "Sa.Ekey.C94.C94_violated_public",
    "Sa.Ekey.C94.C94_violated_empty",
    "Sa.Ekey.C94.C94_violated_engine",
    "Sa.Ekey.C94.C94_violated_old"
   ],
   "note": "Violated: when a call inside fails, the application gets a key with the public part only (C94_violated_public), an empty one, leaking the structure (C94_violated_empty), or one without the engine (C94_violated_engine) instead of NULL; before OpenSSL 1.1 loading a symmetric key follows NULL (C94_violated_old). C94_loaded, C94_stays and C94_never_another hold in full (key structures of at most 512 bytes assumed), the partial theorems exclude these failures."
  },
  {
   "property": "C95",
   "status": "partial",
   "theorems": [
    "Sa.Ekey.C95.C95_secret",
    "Sa.Ekey.C95.C95_refused",
    "Sa.Ekey.C95.C95_room_partial",
    "Sa.Ekey.C95.C95_handle",
    "Sa.Ekey.C95.C95_violated_room"
   ],
   "note": "Violated: with an EC key eight bytes are written into a smaller buffer (C95_violated_room); C95_room_partial excludes just this. C95_secret, C95_refused and C95_handle hold in full."
  },
  {
   "property": "C96",
   "status": "partial",
   "theorems": [
    "Sa.Ks.C96.C96_read_partial",
    "Sa.Ks.C96.C96_unreadable_partial",
    "Sa.Ks.C96.C96_derived_partial",
    "Sa.Ks.C96.C96_stays_partial",
    "Sa.Ks.C96.C96_violated_order",
    "Sa.Ks.C96.C96_violated_second",
    "Sa.Ks.C96.C96_violated_second_common",
    "Sa.Ks.C96.C96_violated_safes",
    "Sa.Ks.C96.C96_violated_beginning",
    "Sa.Ks.C96.C96_violated_long_name",
    "Sa.Ks.C96.C96_violated_long_key",
    "Sa.Ks.C96.C96_violated_freed",
    "Sa.Ks.C96.C96_violated_undecryptable"
   ],
   "note": "Violated: with the common root key first the device's is not found (C96_violated_order); after a refusal the next request is answered with the other key (C96_violated_second, C96_violated_second_common); so it is with keys in two safes (C96_violated_safes); names that begin commonroot or are too long are taken for it (C96_violated_beginning, C96_violated_long_name); a key of 32 bytes overruns the buffer (C96_violated_long_key); an unknown safe has bags released twice (C96_violated_freed); a key that cannot be decrypted counts as loaded (C96_violated_undecryptable). The partial theorems are for key stores with both keys in one safe, in the order that can be read."
  },
  {
   "property": "C97",
   "status": "partial",
   "theorems": [
    "Sa.Ks.C97.C97_number",
    "Sa.Ks.C97.C97_distinct",
    "Sa.Ks.C97.C97_fits",
    "Sa.Ks.C97.C97_id_partial",
    "Sa.Ks.C97.C97_stays_partial",
    "Sa.Ks.C97.C97_violated_none",
    "Sa.Ks.C97.C97_violated_name"
   ],
   "note": "Violated: without a key store the ID is 0 with the status OK (C97_violated_none); a name that is no number is refused once, and then its key is used and the ID is 0 (C97_violated_name). C97_number, C97_distinct and C97_fits hold in full; the trace theorems are for key stores as in C96."
  },
  {
   "property": "C98",
   "status": "partial",
   "theorems": [
    "Sa.Sb.C98.C98_found",
    "Sa.Sb.C98.C98_refused",
    "Sa.Sb.C98.C98_inside",
    "Sa.Sb.C98.C98_turns",
    "Sa.Sb.C98.C98_violated_null"
   ],
   "note": "Violated: octets that are no encrypted key are passed on as NULL to PKCS8_decrypt (C98_violated_null). C98_found, C98_refused, C98_inside and C98_turns hold in full."
  },
  {
   "property": "C99",
   "status": "partial",
   "theorems": [
    "Sa.Prov.C99.C99_refused",
    "Sa.Prov.C99.C99_nothing_kept_partial",
    "Sa.Prov.C99.C99_genuine_partial",
    "Sa.Prov.C99.C99_accepted_partial",
    "Sa.Prov.C99.C99_violated_null",
    "Sa.Prov.C99.C99_violated_short",
    "Sa.Prov.C99.C99_violated_parameters"
   ],
   "note": "Violated: if the command cannot be allocated, it is read through NULL (C99_violated_null); a structure shorter than its kind has the TA read behind it (C99_violated_short); parameters that say they are longer than 624 bytes overrun the TA's copy (C99_violated_parameters). The partial theorems leave out these three; tags can be short as in C60. C99_refused holds in full."
  },
  {
   "property": "C100",
   "status": "partial",
   "theorems": [
    "Sa.Rnd.C100.C100_random_partial",
    "Sa.Rnd.C100.C100_disjoint",
    "Sa.Rnd.C100.C100_violated_long",
    "Sa.Rnd.C100.C100_violated_overrun",
    "Sa.Rnd.C100.C100_violated_unsupported"
   ],
   "note": "Violated: of a buffer of 4 GiB and n bytes only n are filled, with OK (C100_violated_long); 2 to 4 GiB overrun with OpenSSL 1.1 (C100_violated_overrun); a generator that answers \"not supported\" (-1) is taken for success, and buffers and keys are what was in memory (C100_violated_unsupported). The partial theorem is for buffers below 2 GiB and generators that answer 1 or 0; C100_disjoint holds in full."
  },
  {
   "property": "C101",
   "status": "proved",
   "theorems": [
    "Sa.Agree.C101.C101_group",
    "Sa.Agree.C101.C101_dh",
    "Sa.Agree.C101.C101_ecdh",
    "Sa.Agree.C101.C101_netflix"
   ],
   "note": ""
  },
  {
   "property": "C102",
   "status": "partial",
   "theorems": [
    "Sa.Asym.C102.C102_verifies_partial",
    "Sa.Asym.C102.C102_signs",
    "Sa.Asym.C102.C102_violated_pss"
   ],
   "note": "RSA-PSS with a precomputed digest of another length gives OK and no signature, for every key (C102_violated_pss); the theorem is about what is written to the buffer."
  },
  {
   "property": "C103",
   "status": "proved",
   "theorems": [
    "Sa.Asym.C103.C103_unwrap",
    "Sa.Asym.C103.C103_unwraps",
    "Sa.Asym.C103.C103_decrypt"
   ],
   "note": ""
  },
  {
   "property": "C104",
   "status": "proved",
   "theorems": [
    "Sa.Whole.C104.C104_purge",
    "Sa.Whole.C104.C104_secrets",
    "Sa.Whole.C104.C104_refused"
   ],
   "note": ""
  },
  {
   "property": "C105",
   "status": "partial",
   "theorems": [
    "Sa.Whole.C105.C105_answered_partial",
    "Sa.Whole.C105.C105_book_partial",
    "Sa.Whole.C105.C105_stays_partial",
    "Sa.Whole.C105.C105_fresh_partial"
   ],
   "note": "Theorems on all histories whose calls meet `Fine`. Left out are calls known to go wrong: RSA keys whose size overflows (C52), unwrapping nothing with padding, OAEP contexts without lock or label (C38), provisioning of structures that are too short (C99), key checks of 2 GiB and more, SVP buffers over regions that wrap around the address space (C22), and checks of SVP buffers with a hash that is not as long as stated (C68)."
  },
  {
   "property": "C106",
   "status": "partial",
   "theorems": [
    "Sa.Whole.C106.C106_mac_partial",
    "Sa.Whole.C106.C106_one"
   ],
   "note": "Theorems on all histories whose calls meet `Fine`, the same condition as in C105: it leaves out the calls shown there to go wrong."
  },
  {
   "property": "C107",
   "status": "partial",
   "theorems": [
    "Sa.Whole.C107.C107_process_partial",
    "Sa.Whole.C107.C107_one"
   ],
   "note": "Theorems on all histories whose calls meet `Fine`, the same condition as in C105, and for chunks below 2^31 bytes (C34 shows what goes wrong above). After a failed call only the operations that the library was called with are not known: the state is some state the library can reach from the one before."
  },
  {
   "property": "C108",
   "status": "partial",
   "theorems": [
    "Sa.Whole.C108.C108_handles_partial",
    "Sa.Whole.C108.C108_write_partial",
    "Sa.Whole.C108.C108_copy_partial",
    "Sa.Whole.C108.C108_check_partial",
    "Sa.Whole.C108.C108_process_partial"
   ],
   "note": "Theorems on all histories whose calls meet `Fine`, the same condition as in C105; in particular no buffer is made over a region that wraps around the address space (C22 shows that the TA accepts it and what follows). The contents after a copy are stated for regions that do not overlap (C21)."
  },
  {
   "property": "C109",
   "status": "partial",
   "theorems": [
    "Sa.Whole.C109.C109_checked_partial",
    "Sa.Whole.C109.C109_content_partial"
   ],
   "note": "Theorems on all histories whose calls meet `Fine`, the same condition as in C105, which now excludes patterns that never end (`C25_violated_hang`). What is written is stated for samples of less than 2^31 bytes that share no buffer with another sample of the call, with ranges as in C23: the others are not decrypted correctly, or are placed elsewhere than checked (violations proved in C23, C24, C25, C26). What is checked is proved for all samples."
  },
  {
   "property": "C110",
   "status": "partial",
   "theorems": [
    "Sa.Whole.C110.C110_outputs_partial",
    "Sa.Whole.C110.C110_content_partial",
    "Sa.Whole.C110.C110_samples_partial",
    "Sa.Whole.C110.C110_violated"
   ],
   "note": "Theorems on all histories whose calls meet `Fine`, the same condition as in C105, and on chains whose parents are of the kind that binds: another use than unwrapping or no flags for children. A key for unwrapping only with flags for children passes on outputs it does not have: `C110_violated` gives the history (C11 has the decision alone). Of the calls of Netflix the chain goes through the key whose rights are passed on (C46 shows that the other key's are not)."
  },
  {
   "property": "C111",
   "status": "partial",
   "theorems": [
    "Sa.Info.C111.C111_length",
    "Sa.Info.C111.C111_short",
    "Sa.Info.C111.C111_name_partial",
    "Sa.Info.C111.C111_twice",
    "Sa.Info.C111.C111_version",
    "Sa.Info.C111.C111_violated",
    "Sa.Info.C111.C111_violated_rest",
    "Sa.Info.C111.C111_violated_contract"
   ],
   "note": "The name is stored in every buffer that is long enough and the two calls by which applications usually get it work (`C111_twice`). But with a longer buffer the length is not set (`C111_violated`, in every build), and with shared memory the library overwrites the whole buffer with what is in the shared block (`C111_violated_rest`); hence this function breaks the contract `Fits` of C70 (`C111_violated_contract`). The shared block is modelled as zeros."
  },
  {
   "property": "C112",
   "status": "partial",
   "theorems": [
    "Sa.Whole.C112.C112_allowed_partial",
    "Sa.Whole.C112.C112_refused_partial",
    "Sa.Whole.C112.C112_exported_partial"
   ],
   "note": "For histories of calls `Cmd.Fine` (C105: calls excluded there may have undefined behaviour). No usage flag is asked for by sa_key_digest, sa_key_get_public and sa_crypto_mac_process_key, and neither callers, time nor outputs by sa_key_export and sa_key_header."
  },
  {
   "property": "C113",
   "status": "partial",
   "theorems": [
    "Sa.Ed.C113.C113_right_partial",
    "Sa.Ed.C113.C113_serial_partial",
    "Sa.Ed.C113.C113_same",
    "Sa.Ed.C113.C113_again_partial",
    "Sa.Ed.C113.C113_answered_partial",
    "Sa.Ed.C113.C113_violated_memory",
    "Sa.Ed.C113.C113_violated_leak",
    "Sa.Ed.C113.C113_violated_size",
    "Sa.Ed.C113.C113_violated"
   ],
   "note": "Proved for all interleavings as long as there is memory: every answer is the digest asked for, and lookups end (`C113_right_partial`, `C113_answered_partial`); the full property if lookups do not overlap (`C113_serial_partial`). Violated: the variables are set without a lock, so that two threads both make a digest and one is never freed (`C113_violated_leak`), or one is given it before its size is set (`C113_violated_size`); if EVP_MD_meth_dup fails its NULL is used (`C113_violated_memory`). Each step is atomic in the model, while in C the unsynchronised accesses are undefined."
  },
  {
   "property": "C114",
   "status": "partial",
   "theorems": [
    "Sa.Whole.C114.C114_same_partial",
    "Sa.Whole.C114.C114_header_partial",
    "Sa.Whole.C114.C114_verifies_partial"
   ],
   "note": "Proved for histories of calls `Fine` in the sense of C105 (sizes that occur; primitives of the device that work) and, for signatures, for what is written to the buffer (C102: salts of PSS over 255 are the exception there). `C114_same_partial` (one key), `C114_header_partial` (one header), `C114_verifies_partial` (one public key)."
  },
  {
   "property": "C115",
   "status": "partial",
   "theorems": [
    "Sa.Whole.C115.C115_arrives_partial"
   ],
   "note": "Proved for histories of calls `Fine` in the sense of C105; the header must agree with the public key on the curve (as in C103, for keys made or imported by the TA). `C115_arrives_partial`."
  },
  {
   "property": "C116",
   "status": "partial",
   "theorems": [
    "Sa.Whole.C116.C116_back_partial"
   ],
   "note": "Proved for histories of calls `Fine` in the sense of C105 and `PrivOk` in that of C107, for the algorithms without padding (AES-ECB, AES-CBC of whole blocks, AES-CTR, AES-GCM, ChaCha20 and ChaCha20-Poly1305), and for pieces of less than 2^31 bytes. `C116_back_partial`."
  },
  {
   "property": "C117",
   "status": "partial",
   "theorems": [
    "Sa.Whole.C117.C117_same_partial"
   ],
   "note": "Proved for histories of calls `Fine` in the sense of C105 (sizes that occur; primitives of the device that work). `C117_same_partial`."
  },
  {
   "property": "C118",
   "status": "partial",
   "theorems": [
    "Sa.Whole.C118.C118_same_partial",
    "Sa.Whole.C118.C118_netflix_partial"
   ],
   "note": "Proved for histories of calls `Fine` in the sense of C105 (sizes that occur; primitives of the device that work). `C118_same_partial`, `C118_netflix_partial`."
  }
 ]
}