# Axioms and library laws per theorem

Generated by `tools/mkaxioms.py` (`Lean.collectAxioms`).
P = `propext`, C = `Classical.choice`, Q = `Quot.sound`; no theorem depends on any other axiom.
Laws: the assumptions about code outside the repository that occur as hypotheses (DESIGN.md, section 4).

| Property | Theorem | Axioms | Laws assumed |
|---|---|---|---|
| C01 | `C01_roundtrip` | C Q P | — |
| C02 | `C02_rfc4648` | C Q P | — |
| C02 | `C02_unique` | C Q P | — |
| C02 | `C02_length` | C Q P | — |
| C02 | `C02_injective` | C Q P | — |
| C03 | `C03_accepts_iff` | C Q P | — |
| C03 | `C03_errors` | C Q P | — |
| C03 | `C03_unpadded` | C Q P | — |
| C03 | `C03_violated` | C Q P | — |
| C04 | `C04_same_bytes` | C Q P | — |
| C04 | `C04_malleable` | C Q P | — |
| C05 | `C05_roundtrip` | C Q P | — |
| C05 | `C05_zero` | Q P | — |
| C05 | `C05_terminates` | Q P | — |
| C05 | `C05_diverges` | Q P | — |
| C06 | `C06_long_arr_long` | C Q P | — |
| C06 | `C06_arr_long_arr` | C Q P | — |
| C06 | `C06_intarr2bin` | Q P | — |
| C06 | `C06_long2hexseq` | C Q P | — |
| C07 | `C07_safe_str_cmp` | C Q P | — |
| C07 | `C07_constant_time_compare` | C Q P | — |
| C08 | `C08_roundtrip` | C Q P | — |
| C08 | `C08_bytes` | C Q P | — |
| C08 | `C08_init` | C Q P | — |
| C09 | `C09_segments_unique` | P | — |
| C09 | `C09_no_dot` | C Q P | — |
| C09 | `C09_unpack_iff` | C Q P | — |
| C09 | `C09_count` | C Q P | — |
| C10 | `C10_json` | C Q P | — |
| C10 | `C10_text` | C Q P | — |
| C10 | `C10_bytes` | C Q P | `JsonBytesLawful` |
| C10 | `C10_total` | C Q P | `JsonBytesLawful` |
| C10 | `C10_bad_cty` | C Q P | — |
| C100 | `C100_signs` | C Q P | — |
| C100 | `C100_no_key` | C Q P | — |
| C100 | `C100_hmac` | C Q P | — |
| C100 | `C100_rsa` | C Q P | — |
| C100 | `C100_ecdsa` | C Q P | — |
| C100 | `C100_sign_verify` | C Q P | `JsonBytesLawful` |
| C101 | `C101_nested` | C Q P | `JsonBytesLawful` |
| C101 | `C101_claims` | C Q P | `JsonBytesLawful` |
| C101 | `C101_wrap` | C Q P | — |
| C101 | `C101_rsa` | C Q P | `Zlib.Lawful` |
| C101 | `C101_ecdh` | C Q P | — |
| C102 | `C102_keys` | C Q P | — |
| C102 | `C102_keys_total` | C Q P | — |
| C102 | `C102_unsigned` | C Q P | — |
| C102 | `C102_unsigned_refused` | C Q P | — |
| C102 | `C102_hmac` | C Q P | `JsonBytesLawful` |
| C102 | `C102_nested_lost` | C Q P | — |
| C102 | `C102_decrypt_silent` | C Q P | — |
| C102 | `C102_decrypt_fails` | C Q P | — |
| C103 | `C103_rsa` | C Q P | `Zlib.Lawful` |
| C103 | `C103_x509_url` | C Q P | — |
| C104 | `C104_signed` | C Q P | — |
| C104 | `C104_wrap` | C Q P | — |
| C104 | `C104_rsa` | C Q P | — |
| C104 | `C104_ecdh` | C Q P | — |
| C105 | `C105_loads` | C Q P | — |
| C105 | `C105_roundtrip` | C Q P | `JsonBytesLawful` |
| C106 | `C106_flat` | C Q P | — |
| C106 | `C106_general` | C Q P | — |
| C107 | `C107_spelling` | C Q P | — |
| C107 | `C107_companions` | C Q P | — |
| C107 | `C107_hmac` | C Q P | — |
| C107 | `C107_ecdsa_zeros` | C Q P | — |
| C107 | `C107_ecdsa_negated` | C Q P | — |
| C108 | `C108_size` | C Q P | — |
| C109 | `C109_rsa` | C Q P | `BlockCipher.Lawful`, `Hashes.Lawful`, `RsaLib.Lawful`, `Zlib.Lawful` |
| C109 | `C109_rsa_total` | C Q P | `Zlib.Lawful` |
| C109 | `C109_wrap` | C Q P | `BlockCipher.Lawful`, `Hashes.Lawful` |
| C109 | `C109_wrap_total` | C Q P | — |
| C109 | `C109_ecdh` | C Q P | — |
| C11 | `C11_roundtrip` | C Q P | `RsaLib.Lawful`, `JsonBytesLawful` |
| C11 | `C11_json_message` | C Q P | — |
| C11 | `C11_text_message` | C Q P | — |
| C110 | `C110_wrap` | C Q P | `BlockCipher.Lawful`, `Hashes.Lawful` |
| C110 | `C110_rsa` | C Q P | `BlockCipher.Lawful`, `Hashes.Lawful` |
| C110 | `C110_rsa_key` | C Q P | — |
| C110 | `C110_ecdh` | C Q P | `BlockCipher.Lawful`, `Hashes.Lawful` |
| C111 | `C111_exact` | C Q P | `BlockCipher.Lawful` |
| C111 | `C111_content` | C Q P | `BlockCipher.Lawful` |
| C111 | `C111_192` | C Q P | `BlockCipher.Lawful` |
| C111 | `C111_rsa` | C Q P | `BlockCipher.Lawful` |
| C111 | `C111_wrap` | C Q P | `BlockCipher.Lawful`, `Hashes.Lawful` |
| C112 | `C112_verify` | C Q P | — |
| C112 | `C112_sign` | C Q P | `RsaLib.Lawful` |
| C113 | `C113_loads` | C Q P | — |
| C113 | `C113_alg` | C Q P | — |
| C114 | `C114_needs` | C Q P | `BlockCipher.Lawful` |
| C114 | `C114_direct` | C Q P | `BlockCipher.Lawful` |
| C114 | `C114_wrap` | C Q P | `BlockCipher.Lawful`, `Hashes.Lawful` |
| C115 | `C115_predict` | C Q P | — |
| C115 | `C115_words` | Q P | — |
| C115 | `C115_token` | C Q P | — |
| C115 | `C115_key` | C Q P | — |
| C115 | `C115_ecdh` | C Q P | `BlockCipher.Lawful`, `Hashes.Lawful` |
| C116 | `C116_oracle` | C Q P | — |
| C116 | `C116_multiple` | C Q P | — |
| C116 | `C116_interval` | C Q P | — |
| C117 | `C117_tokens` | C Q P | — |
| C118 | `C118_verbose` | C Q P | — |
| C118 | `C118_compact` | C Q P | — |
| C118 | `C118_json` | C Q P | — |
| C118 | `C118_published` | C Q P | — |
| C118 | `C118_encrypt` | C Q P | — |
| C119 | `NistCurve.C119_secret` | C Q P | — |
| C119 | `C119_points` | C Q P | — |
| C119 | `C119_guess` | C Q P | — |
| C119 | `C119_recovers` | C Q P | — |
| C119 | `C119_trials` | P | — |
| C119 | `C119_answer` | C Q P | — |
| C12 | `C12_refused` | C Q P | — |
| C12 | `C12_allowed` | C Q P | — |
| C12 | `C12_only_none` | C Q P | — |
| C120 | `C120_verify` | C Q P | `JsonBytesLawful` |
| C120 | `C120_wellformed` | C Q P | `JsonBytesLawful` |
| C120 | `C120_raised` | C Q P | — |
| C120 | `C120_keyError` | C Q P | — |
| C120 | `C120_badSignature` | C Q P | — |
| C121 | `C121_segments` | C Q P | — |
| C121 | `C121_valid` | C Q P | — |
| C121 | `C121_header` | C Q P | — |
| C121 | `C121_dump` | C Q P | — |
| C121 | `C121_decode` | C Q P | — |
| C121 | `C121_rsa_eq` | P | — |
| C122 | `C122_keys` | C Q P | — |
| C122 | `C122_nonce` | C Q P | — |
| C122 | `C122_public` | C Q P | — |
| C122 | `C122_bias` | P | — |
| C123 | `C123_numbers` | C Q P | — |
| C123 | `C123_text` | C Q P | — |
| C124 | `C124_forget` | C Q P | — |
| C124 | `C124_refused` | C Q P | — |
| C124 | `C124_bad_jwk` | C Q P | — |
| C124 | `C124_signs` | C Q P | — |
| C125 | `C125_decrypt` | C Q P | — |
| C125 | `C125_family` | C Q P | — |
| C125 | `C125_raised` | C Q P | — |
| C125 | `C125_wrap` | C Q P | — |
| C125 | `C125_ecdh` | C Q P | — |
| C125 | `C125_rsa` | C Q P | — |
| C126 | `C126_key` | C Q P | — |
| C126 | `C126_v1` | C Q P | — |
| C126 | `C126_exact` | C Q P | — |
| C126 | `C126_signature` | C Q P | — |
| C126 | `C126_whole` | C Q P | — |
| C126 | `C126_x5c` | C Q P | — |
| C126 | `C126_x5c_v1` | C Q P | — |
| C127 | `C127_text` | C Q P | — |
| C127 | `C127_armour` | C Q P | — |
| C127 | `C127_pem` | C Q P | — |
| C127 | `C127_chain` | C Q P | — |
| C128 | `C128_call` | P | — |
| C128 | `C128_calls` | P | — |
| C128 | `C128_cached` | P | — |
| C128 | `C128_text` | P | — |
| C129 | `C129_ec_public` | C Q P | — |
| C129 | `C129_ec_private` | C Q P | — |
| C129 | `C129_ec_blind` | C Q P | — |
| C129 | `C129_rsa` | C Q P | — |
| C13 | `C13_sound` | C Q P | — |
| C130 | `C130_family` | C Q P | — |
| C130 | `C130_set` | C Q P | — |
| C130 | `C130_types` | C Q P | — |
| C130 | `C130_other` | C Q P | — |
| C131 | `C131_verify` | C Q P | `JsonBytesLawful` |
| C131 | `C131_raised` | C Q P | — |
| C131 | `C131_exact` | C Q P | `JsonBytesLawful` |
| C132 | `C132_retry` | C Q P | — |
| C132 | `C132_unused` | C Q P | — |
| C132 | `C132_append` | C Q P | — |
| C132 | `C132_more` | C Q P | — |
| C133 | `C133_ignored` | C Q P | — |
| C133 | `C133_factory` | C Q P | — |
| C133 | `C133_stale` | C Q P | — |
| C133 | `C133_wrap` | C Q P | `BlockCipher.Lawful`, `Hashes.Lawful` |
| C133 | `C133_rsa` | C Q P | `BlockCipher.Lawful`, `Hashes.Lawful`, `RsaLib.Lawful`, `Zlib.Lawful` |
| C133 | `C133_ecdh` | C Q P | `BlockCipher.Lawful`, `Hashes.Lawful` |
| C134 | `C134_unused` | C Q P | — |
| C134 | `C134_append` | C Q P | — |
| C135 | `C135_tokens` | C Q P | — |
| C135 | `C135_tokens_es` | C Q P | — |
| C135 | `C135_rs` | C Q P | — |
| C135 | `C135_ps` | C Q P | — |
| C135 | `C135_es` | C Q P | — |
| C135 | `C135_digest_info` | Q P | — |
| C135 | `C135_pss_block` | C Q P | — |
| C136 | `C136_tokens` | C Q P | — |
| C136 | `C136_es512` | C Q P | — |
| C137 | `C137_opens` | C Q P | — |
| C137 | `C137_seals` | C Q P | — |
| C137 | `C137_token` | C Q P | — |
| C137 | `C137_made` | C Q P | — |
| C138 | `C138_json` | C Q P | — |
| C138 | `C138_unprotected` | C Q P | — |
| C138 | `C138_made` | C Q P | — |
| C139 | `C139_export` | C Q P | — |
| C139 | `C139_import` | C Q P | — |
| C139 | `C139_rewrite` | C Q P | — |
| C14 | `C14_no_confusion` | C Q P | — |
| C140 | `C140_export` | C Q P | — |
| C140 | `C140_instance` | C Q P | — |
| C140 | `C140_import` | C Q P | — |
| C141 | `C141_safe` | C Q P | — |
| C141 | `C141_alone` | C Q P | — |
| C141 | `C141_mixed` | C Q P | — |
| C141 | `C141_unsigned` | C Q P | — |
| C141 | `C141_same` | C Q P | — |
| C142 | `C142_any` | C Q P | — |
| C142 | `C142_decrypt` | C Q P | — |
| C142 | `C142_encrypt` | C Q P | — |
| C142 | `C142_alone` | C Q P | — |
| C142 | `C142_agreement` | C Q P | `BlockCipher.Lawful`, `Hashes.Lawful` |
| C143 | `C143_total` | C Q P | `BlockCipher.Lawful`, `Hashes.Lawful` |
| C143 | `C143_roundtrip` | C Q P | `BlockCipher.Lawful`, `Hashes.Lawful` |
| C143 | `C143_supplied` | C Q P | `BlockCipher.Lawful`, `Hashes.Lawful` |
| C143 | `C143_length` | C Q P | — |
| C143 | `C143_five` | C Q P | — |
| C143 | `C143_class` | C Q P | — |
| C143 | `C143_from_jwe` | C Q P | `BlockCipher.Lawful`, `Hashes.Lawful` |
| C143 | `C143_to_jwe` | C Q P | `BlockCipher.Lawful`, `Hashes.Lawful` |
| C143 | `C143_apart` | C Q P | `BlockCipher.Lawful`, `Hashes.Lawful` |
| C144 | `C144_total` | C Q P | `BlockCipher.Lawful`, `Hashes.Lawful`, `RsaLib.Lawful`, `Zlib.Lawful` |
| C144 | `C144_roundtrip` | C Q P | `BlockCipher.Lawful`, `Hashes.Lawful`, `RsaLib.Lawful`, `Zlib.Lawful` |
| C144 | `C144_no_digest` | C Q P | `BlockCipher.Lawful`, `Hashes.Lawful`, `RsaLib.Lawful`, `Zlib.Lawful` |
| C144 | `C144_digest_lost` | C Q P | `BlockCipher.Lawful`, `Hashes.Lawful`, `RsaLib.Lawful`, `Zlib.Lawful` |
| C144 | `C144_padding` | C Q P | — |
| C144 | `C144_ignored` | C Q P | — |
| C145 | `C145_total` | C Q P | `BlockCipher.Lawful`, `Hashes.Lawful` |
| C145 | `C145_roundtrip` | C Q P | `BlockCipher.Lawful`, `Hashes.Lawful` |
| C145 | `C145_opens` | C Q P | — |
| C145 | `C145_outcome` | C Q P | — |
| C145 | `C145_exact` | C Q P | `BlockCipher.Lawful` |
| C145 | `C145_before` | C Q P | — |
| C145 | `C145_ignored` | C Q P | — |
| C145 | `C145_empty` | C Q P | — |
| C145 | `C145_stale` | C Q P | `BlockCipher.Lawful`, `Hashes.Lawful` |
| C146 | `C146_total` | C Q P | `BlockCipher.Lawful`, `Hashes.Lawful` |
| C146 | `C146_roundtrip` | C Q P | `BlockCipher.Lawful`, `Hashes.Lawful` |
| C146 | `C146_direct` | C Q P | `BlockCipher.Lawful`, `Hashes.Lawful` |
| C146 | `C146_four` | C Q P | — |
| C146 | `C146_no_params` | C Q P | — |
| C146 | `C146_no_iv` | C Q P | `BlockCipher.Lawful` |
| C15 | `C15_pinned` | C Q P | — |
| C15 | `C15_other_refused` | C Q P | — |
| C16 | `C16_history` | C Q P | — |
| C16 | `C16_accepted_pins` | C Q P | — |
| C17 | `C17_hmac` | C Q P | — |
| C17 | `C17_collision` | C Q P | — |
| C18 | `C18_no_alg` | C Q P | — |
| C18 | `C18_accepted_alg` | C Q P | — |
| C19 | `C19_filter` | C Q P | — |
| C19 | `C19_none` | C Q P | — |
| C19 | `C19_no_alg` | C Q P | — |
| C20 | `C20_some_key` | C Q P | — |
| C20 | `C20_first` | C Q P | — |
| C20 | `C20_order` | C Q P | — |
| C20 | `C20_order_matters` | C Q P | — |
| C20 | `softFail_hmac` | C Q P | — |
| C21 | `C21_exact` | C Q P | — |
| C21 | `C21_signed` | C Q P | — |
| C21 | `C21_silently_unsigned` | C Q P | — |
| C22 | `C22_header` | C Q P | — |
| C23 | `C23_exact` | C Q P | — |
| C23 | `C23_all_signed` | C Q P | — |
| C23 | `C23_empty` | C Q P | — |
| C24 | `C24_roundtrip` | C Q P | `RsaLib.Lawful` |
| C24 | `C24_no_headers` | C Q P | — |
| C24 | `C24_shape` | C Q P | — |
| C25 | `C25_compact` | C Q P | — |
| C25 | `C25_compact_state` | C Q P | — |
| C25 | `C25_history` | C Q P | — |
| C25 | `C23_all_signed` | C Q P | — |
| C25 | `C25_embedded_key_trusted` | C Q P | — |
| C26 | `C26_ignored` | C Q P | `JsonBytesLawful` |
| C26 | `C26_ctor` | C Q P | — |
| C27 | `C27_json` | C Q P | — |
| C27 | `C27_json_other` | C Q P | — |
| C27 | `C27_compact` | C Q P | — |
| C27 | `C27_factory` | C Q P | — |
| C27 | `C27_jwe` | C Q P | — |
| C27 | `C27_jwe_factory` | C Q P | — |
| C28 | `C28_rsa` | C Q P | — |
| C28 | `C28_rsa_public` | C Q P | — |
| C28 | `C28_sym` | C Q P | — |
| C28 | `C28_ec` | C Q P | — |
| C28 | `C28_ec_keyrep` | C Q P | — |
| C29 | `C29_noninterference` | C Q P | — |
| C29 | `C29_members` | C Q P | — |
| C29 | `C29_dump` | C Q P | — |
| C29 | `C29_sym` | C Q P | — |
| C30 | `C30_rsa` | Q P | — |
| C30 | `C30_ec` | Q P | — |
| C30 | `C30_members` | Q P | — |
| C30 | `C30_cannot_sign` | C Q P | — |
| C30 | `C30_not_serializable` | C Q P | — |
| C30 | `C30_sym_secret` | C Q P | — |
| C31 | `C31_rsa` | C Q P | — |
| C31 | `C31_sym` | C Q P | — |
| C31 | `C31_ec` | C Q P | — |
| C31 | `C31_ec_not_rfc` | C Q P | — |
| C31 | `C31_rsa_injective` | C Q P | — |
| C31 | `C31_sym_injective` | C Q P | — |
| C31 | `C31_ec_injective` | C Q P | — |
| C31 | `C31_independent` | C Q P | — |
| C32 | `C32_eq` | Q P | — |
| C32 | `C32_plain` | P | — |
| C32 | `C32_hash_sets_kid` | C Q P | — |
| C32 | `C32_hash_changes_eq` | C Q P | `Hashes.Lawful` |
| C32 | `C32_hash_idempotent` | C Q P | — |
| C32 | `C32_history` | C Q P | — |
| C32 | `C32_contract_rsa` | C Q P | — |
| C32 | `C32_sym_secrets` | C Q P | — |
| C33 | `C33_history` | C Q P | — |
| C33 | `C33_by_kid` | Q P | — |
| C33 | `C33_kids` | Q P | — |
| C33 | `C33_key_types` | C Q P | — |
| C33 | `C33_key_types_text` | C Q P | — |
| C33 | `C33_getitem` | C Q P | — |
| C33 | `C33_as_dict` | C Q P | — |
| C34 | `C34_exact` | C Q P | — |
| C34 | `C34_sign` | C Q P | — |
| C35 | `C35_roundtrip` | C Q P | `BlockCipher.Lawful` |
| C35 | `C35_truncates` | C Q P | — |
| C36 | `C36_genuine` | C Q P | `BlockCipher.Lawful` |
| C36 | `C36_unique` | C Q P | `BlockCipher.Lawful` |
| C36 | `C36_errors` | Q P | `BlockCipher.Lawful` |
| C37 | `C37_rfc3394` | C Q P | `BlockCipher.Lawful` |
| C37 | `C37_default` | C Q P | `BlockCipher.Lawful` |
| C37 | `C37_withpad_raises` | P | — |
| C38 | `C38_pad_length` | Q P | — |
| C38 | `C38_roundtrip` | Q P | — |
| C38 | `C38_trim` | Q P | — |
| C38 | `C38_unchecked` | none | — |
| C39 | `C39_roundtrip` | C Q P | `BlockCipher.Lawful`, `Hashes.Lawful` |
| C39 | `C39_bad_sizes` | Q P | — |
| C40 | `C40_tag` | C Q P | — |
| C40 | `C40_injective` | C Q P | — |
| C40 | `C40_collision` | C Q P | — |
| C40 | `C40_no_decrypt` | C Q P | — |
| C41 | `C41_concat` | Q P | `Hashes.Lawful` |
| C41 | `C41_extends` | C Q P | `Hashes.Lawful` |
| C42 | `C42_separates` | C Q P | — |
| C42 | `C42_ambiguous_names` | none | — |
| C42 | `C42_agreement` | C Q P | — |
| C42 | `C42_succeeds` | C Q P | `Hashes.Lawful` |
| C43 | `C43_gf_mul` | C Q P | — |
| C43 | `C43_representation` | C Q P | — |
| C43 | `C43_comm` | C Q P | — |
| C43 | `C43_assoc` | C Q P | — |
| C43 | `C43_distrib` | C Q P | — |
| C43 | `C43_table` | C Q P | `BlockCipher.Lawful` |
| C44 | `C44_encrypt` | C Q P | `BlockCipher.Lawful` |
| C44 | `C44_round_trip` | C Q P | `BlockCipher.Lawful` |
| C44 | `C44_too_long` | C Q P | `BlockCipher.Lawful` |
| C45 | `C45_decrypt` | C Q P | `BlockCipher.Lawful` |
| C45 | `C45_tag_unique` | C Q P | — |
| C45 | `C45_tag_bits` | C Q P | `BlockCipher.Lawful` |
| C45 | `C45_history` | Q P | — |
| C45 | `C45_reuse_refused` | Q P | — |
| C45 | `C45_reuse_undetected` | C Q P | `BlockCipher.Lawful` |
| C46 | `C46_blocks_injective` | C Q P | — |
| C46 | `C46_collision` | C Q P | `BlockCipher.Lawful` |
| C47 | `C47_accepts` | C Q P | `BlockCipher.Lawful` |
| C47 | `C47_used_key` | C Q P | `BlockCipher.Lawful` |
| C47 | `C47_same_key` | C Q P | `BlockCipher.Lawful` |
| C47 | `C47_192` | C Q P | `BlockCipher.Lawful` |
| C48 | `C48_euclid` | C Q P | — |
| C48 | `C48_inv` | C Q P | — |
| C49 | `C49_element` | C Q P | — |
| C49 | `C49_curve_q` | C Q P | — |
| C49 | `C49_add` | C Q P | — |
| C49 | `C49_neg` | C Q P | — |
| C49 | `C49_addf` | C Q P | — |
| C49 | `C49_doublef` | C Q P | — |
| C49 | `C49_doublef_two_torsion` | C Q P | — |
| C49 | `C49_projective` | C Q P | — |
| C49 | `C49_rep_unique` | C Q P | — |
| C49 | `C49_rep_exists` | C Q P | — |
| C50 | `C50_digits` | C Q P | — |
| C50 | `C50_value` | C Q P | — |
| C50 | `C50_length` | C Q P | — |
| C50 | `C50_nonadjacent` | C Q P | — |
| C51 | `C51_mul` | C Q P | — |
| C51 | `C51_mulp` | C Q P | — |
| C51 | `C51_muladdp` | C Q P | — |
| C51 | `C51_agree` | C Q P | — |
| C51 | `C51_two_torsion_wrong` | C Q P | — |
| C52 | `NistCurve.C52_roundtrip` | C Q P | — |
| C52 | `NistCurve.C52_termination` | C Q P | — |
| C52 | `C55_sound` | C Q P | — |
| C53 | `NistCurve.C53_verify` | C Q P | — |
| C53 | `C55_sound` | C Q P | — |
| C54 | `NistCurve.C54_agreement` | C Q P | — |
| C54 | `NistCurve.C54_secret` | C Q P | — |
| C54 | `NistCurve.C54_succeeds` | C Q P | — |
| C54 | `C55_sound` | C Q P | — |
| C55 | `C55_by_name` | none | — |
| C55 | `C55_by_name_bytes` | C Q P | — |
| C55 | `C55_sound` | C Q P | — |
| C55 | `C55_sound_bytes` | C Q P | — |
| C55 | `C55_order` | C Q P | — |
| C55 | `C55_P256` | C Q P | — |
| C55 | `C55_P384` | C Q P | — |
| C55 | `C55_P521` | C Q P | — |
| C56 | `NistCurve.C56_key_pair` | C Q P | — |
| C56 | `C55_sound` | C Q P | — |
| C57 | `C57_roundtrip` | C Q P | `BlockCipher.Lawful`, `Hashes.Lawful` |
| C57 | `C57_total` | C Q P | `BlockCipher.Lawful`, `Hashes.Lawful` |
| C58 | `C58_roundtrip` | C Q P | `BlockCipher.Lawful`, `Hashes.Lawful`, `RsaLib.Lawful`, `Zlib.Lawful` |
| C58 | `C58_supplied` | C Q P | `BlockCipher.Lawful`, `Hashes.Lawful`, `Zlib.Lawful` |
| C58 | `C58_total` | C Q P | `BlockCipher.Lawful`, `Hashes.Lawful`, `RsaLib.Lawful`, `Zlib.Lawful` |
| C59 | `C59_roundtrip` | C Q P | `BlockCipher.Lawful`, `Hashes.Lawful` |
| C59 | `C59_total` | C Q P | `BlockCipher.Lawful`, `Hashes.Lawful` |
| C60 | `C60_authenticated` | C Q P | `BlockCipher.Lawful` |
| C60 | `C60_tag_unique` | C Q P | — |
| C60 | `C60_collision` | C Q P | — |
| C60 | `C60_modified` | C Q P | `BlockCipher.Lawful` |
| C61 | `C61_gate` | C Q P | `BlockCipher.Lawful` |
| C61 | `C61_mismatch` | C Q P | — |
| C61 | `C61_unchecked` | C Q P | — |
| C62 | `C62_first` | C Q P | `Spec.LibQuiet` |
| C62 | `C62_abort_sym` | C Q P | `Hashes.Lawful` |
| C62 | `C62_abort_rsa` | C Q P | `Spec.LibQuiet` |
| C62 | `C62_pkcs1` | C Q P | — |
| C63 | `C63_five` | C Q P | `BlockCipher.Lawful` |
| C63 | `C63_sym` | C Q P | — |
| C63 | `C63_extra` | C Q P | — |
| C64 | `C64_sizes` | P | — |
| C64 | `C64_unknown` | C Q P | — |
| C65 | `C65_public` | C Q P | — |
| C65 | `C65_needless` | C Q P | — |
| C66 | `C66_left_hash` | C Q P | `Hashes.Lawful` |
| C66 | `C66_other` | C Q P | — |
| C67 | `C67_new` | C Q P | — |
| C67 | `C67_crypt` | C Q P | — |
| C68 | `C68_derivation` | C Q P | — |
| C68 | `C68_text` | C Q P | — |
| C68 | `C68_other` | C Q P | — |
| C68 | `C68_length` | P | `Hashes.Lawful` |
| C68 | `C68_missing` | C Q P | — |
| C69 | `C69_b_unused` | C Q P | — |
| C69 | `C69_dh_b_unused` | C Q P | — |
| C69 | `C69_other_curve` | C Q P | — |
| C69 | `C69_small_subgroup` | C Q P | — |
| C70 | `NistCurve.C70_shrink` | Q P | — |
| C70 | `NistCurve.C70_halved` | C Q P | — |
| C70 | `NistCurve.C70_collision` | C Q P | — |
| C70 | `NistCurve.C70_unchanged` | Q P | — |
| C70 | `NistCurve.C70_P521` | Q P | — |
| C71 | `NistCurve.C71_negated` | C Q P | — |
| C71 | `NistCurve.C71_padded` | C Q P | — |
| C72 | `NistCurve.C72_outcome` | C Q P | — |
| C72 | `NistCurve.C72_diverges` | C Q P | — |
| C73 | `NistCurve.C73_uncompress` | none | — |
| C73 | `NistCurve.C73_injective` | C Q P | — |
| C74 | `C74_irreducible` | C Q P | — |
| C74 | `C74_few_keys` | C Q P | — |
| C74 | `C74_inverse` | C Q P | — |
| C75 | `C75_poisoned` | C Q P | — |
| C76 | `C76_no_alg` | C Q P | — |
| C76 | `C76_jwk` | C Q P | — |
| C77 | `C77_loads` | C Q P | — |
| C77 | `C77_forgery` | C Q P | — |
| C77 | `infinity_accepts` | C Q P | — |
| C78 | `C78_forgery` | C Q P | `BlockCipher.Lawful`, `Hashes.Lawful` |
| C79 | `C79_zeros` | C Q P | — |
| C79 | `C79_trailing` | C Q P | — |
| C80 | `C80_cert` | C Q P | — |
| C80 | `C80_material` | C Q P | — |
| C80 | `C80_mismatch` | C Q P | — |
| C80 | `C80_chain` | C Q P | — |
| C80 | `C80_unchecked` | C Q P | — |
| C80 | `C80_keyrep` | C Q P | — |
| C81 | `C81_missing` | C Q P | — |
| C81 | `C81_no_kty` | C Q P | — |
| C81 | `C81_unknown` | C Q P | — |
| C81 | `C81_only` | C Q P | — |
| C81 | `C81_ec` | C Q P | — |
| C81 | `C81_rsa` | C Q P | — |
| C81 | `C81_sym` | C Q P | — |
| C82 | `C82_to_dict` | C Q P | — |
| C82 | `C82_plain` | C Q P | — |
| C82 | `C82_extra` | C Q P | — |
| C82 | `C82_known` | C Q P | — |
| C82 | `C82_not_json` | C Q P | — |
| C83 | `C83_rsa` | C Q P | — |
| C83 | `C83_text` | C Q P | — |
| C83 | `C83_curve` | C Q P | — |
| C83 | `C83_curve_ok` | C Q P | — |
| C83 | `C83_other` | C Q P | — |
| C84 | `C84_jwks` | C Q P | — |
| C85 | `C85_success` | C Q P | — |
| C85 | `C85_unsigned` | C Q P | — |
| C85 | `C85_failure` | C Q P | — |
| C85 | `C85_pins` | C Q P | — |
| C85 | `C85_forged_first` | C Q P | — |
| C85 | `C85_json` | C Q P | — |
| C86 | `C86_sign_pins` | C Q P | — |
| C86 | `C86_history` | C Q P | — |
| C86 | `C86_unsigned_forever` | C Q P | — |
| C87 | `C87_reply` | C Q P | — |
| C87 | `C87_own_key` | C Q P | — |
| C88 | `C88_is_header` | C Q P | — |
| C88 | `C88_stale` | C Q P | — |
| C89 | `C89_wrap` | C Q P | — |
| C89 | `C89_ecdh` | C Q P | — |
| C89 | `C89_rsa` | C Q P | — |
| C89 | `C89_jwk` | C Q P | — |
| C90 | `C90_content` | C Q P | `BlockCipher.Lawful` |
| C90 | `C90_unique` | C Q P | — |
| C90 | `C90_wrap` | C Q P | `BlockCipher.Lawful`, `Hashes.Lawful` |
| C90 | `C90_rsa` | C Q P | `BlockCipher.Lawful` |
| C90 | `C90_ecdh` | C Q P | `BlockCipher.Lawful`, `Hashes.Lawful` |
| C91 | `C91_direct` | C Q P | `Hashes.Lawful` |
| C91 | `C91_wrap` | C Q P | `Hashes.Lawful` |
| C92 | `C92_only_cek` | C Q P | — |
| C92 | `C92_decrypt` | C Q P | — |
| C92 | `C92_encrypt` | C Q P | — |
| C92 | `C92_stores` | C Q P | `BlockCipher.Lawful` |
| C92 | `C92_reuse` | C Q P | `BlockCipher.Lawful`, `Hashes.Lawful` |
| C93 | `C93_message` | C Q P | `BlockCipher.Lawful` |
| C93 | `C93_sealed` | C Q P | `BlockCipher.Lawful` |
| C94 | `C94_instance` | C Q P | — |
| C94 | `C94_both` | C Q P | — |
| C94 | `C94_not_text` | C Q P | — |
| C94 | `C94_load` | Q P | — |
| C94 | `C94_stale` | C Q P | — |
| C94 | `C94_load_empty` | Q P | — |
| C94 | `C94_again` | C Q P | — |
| C94 | `C94_ec` | C Q P | — |
| C94 | `C94_deserialize` | C Q P | — |
| C94 | `C94_plain` | C Q P | — |
| C95 | `C95_text` | C Q P | — |
| C95 | `C95_text_unique` | C Q P | — |
| C95 | `C95_order` | C Q P | — |
| C95 | `C95_default` | C Q P | — |
| C95 | `C95_absent` | C Q P | — |
| C95 | `C95_private` | C Q P | — |
| C95 | `C95_digest` | C Q P | — |
| C95 | `C95_digest_default` | C Q P | — |
| C95 | `C95_get_hash` | C Q P | — |
| C95 | `C95_get_hash_error` | C Q P | — |
| C95 | `C95_hash_follows` | C Q P | — |
| C95 | `C95_add_kid` | C Q P | — |
| C96 | `C96_mpint` | Q P | — |
| C96 | `C96_mp2bin` | Q P | — |
| C96 | `C96_party` | Q P | — |
| C96 | `C96_hash_input` | C Q P | — |
| C96 | `C96_key_eq` | P | — |
| C96 | `C96_items_rsa` | C Q P | — |
| C96 | `C96_items` | C Q P | — |
| C97 | `C97_laws` | C Q P | `BlockCipher.Lawful`, `Hashes.Lawful`, `RsaLib.Lawful` |
| C97 | `C97_construct` | C Q P | — |
| C97 | `C97_quiet` | C Q P | `Spec.LibQuiet` |
| C97 | `C97_jws` | C Q P | `JsonBytesLawful` |
| C97 | `C97_jws_any` | C Q P | `JsonBytesLawful` |
| C97 | `C97_wrap` | C Q P | — |
| C97 | `C97_ecdh` | C Q P | — |
| C97 | `C97_rsa` | C Q P | `Zlib.Lawful` |
| C98 | `C98_publish` | C Q P | `RsaLib.Lawful`, `JsonBytesLawful` |
| C98 | `C98_publish_any` | C Q P | `JsonBytesLawful` |
| C98 | `C98_cannot_sign` | C Q P | — |
| C99 | `C99_item` | C Q P | — |
| C99 | `C99_item_total` | C Q P | — |
| C99 | `C99_item_error` | C Q P | — |
| C99 | `C99_same_token` | C Q P | — |
| C99 | `C99_refused` | C Q P | — |
| C99 | `C99_header_refused` | C Q P | — |
| C99 | `C99_roundtrip` | C Q P | `RsaLib.Lawful`, `JsonBytesLawful` |
