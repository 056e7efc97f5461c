c("C01", "proved", "C01_roundtrip")
c("C02", "proved", "C02_rfc4648 C02_unique C02_length C02_injective")
c("C03", "proved", "C03_accepts_iff C03_errors C03_unpadded C03_violated",
  "The documented claim is false of the code (newline before '='); C03_violated gives the witness, C03_accepts_iff the exact accept set.")
c("C04", "proved", "C04_same_bytes C04_malleable")
c("C05", "proved", "C05_roundtrip C05_zero C05_terminates C05_diverges")
c("C06", "proved", "C06_long_arr_long C06_arr_long_arr C06_intarr2bin C06_long2hexseq")
c("C07", "proved", "C07_safe_str_cmp C07_constant_time_compare")
c("C35", "proved", "C35_roundtrip C35_truncates")
c("C36", "proved", "C36_genuine C36_unique C36_errors")
c("C37", "proved", "C37_rfc3394 C37_default C37_withpad_raises")
c("C38", "proved", "C38_pad_length C38_roundtrip C38_trim C38_unchecked")
c("C39", "proved", "C39_roundtrip C39_bad_sizes")
c("C40", "proved", "C40_tag C40_injective C40_collision C40_no_decrypt")
c("C41", "proved", "C41_concat C41_extends")
c("C42", "proved", "C42_separates C42_ambiguous_names C42_agreement C42_succeeds")
c("C48", "proved", "C48_euclid C48_inv")
c("C49", "proved", "C49_element C49_curve_q C49_add C49_neg C49_addf C49_doublef C49_doublef_two_torsion C49_projective C49_rep_unique C49_rep_exists")
c("C50", "proved", "C50_digits C50_value C50_length C50_nonadjacent")
c("C51", "proved", "C51_mul C51_mulp C51_muladdp C51_agree C51_two_torsion_wrong")
c("C52", "proved", "NistCurve.C52_roundtrip NistCurve.C52_termination C55_sound")
c("C53", "proved", "NistCurve.C53_verify C55_sound")
c("C54", "proved", "NistCurve.C54_agreement NistCurve.C54_secret NistCurve.C54_succeeds C55_sound")
c("C55", "proved", "C55_by_name C55_by_name_bytes C55_sound C55_sound_bytes C55_order C55_P256 C55_P384 C55_P521",
  "Primality by kernel-checked Pocklington certificates, one of them by a Lucas (N+1) certificate.")
c("C56", "proved", "NistCurve.C56_key_pair C55_sound")
c("C69", "proved", "C69_b_unused C69_dh_b_unused C69_other_curve C69_small_subgroup")
c("C70", "proved", "NistCurve.C70_shrink NistCurve.C70_halved NistCurve.C70_collision NistCurve.C70_unchanged NistCurve.C70_P521")
c("C71", "proved", "NistCurve.C71_negated NistCurve.C71_padded")
c("C72", "proved", "NistCurve.C72_outcome NistCurve.C72_diverges")
c("C73", "proved", "NistCurve.C73_uncompress NistCurve.C73_injective")
c("C43", "proved", "C43_gf_mul C43_representation C43_comm C43_assoc C43_distrib C43_table")
c("C44", "proved", "C44_encrypt C44_round_trip C44_too_long")
c("C45", "proved", "C45_decrypt C45_tag_unique C45_tag_bits C45_history C45_reuse_refused C45_reuse_undetected")
c("C46", "proved", "C46_blocks_injective C46_collision")
c("C47", "proved", "C47_accepts C47_used_key C47_same_key C47_192")
c("C74", "proved", "C74_irreducible C74_few_keys C74_inverse")
c("C08", "proved", "C08_roundtrip C08_bytes C08_init")
c("C09", "proved", "C09_segments_unique C09_no_dot C09_unpack_iff C09_count")
c("C10", "proved", "C10_json C10_text C10_bytes C10_total C10_bad_cty")
c("C12", "proved", "C12_refused C12_allowed C12_only_none")
c("C13", "proved", "C13_sound")
c("C14", "proved", "C14_no_confusion")
c("C15", "proved", "C15_pinned C15_other_refused")
c("C16", "proved", "C16_history C16_accepted_pins")
c("C17", "proved", "C17_hmac C17_collision")
c("C18", "proved", "C18_no_alg C18_accepted_alg")
c("C20", "proved", "C20_some_key C20_first C20_order C20_order_matters softFail_hmac")
c("C11", "proved", "C11_roundtrip C11_json_message C11_text_message")
c("C19", "proved", "C19_filter C19_none C19_no_alg")
c("C21", "proved", "C21_exact C21_signed C21_silently_unsigned")
c("C22", "proved", "C22_header", "header material is assumed representable in JSON")
c("C23","proved","C23_exact C23_all_signed C23_empty","exact characterisation of verify_json; C23_empty proves that an empty signature list is accepted with None")
c("C24","proved","C24_roundtrip C24_no_headers C24_shape","general and flattened, any number of signatures; hypotheses on headers and keys are in HeaderOk")
c("C25","proved","C25_compact C25_compact_state C25_history C23_all_signed C25_embedded_key_trusted","the last one proves that verify_json without keys trusts a key embedded in the token")
c("C26", "proved", "C26_ignored C26_ctor", "the code violates the expectation of RFC 7515 4.1.11; the theorems state what it does")
c("C66", "proved", "C66_left_hash C66_other")
c("C76", "proved", "C76_no_alg C76_jwk")
c("C77", "proved", "C77_loads C77_forgery infinity_accepts", "a vulnerability")
c("C75", "proved", "C75_poisoned")
c("C28","proved","C28_rsa C28_rsa_public C28_sym C28_ec C28_ec_keyrep")
c("C29","proved","C29_noninterference C29_members C29_dump C29_sym")
c("C30","proved","C30_rsa C30_ec C30_members C30_cannot_sign C30_not_serializable C30_sym_secret")
c("C31","proved","C31_rsa C31_sym C31_ec C31_ec_not_rfc C31_rsa_injective C31_sym_injective C31_ec_injective C31_independent")
c("C32","proved","C32_eq C32_plain C32_hash_sets_kid C32_hash_changes_eq C32_hash_idempotent C32_history C32_contract_rsa C32_sym_secrets")
c("C33","proved","C33_history C33_by_kid C33_kids C33_key_types C33_key_types_text C33_getitem C33_as_dict")
c("C34","proved","C34_exact C34_sign","the code violates the expectation that such a key can sign; the theorems state what it does")
c("C68","proved","C68_derivation C68_text C68_other C68_length C68_missing")
c("C57","proved","C57_roundtrip C57_total","a supplied cek must have a length divisible by 8, otherwise wrapping raises")
c("C78","proved","C78_forgery","a vulnerability")
c("C79","proved","C79_zeros C79_trailing")
c("C58","proved","C58_roundtrip C58_supplied C58_total","the RSA primitives and the compression are parameters with a round-trip law")
c("C59","proved","C59_roundtrip C59_total","C59_total excludes an ephemeral key with first coordinate zero, which the library cannot serialize")
c("C60","proved","C60_authenticated C60_tag_unique C60_collision C60_modified","collision resistance of the MAC is not assumed; the theorems exhibit the collision")
c("C61","proved","C61_gate C61_mismatch C61_unchecked","includes a defect: names of the form A...KW are not checked against the supported list")
c("C62","proved","C62_first C62_abort_sym C62_abort_rsa C62_pkcs1","the code violates the expectation that the right key is found; the theorems state what it does")
c("C63","proved","C63_five C63_sym C63_extra","a defect: extra segments are ignored on the RSA and Diffie-Hellman paths")
c("C64","proved","C64_sizes C64_unknown")
c("C65","proved","C65_public C65_needless","a defect")
c("C27","proved","C27_json C27_json_other C27_compact C27_factory C27_jwe C27_jwe_factory")
c("C67","proved","C67_new C67_crypt","a defect; the parts of the module that need an object are not modelled")
c("C80","proved","C80_cert C80_material C80_mismatch C80_chain C80_unchecked C80_keyrep","includes three defects; the certificate parser is a parameter")
c("C81","proved","C81_missing C81_no_kty C81_unknown C81_only C81_ec C81_rsa C81_sym")
c("C82","proved","C82_to_dict C82_plain C82_extra C82_known C82_not_json","the last part is a defect")
c("C83","proved","C83_rsa C83_text C83_curve C83_curve_ok C83_other","C83_curve_ok excludes a point with a zero coordinate, which the library refuses")
c("C84","proved","C84_jwks")
c("C85","proved","C85_success C85_unsigned C85_failure C85_pins C85_forged_first C85_json","includes two defects: a stale key and the algorithm fixed by a refused token")
c("C86","proved","C86_sign_pins C86_history C86_unsigned_forever")
c("C87","proved","C87_reply C87_own_key")
c("C88","proved","C88_is_header C88_stale","a defect")
c("C89","proved","C89_wrap C89_ecdh C89_rsa C89_jwk")
c("C90","proved","C90_content C90_unique C90_wrap C90_rsa C90_ecdh","departures from the standards are part of the statement")
c("C91","proved","C91_direct C91_wrap","a defect")
c("C92","proved","C92_only_cek C92_decrypt C92_encrypt C92_stores C92_reuse","includes a defect: the stored content key is used again")
c("C93","proved","C93_message C93_sealed")
c("C94","proved","C94_instance C94_both C94_not_text C94_load C94_stale C94_load_empty C94_again C94_ec C94_deserialize C94_plain","includes two defects; C94_again assumes modulus and exponent are not 0")
c("C95","proved","C95_text C95_text_unique C95_order C95_default C95_absent C95_private C95_digest C95_digest_default C95_get_hash C95_get_hash_error C95_hash_follows C95_add_kid","includes a defect: hash depends on an earlier get_hash")
c("C96","proved","C96_mpint C96_mp2bin C96_party C96_hash_input C96_key_eq C96_items_rsa C96_items","mostly defects of unused functions")
c("C97","proved","C97_laws C97_construct C97_quiet C97_jws C97_jws_any C97_wrap C97_ecdh C97_rsa","The standards are formalised in lean/Verif/Real (AES, SHA-1/2, HMAC, RSA with its paddings; published test vectors are checked by the kernel). Certificates, zlib and JSON of bytes that are not UTF-8 remain parameters.")
c("C98","proved","C98_publish C98_publish_any C98_cannot_sign","the key sets are those of C84; the second and third theorem are for the standard algorithms of lean/Verif/Real")
c("C99","proved","C99_item C99_item_total C99_item_error C99_same_token C99_refused C99_header_refused C99_roundtrip","the refusal of floats is a defect")
c("C100","proved","C100_signs C100_no_key C100_hmac C100_rsa C100_ecdsa C100_sign_verify","C100_sign_verify for ECDSA has that the key can sign as a hypothesis (`CanSign`); C100_ecdsa says exactly how often it cannot: the loop of ecc.py goes on with the same nonce if r or s is 0")
c("C101","proved","C101_nested C101_claims C101_wrap C101_rsa C101_ecdh","with RSA1_5 the random substitute key drawn by the receiver must differ from the content key; signed tokens of up to 2^36 bytes (limit of GCM)")
c("C102","proved","C102_keys C102_keys_total C102_unsigned C102_unsigned_refused C102_hmac C102_nested_lost C102_decrypt_silent C102_decrypt_fails","standard algorithms (C97) for C102_hmac and C102_nested_lost; option parsing and reading of files are not modelled")
c("C103","proved","C103_rsa C103_x509_url","standard algorithms (C97); reading of key files is a parameter; with RSA1_5 the random substitute key drawn by the receiver must differ from the content key; messages of up to 2^36 bytes")
c("C104","proved","C104_signed C104_wrap C104_rsa C104_ecdh","tokens made with values that JSON can express")
c("C105","proved","C105_loads C105_roundtrip","standard algorithms (C97) for the second theorem; the random text is a parameter")
c("C106","proved","C106_flat C106_general","keys are given by the caller (non-empty list)")
c("C107","proved","C107_spelling C107_companions C107_hmac C107_ecdsa_zeros C107_ecdsa_negated","the N-s companion is shown for a single key given by the caller, whose point is a multiple of the base point")
c("C108","proved","C108_size","standard algorithms (C97)")
c("C109","proved","C109_rsa C109_rsa_total C109_wrap C109_wrap_total C109_ecdh","laws of the primitives; the *_total theorems: standard algorithms (C97)")
c("C110","proved","C110_wrap C110_rsa C110_rsa_key C110_ecdh","laws of AES and hashes; C110_rsa_key: standard algorithms and a modulus of at least 1040 bits; ECDH-ES: the ephemeral point must not have x = 0 (the code cannot write a zero coordinate)")
c("C111","proved","C111_exact C111_content C111_192 C111_rsa C111_wrap","laws of AES and hashes; KeyTaken: the GCM class takes the key as a number, the hypothesis says that its length survives; for RSA1_5 the random sentinel must differ from the content key")
c("C112","proved","C112_verify C112_sign","C112_sign: no law of the curve beyond those proved; public point computed by public_key_for")
c("C113","proved","C113_loads C113_alg","object texts as json.dumps writes them, with any white space after comma and colon")
c("C114","proved","C114_needs C114_direct C114_wrap","laws of AES (and hashes for the wrapped form); KeyTaken as in C111")
c("C115","proved","C115_predict C115_words C115_token C115_key C115_ecdh","MT19937 and getrandbits as in CPython (Py/Random.lean) belong to the trusted reading of library code; C115_ecdh: laws of AES and hashes")
c("C116","proved","C116_oracle C116_multiple C116_interval","standard RSA, AES and hashes; zlib raises neither KeyError nor DecryptionFailed")
c("C117","proved","C117_tokens","")
c("C118","proved","C118_verbose C118_compact C118_json C118_published C118_encrypt","standard RSA (AES and hashes arbitrary in the proof, standard in the statement)")
c("C119","proved","NistCurve.C119_secret C119_points C119_guess C119_recovers C119_trials C119_answer","points given explicitly in Spec/WeakPoints.lean, checked by the kernel; that a token is not opened under a wrong guess is a matter of AES-GCM and not claimed")
c("C120","proved","C120_verify C120_wellformed C120_raised C120_keyError C120_badSignature","for the standard algorithms (Spec.Standard); RecursionError and MemoryError of json.loads on deeply nested or huge headers are outside the model")
c("C121","proved","C121_segments C121_valid C121_header C121_dump C121_decode C121_rsa_eq","the place of jwk among the names dump_header gives is not modelled")
c("C122","proved","C122_keys C122_nonce C122_public C122_bias","counts draws; that getrandbits is uniform is not claimed (see C115)")
c("C123","proved","C123_numbers C123_text","")
c("C124","proved","C124_forget C124_refused C124_bad_jwk C124_signs","")
c("C125","proved","C125_decrypt C125_family C125_raised C125_wrap C125_ecdh C125_rsa","For the standard algorithms; zlib raises zlib.error only.")
c("C126","proved","C126_key C126_v1 C126_exact C126_signature C126_whole C126_x5c C126_x5c_v1","DerSequence of PyCryptodome is modelled in Py/Der.lean; RSA.importKey is a parameter. C126_x5c: for environments that read certificates with der2rsa.")
c("C127","proved","C127_text C127_armour C127_pem C127_chain","The content of the file is the argument of the model.")
c("C128","proved","C128_call C128_calls C128_cached C128_text","import_rsa_key and the HTTP request are parameters; exceptions that are not subclasses of Exception are not modelled.")
c("C129","proved","C129_ec_public C129_ec_private C129_ec_blind C129_rsa","")
c("C130","proved","C130_family C130_set C130_types C130_other","For the standard algorithms with certificates read by der2rsa; RSA.importKey raises only what it documents (ValueError, IndexError, TypeError). RecursionError of json.loads is outside the model, and so is the endless loop of RSA.construct for d*e = 1.")
c("C131","proved","C131_verify C131_raised C131_exact","As for C130 and C120.")
c("C132","proved","C132_retry C132_unused C132_append C132_more","C132_more is for the standard algorithms (HMAC, RSA); an EC key can raise another exception that ends the loop (C20_order_matters, C120).")
c("C133","proved","C133_ignored C133_factory C133_stale C133_wrap C133_rsa C133_ecdh","")
c("C134","proved","C134_unused C134_append","keys put before the right one can prevent a decryption (C62)")
c("C135","proved","C135_tokens C135_tokens_es C135_rs C135_ps C135_es C135_digest_info C135_pss_block","standard algorithms (C97); PKCS #1 as PyCryptodome implements it; for ES* the length of the signature is not checked (C107)")
c("C136","proved","C136_tokens C136_es512","standard algorithms (C97); PKCS #1 as PyCryptodome implements it; algorithms other than none; nothing is said about when sign_compact raises")
c("C137","proved","C137_opens C137_seals C137_token C137_made","standard algorithms (C97); PKCS #1 as PyCryptodome implements it (Real/Rsa.lean); RSA1_5 with a sentinel as in C91: the random replacement must differ from the content key")
c("C138","proved","C138_json C138_unprotected C138_made","standard algorithms (C97); headers without member self and with a usable jwk, if any (C124, C131 for the rest); for ES256, ES384, ES512 see C106 and C135")
c("C139","proved","C139_export C139_import C139_rewrite","positive coordinates (serializing a zero raises TypeError, C05); the JWK has no members self and curve")
c("C140","proved","C140_export C140_instance C140_import","JWK without members self, key, x5c, di and with text labels; RSA.construct accepts the tuple")
c("C141","proved","C141_safe C141_alone C141_mixed C141_unsigned C141_same","a move writes the shared object at most once; what pick_keys reads besides the keys is arbitrary in C141_safe; error texts of the race not modelled")
c("C142","proved","C142_any C142_decrypt C142_encrypt C142_alone C142_agreement","a call computes on a view that may differ from the object in cek, then stores cek, then returns")
c("C143","proved","C143_total C143_roundtrip C143_supplied C143_length C143_five C143_class C143_from_jwe C143_to_jwe C143_apart","cipher and hash laws are hypotheses, as for C57")
c("C144","proved","C144_total C144_roundtrip C144_no_digest C144_digest_lost C144_padding C144_ignored","RSA, cipher, hash and zlib laws are hypotheses, as for C58; a content key or sentinel that ends in the SHA-1 digest of its own beginning is excepted where stated")
c("C145","proved","C145_total C145_roundtrip C145_opens C145_outcome C145_exact C145_before C145_ignored C145_empty C145_stale","cipher and hash laws are hypotheses; the tokens of dec_setup are taken as unpacked, with at least five parts where stated")
c("C146","proved","C146_total C146_roundtrip C146_direct C146_four C146_no_params C146_no_iv","cipher and hash laws are hypotheses; the keyword argument epk is a key object; params is the one of enc_setup or empty")
