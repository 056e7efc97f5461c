{
 "claims": [
  {
   "property": "C01",
   "status": "proved",
   "theorems": [
    "Verif.C01_roundtrip"
   ],
   "note": ""
  },
  {
   "property": "C02",
   "status": "proved",
   "theorems": [
    "Verif.C02_rfc4648",
    "Verif.C02_unique",
    "Verif.C02_length",
    "Verif.C02_injective"
   ],
   "note": ""
  },
  {
   "property": "C03",
   "status": "proved",
   "theorems": [
    "Verif.C03_accepts_iff",
    "Verif.C03_errors",
    "Verif.C03_unpadded",
    "Verif.C03_violated"
   ],
   "note": "The documented claim is false of the code (newline before '='); C03_violated gives the witness, C03_accepts_iff the exact accept set."
  },
  {
   "property": "C04",
   "status": "proved",
   "theorems": [
    "Verif.C04_same_bytes",
    "Verif.C04_malleable"
   ],
   "note": ""
  },
  {
   "property": "C05",
   "status": "proved",
   "theorems": [
    "Verif.C05_roundtrip",
    "Verif.C05_zero",
    "Verif.C05_terminates",
    "Verif.C05_diverges"
   ],
   "note": ""
  },
  {
   "property": "C06",
   "status": "proved",
   "theorems": [
    "Verif.C06_long_arr_long",
    "Verif.C06_arr_long_arr",
    "Verif.C06_intarr2bin",
    "Verif.C06_long2hexseq"
   ],
   "note": ""
  },
  {
   "property": "C07",
   "status": "proved",
   "theorems": [
    "Verif.C07_safe_str_cmp",
    "Verif.C07_constant_time_compare"
   ],
   "note": ""
  },
  {
   "property": "C08",
   "status": "proved",
   "theorems": [
    "Verif.C08_roundtrip",
    "Verif.C08_bytes",
    "Verif.C08_init"
   ],
   "note": ""
  },
  {
   "property": "C09",
   "status": "proved",
   "theorems": [
    "Verif.C09_segments_unique",
    "Verif.C09_no_dot",
    "Verif.C09_unpack_iff",
    "Verif.C09_count"
   ],
   "note": ""
  },
  {
   "property": "C10",
   "status": "proved",
   "theorems": [
    "Verif.C10_json",
    "Verif.C10_text",
    "Verif.C10_bytes",
    "Verif.C10_total",
    "Verif.C10_bad_cty"
   ],
   "note": ""
  },
  {
   "property": "C100",
   "status": "proved",
   "theorems": [
    "Verif.C100_signs",
    "Verif.C100_no_key",
    "Verif.C100_hmac",
    "Verif.C100_rsa",
    "Verif.C100_ecdsa",
    "Verif.C100_sign_verify"
   ],
   "note": "C100_sign_verify for ECDSA has that the key can sign as a hypothesis (`CanSign`); C100_ecdsa says exactly how often it cannot: the loop of ecc.py goes on with the same nonce if r or s is 0"
  },
  {
   "property": "C101",
   "status": "proved",
   "theorems": [
    "Verif.C101_nested",
    "Verif.C101_claims",
    "Verif.C101_wrap",
    "Verif.C101_rsa",
    "Verif.C101_ecdh"
   ],
   "note": "with RSA1_5 the random substitute key drawn by the receiver must differ from the content key; signed tokens of up to 2^36 bytes (limit of GCM)"
  },
  {
   "property": "C102",
   "status": "proved",
   "theorems": [
    "Verif.C102_keys",
    "Verif.C102_keys_total",
    "Verif.C102_unsigned",
    "Verif.C102_unsigned_refused",
    "Verif.C102_hmac",
    "Verif.C102_nested_lost",
    "Verif.C102_decrypt_silent",
    "Verif.C102_decrypt_fails"
   ],
   "note": "standard algorithms (C97) for C102_hmac and C102_nested_lost; option parsing and reading of files are not modelled"
  },
  {
   "property": "C103",
   "status": "proved",
   "theorems": [
    "Verif.C103_rsa",
    "Verif.C103_x509_url"
   ],
   "note": "standard algorithms (C97); reading of key files is a parameter; with RSA1_5 the random substitute key drawn by the receiver must differ from the content key; messages of up to 2^36 bytes"
  },
  {
   "property": "C104",
   "status": "proved",
   "theorems": [
    "Verif.C104_signed",
    "Verif.C104_wrap",
    "Verif.C104_rsa",
    "Verif.C104_ecdh"
   ],
   "note": "tokens made with values that JSON can express"
  },
  {
   "property": "C105",
   "status": "proved",
   "theorems": [
    "Verif.C105_loads",
    "Verif.C105_roundtrip"
   ],
   "note": "standard algorithms (C97) for the second theorem; the random text is a parameter"
  },
  {
   "property": "C106",
   "status": "proved",
   "theorems": [
    "Verif.C106_flat",
    "Verif.C106_general"
   ],
   "note": "keys are given by the caller (non-empty list)"
  },
  {
   "property": "C107",
   "status": "proved",
   "theorems": [
    "Verif.C107_spelling",
    "Verif.C107_companions",
    "Verif.C107_hmac",
    "Verif.C107_ecdsa_zeros",
    "Verif.C107_ecdsa_negated"
   ],
   "note": "the N-s companion is shown for a single key given by the caller, whose point is a multiple of the base point"
  },
  {
   "property": "C108",
   "status": "proved",
   "theorems": [
    "Verif.C108_size"
   ],
   "note": "standard algorithms (C97)"
  },
  {
   "property": "C109",
   "status": "proved",
   "theorems": [
    "Verif.C109_rsa",
    "Verif.C109_rsa_total",
    "Verif.C109_wrap",
    "Verif.C109_wrap_total",
    "Verif.C109_ecdh"
   ],
   "note": "laws of the primitives; the *_total theorems: standard algorithms (C97)"
  },
  {
   "property": "C11",
   "status": "proved",
   "theorems": [
    "Verif.C11_roundtrip",
    "Verif.C11_json_message",
    "Verif.C11_text_message"
   ],
   "note": ""
  },
  {
   "property": "C110",
   "status": "proved",
   "theorems": [
    "Verif.C110_wrap",
    "Verif.C110_rsa",
    "Verif.C110_rsa_key",
    "Verif.C110_ecdh"
   ],
   "note": "laws of AES and hashes; C110_rsa_key: standard algorithms and a modulus of at least 1040 bits; ECDH-ES: the ephemeral point must not have x = 0 (the code cannot write a zero coordinate)"
  },
  {
   "property": "C111",
   "status": "proved",
   "theorems": [
    "Verif.C111_exact",
    "Verif.C111_content",
    "Verif.C111_192",
    "Verif.C111_rsa",
    "Verif.C111_wrap"
   ],
   "note": "laws of AES and hashes; KeyTaken: the GCM class takes the key as a number, the hypothesis says that its length survives; for RSA1_5 the random sentinel must differ from the content key"
  },
  {
   "property": "C112",
   "status": "proved",
   "theorems": [
    "Verif.C112_verify",
    "Verif.C112_sign"
   ],
   "note": "C112_sign: no law of the curve beyond those proved; public point computed by public_key_for"
  },
  {
   "property": "C113",
   "status": "proved",
   "theorems": [
    "Verif.C113_loads",
    "Verif.C113_alg"
   ],
   "note": "object texts as json.dumps writes them, with any white space after comma and colon"
  },
  {
   "property": "C114",
   "status": "proved",
   "theorems": [
    "Verif.C114_needs",
    "Verif.C114_direct",
    "Verif.C114_wrap"
   ],
   "note": "laws of AES (and hashes for the wrapped form); KeyTaken as in C111"
  },
  {
   "property": "C115",
   "status": "proved",
   "theorems": [
    "Verif.C115_predict",
    "Verif.C115_words",
    "Verif.C115_token",
    "Verif.C115_key",
    "Verif.C115_ecdh"
   ],
   "note": "MT19937 and getrandbits as in CPython (Py/Random.lean) belong to the trusted reading of library code; C115_ecdh: laws of AES and hashes"
  },
  {
   "property": "C116",
   "status": "proved",
   "theorems": [
    "Verif.C116_oracle",
    "Verif.C116_multiple",
    "Verif.C116_interval"
   ],
   "note": "standard RSA, AES and hashes; zlib raises neither KeyError nor DecryptionFailed"
  },
  {
   "property": "C117",
   "status": "proved",
   "theorems": [
    "Verif.C117_tokens"
   ],
   "note": ""
  },
  {
   "property": "C118",
   "status": "proved",
   "theorems": [
    "Verif.C118_verbose",
    "Verif.C118_compact",
    "Verif.C118_json",
    "Verif.C118_published",
    "Verif.C118_encrypt"
   ],
   "note": "standard RSA (AES and hashes arbitrary in the proof, standard in the statement)"
  },
  {
   "property": "C119",
   "status": "proved",
   "theorems": [
    "Verif.NistCurve.C119_secret",
    "Verif.C119_points",
    "Verif.C119_guess",
    "Verif.C119_recovers",
    "Verif.C119_trials",
    "Verif.C119_answer"
   ],
   "note": "points given explicitly in Spec/WeakPoints.lean, checked by the kernel; that a token is not opened under a wrong guess is a matter of AES-GCM and not claimed"
  },
  {
   "property": "C12",
   "status": "proved",
   "theorems": [
    "Verif.C12_refused",
    "Verif.C12_allowed",
    "Verif.C12_only_none"
   ],
   "note": ""
  },
  {
   "property": "C120",
   "status": "proved",
   "theorems": [
    "Verif.C120_verify",
    "Verif.C120_wellformed",
    "Verif.C120_raised",
    "Verif.C120_keyError",
    "Verif.C120_badSignature"
   ],
   "note": "for the standard algorithms (Spec.Standard); RecursionError and MemoryError of json.loads on deeply nested or huge headers are outside the model"
  },
  {
   "property": "C121",
   "status": "proved",
   "theorems": [
    "Verif.C121_segments",
    "Verif.C121_valid",
    "Verif.C121_header",
    "Verif.C121_dump",
    "Verif.C121_decode",
    "Verif.C121_rsa_eq"
   ],
   "note": "the place of jwk among the names dump_header gives is not modelled"
  },
  {
   "property": "C122",
   "status": "proved",
   "theorems": [
    "Verif.C122_keys",
    "Verif.C122_nonce",
    "Verif.C122_public",
    "Verif.C122_bias"
   ],
   "note": "counts draws; that getrandbits is uniform is not claimed (see C115)"
  },
  {
   "property": "C123",
   "status": "proved",
   "theorems": [
    "Verif.C123_numbers",
    "Verif.C123_text"
   ],
   "note": ""
  },
  {
   "property": "C124",
   "status": "proved",
   "theorems": [
    "Verif.C124_forget",
    "Verif.C124_refused",
    "Verif.C124_bad_jwk",
    "Verif.C124_signs"
   ],
   "note": ""
  },
  {
   "property": "C125",
   "status": "proved",
   "theorems": [
    "Verif.C125_decrypt",
    "Verif.C125_family",
    "Verif.C125_raised",
    "Verif.C125_wrap",
    "Verif.C125_ecdh",
    "Verif.C125_rsa"
   ],
   "note": "For the standard algorithms; zlib raises zlib.error only."
  },
  {
   "property": "C126",
   "status": "proved",
   "theorems": [
    "Verif.C126_key",
    "Verif.C126_v1",
    "Verif.C126_exact",
    "Verif.C126_signature",
    "Verif.C126_whole",
    "Verif.C126_x5c",
    "Verif.C126_x5c_v1"
   ],
   "note": "DerSequence of PyCryptodome is modelled in Py/Der.lean; RSA.importKey is a parameter. C126_x5c: for environments that read certificates with der2rsa."
  },
  {
   "property": "C127",
   "status": "proved",
   "theorems": [
    "Verif.C127_text",
    "Verif.C127_armour",
    "Verif.C127_pem",
    "Verif.C127_chain"
   ],
   "note": "The content of the file is the argument of the model."
  },
  {
   "property": "C128",
   "status": "proved",
   "theorems": [
    "Verif.C128_call",
    "Verif.C128_calls",
    "Verif.C128_cached",
    "Verif.C128_text"
   ],
   "note": "import_rsa_key and the HTTP request are parameters; exceptions that are not subclasses of Exception are not modelled."
  },
  {
   "property": "C129",
   "status": "proved",
   "theorems": [
    "Verif.C129_ec_public",
    "Verif.C129_ec_private",
    "Verif.C129_ec_blind",
    "Verif.C129_rsa"
   ],
   "note": ""
  },
  {
   "property": "C13",
   "status": "proved",
   "theorems": [
    "Verif.C13_sound"
   ],
   "note": ""
  },
  {
   "property": "C130",
   "status": "proved",
   "theorems": [
    "Verif.C130_family",
    "Verif.C130_set",
    "Verif.C130_types",
    "Verif.C130_other"
   ],
   "note": "For the standard algorithms with certificates read by der2rsa; RSA.importKey raises only what it documents (ValueError, IndexError, TypeError). RecursionError of json.loads is outside the model, and so is the endless loop of RSA.construct for d*e = 1."
  },
  {
   "property": "C131",
   "status": "proved",
   "theorems": [
    "Verif.C131_verify",
    "Verif.C131_raised",
    "Verif.C131_exact"
   ],
   "note": "As for C130 and C120."
  },
  {
   "property": "C132",
   "status": "proved",
   "theorems": [
    "Verif.C132_retry",
    "Verif.C132_unused",
    "Verif.C132_append",
    "Verif.C132_more"
   ],
   "note": "C132_more is for the standard algorithms (HMAC, RSA); an EC key can raise another exception that ends the loop (C20_order_matters, C120)."
  },
  {
   "property": "C133",
   "status": "proved",
   "theorems": [
    "Verif.C133_ignored",
    "Verif.C133_factory",
    "Verif.C133_stale",
    "Verif.C133_wrap",
    "Verif.C133_rsa",
    "Verif.C133_ecdh"
   ],
   "note": ""
  },
  {
   "property": "C134",
   "status": "proved",
   "theorems": [
    "Verif.C134_unused",
    "Verif.C134_append"
   ],
   "note": "keys put before the right one can prevent a decryption (C62)"
  },
  {
   "property": "C135",
   "status": "proved",
   "theorems": [
    "Verif.C135_tokens",
    "Verif.C135_tokens_es",
    "Verif.C135_rs",
    "Verif.C135_ps",
    "Verif.C135_es",
    "Verif.C135_digest_info",
    "Verif.C135_pss_block"
   ],
   "note": "standard algorithms (C97); PKCS #1 as PyCryptodome implements it; for ES* the length of the signature is not checked (C107)"
  },
  {
   "property": "C136",
   "status": "proved",
   "theorems": [
    "Verif.C136_tokens",
    "Verif.C136_es512"
   ],
   "note": "standard algorithms (C97); PKCS #1 as PyCryptodome implements it; algorithms other than none; nothing is said about when sign_compact raises"
  },
  {
   "property": "C137",
   "status": "proved",
   "theorems": [
    "Verif.C137_opens",
    "Verif.C137_seals",
    "Verif.C137_token",
    "Verif.C137_made"
   ],
   "note": "standard algorithms (C97); PKCS #1 as PyCryptodome implements it (Real/Rsa.lean); RSA1_5 with a sentinel as in C91: the random replacement must differ from the content key"
  },
  {
   "property": "C138",
   "status": "proved",
   "theorems": [
    "Verif.C138_json",
    "Verif.C138_unprotected",
    "Verif.C138_made"
   ],
   "note": "standard algorithms (C97); headers without member self and with a usable jwk, if any (C124, C131 for the rest); for ES256, ES384, ES512 see C106 and C135"
  },
  {
   "property": "C139",
   "status": "proved",
   "theorems": [
    "Verif.C139_export",
    "Verif.C139_import",
    "Verif.C139_rewrite"
   ],
   "note": "positive coordinates (serializing a zero raises TypeError, C05); the JWK has no members self and curve"
  },
  {
   "property": "C14",
   "status": "proved",
   "theorems": [
    "Verif.C14_no_confusion"
   ],
   "note": ""
  },
  {
   "property": "C140",
   "status": "proved",
   "theorems": [
    "Verif.C140_export",
    "Verif.C140_instance",
    "Verif.C140_import"
   ],
   "note": "JWK without members self, key, x5c, di and with text labels; RSA.construct accepts the tuple"
  },
  {
   "property": "C141",
   "status": "proved",
   "theorems": [
    "Verif.C141_safe",
    "Verif.C141_alone",
    "Verif.C141_mixed",
    "Verif.C141_unsigned",
    "Verif.C141_same"
   ],
   "note": "a move writes the shared object at most once; what pick_keys reads besides the keys is arbitrary in C141_safe; error texts of the race not modelled"
  },
  {
   "property": "C142",
   "status": "proved",
   "theorems": [
    "Verif.C142_any",
    "Verif.C142_decrypt",
    "Verif.C142_encrypt",
    "Verif.C142_alone",
    "Verif.C142_agreement"
   ],
   "note": "a call computes on a view that may differ from the object in cek, then stores cek, then returns"
  },
  {
   "property": "C143",
   "status": "proved",
   "theorems": [
    "Verif.C143_total",
    "Verif.C143_roundtrip",
    "Verif.C143_supplied",
    "Verif.C143_length",
    "Verif.C143_five",
    "Verif.C143_class",
    "Verif.C143_from_jwe",
    "Verif.C143_to_jwe",
    "Verif.C143_apart"
   ],
   "note": "cipher and hash laws are hypotheses, as for C57"
  },
  {
   "property": "C144",
   "status": "proved",
   "theorems": [
    "Verif.C144_total",
    "Verif.C144_roundtrip",
    "Verif.C144_no_digest",
    "Verif.C144_digest_lost",
    "Verif.C144_padding",
    "Verif.C144_ignored"
   ],
   "note": "RSA, cipher, hash and zlib laws are hypotheses, as for C58; a content key or sentinel that ends in the SHA-1 digest of its own beginning is excepted where stated"
  },
  {
   "property": "C145",
   "status": "proved",
   "theorems": [
    "Verif.C145_total",
    "Verif.C145_roundtrip",
    "Verif.C145_opens",
    "Verif.C145_outcome",
    "Verif.C145_exact",
    "Verif.C145_before",
    "Verif.C145_ignored",
    "Verif.C145_empty",
    "Verif.C145_stale"
   ],
   "note": "cipher and hash laws are hypotheses; the tokens of dec_setup are taken as unpacked, with at least five parts where stated"
  },
  {
   "property": "C146",
   "status": "proved",
   "theorems": [
    "Verif.C146_total",
    "Verif.C146_roundtrip",
    "Verif.C146_direct",
    "Verif.C146_four",
    "Verif.C146_no_params",
    "Verif.C146_no_iv"
   ],
   "note": "cipher and hash laws are hypotheses; the keyword argument epk is a key object; params is the one of enc_setup or empty"
  },
  {
   "property": "C15",
   "status": "proved",
   "theorems": [
    "Verif.C15_pinned",
    "Verif.C15_other_refused"
   ],
   "note": ""
  },
  {
   "property": "C16",
   "status": "proved",
   "theorems": [
    "Verif.C16_history",
    "Verif.C16_accepted_pins"
   ],
   "note": ""
  },
  {
   "property": "C17",
   "status": "proved",
   "theorems": [
    "Verif.C17_hmac",
    "Verif.C17_collision"
   ],
   "note": ""
  },
  {
   "property": "C18",
   "status": "proved",
   "theorems": [
    "Verif.C18_no_alg",
    "Verif.C18_accepted_alg"
   ],
   "note": ""
  },
  {
   "property": "C19",
   "status": "proved",
   "theorems": [
    "Verif.C19_filter",
    "Verif.C19_none",
    "Verif.C19_no_alg"
   ],
   "note": ""
  },
  {
   "property": "C20",
   "status": "proved",
   "theorems": [
    "Verif.C20_some_key",
    "Verif.C20_first",
    "Verif.C20_order",
    "Verif.C20_order_matters",
    "Verif.softFail_hmac"
   ],
   "note": ""
  },
  {
   "property": "C21",
   "status": "proved",
   "theorems": [
    "Verif.C21_exact",
    "Verif.C21_signed",
    "Verif.C21_silently_unsigned"
   ],
   "note": ""
  },
  {
   "property": "C22",
   "status": "proved",
   "theorems": [
    "Verif.C22_header"
   ],
   "note": "header material is assumed representable in JSON"
  },
  {
   "property": "C23",
   "status": "proved",
   "theorems": [
    "Verif.C23_exact",
    "Verif.C23_all_signed",
    "Verif.C23_empty"
   ],
   "note": "exact characterisation of verify_json; C23_empty proves that an empty signature list is accepted with None"
  },
  {
   "property": "C24",
   "status": "proved",
   "theorems": [
    "Verif.C24_roundtrip",
    "Verif.C24_no_headers",
    "Verif.C24_shape"
   ],
   "note": "general and flattened, any number of signatures; hypotheses on headers and keys are in HeaderOk"
  },
  {
   "property": "C25",
   "status": "proved",
   "theorems": [
    "Verif.C25_compact",
    "Verif.C25_compact_state",
    "Verif.C25_history",
    "Verif.C23_all_signed",
    "Verif.C25_embedded_key_trusted"
   ],
   "note": "the last one proves that verify_json without keys trusts a key embedded in the token"
  },
  {
   "property": "C26",
   "status": "proved",
   "theorems": [
    "Verif.C26_ignored",
    "Verif.C26_ctor"
   ],
   "note": "the code violates the expectation of RFC 7515 4.1.11; the theorems state what it does"
  },
  {
   "property": "C27",
   "status": "proved",
   "theorems": [
    "Verif.C27_json",
    "Verif.C27_json_other",
    "Verif.C27_compact",
    "Verif.C27_factory",
    "Verif.C27_jwe",
    "Verif.C27_jwe_factory"
   ],
   "note": ""
  },
  {
   "property": "C28",
   "status": "proved",
   "theorems": [
    "Verif.C28_rsa",
    "Verif.C28_rsa_public",
    "Verif.C28_sym",
    "Verif.C28_ec",
    "Verif.C28_ec_keyrep"
   ],
   "note": ""
  },
  {
   "property": "C29",
   "status": "proved",
   "theorems": [
    "Verif.C29_noninterference",
    "Verif.C29_members",
    "Verif.C29_dump",
    "Verif.C29_sym"
   ],
   "note": ""
  },
  {
   "property": "C30",
   "status": "proved",
   "theorems": [
    "Verif.C30_rsa",
    "Verif.C30_ec",
    "Verif.C30_members",
    "Verif.C30_cannot_sign",
    "Verif.C30_not_serializable",
    "Verif.C30_sym_secret"
   ],
   "note": ""
  },
  {
   "property": "C31",
   "status": "proved",
   "theorems": [
    "Verif.C31_rsa",
    "Verif.C31_sym",
    "Verif.C31_ec",
    "Verif.C31_ec_not_rfc",
    "Verif.C31_rsa_injective",
    "Verif.C31_sym_injective",
    "Verif.C31_ec_injective",
    "Verif.C31_independent"
   ],
   "note": ""
  },
  {
   "property": "C32",
   "status": "proved",
   "theorems": [
    "Verif.C32_eq",
    "Verif.C32_plain",
    "Verif.C32_hash_sets_kid",
    "Verif.C32_hash_changes_eq",
    "Verif.C32_hash_idempotent",
    "Verif.C32_history",
    "Verif.C32_contract_rsa",
    "Verif.C32_sym_secrets"
   ],
   "note": ""
  },
  {
   "property": "C33",
   "status": "proved",
   "theorems": [
    "Verif.C33_history",
    "Verif.C33_by_kid",
    "Verif.C33_kids",
    "Verif.C33_key_types",
    "Verif.C33_key_types_text",
    "Verif.C33_getitem",
    "Verif.C33_as_dict"
   ],
   "note": ""
  },
  {
   "property": "C34",
   "status": "proved",
   "theorems": [
    "Verif.C34_exact",
    "Verif.C34_sign"
   ],
   "note": "the code violates the expectation that such a key can sign; the theorems state what it does"
  },
  {
   "property": "C35",
   "status": "proved",
   "theorems": [
    "Verif.C35_roundtrip",
    "Verif.C35_truncates"
   ],
   "note": ""
  },
  {
   "property": "C36",
   "status": "proved",
   "theorems": [
    "Verif.C36_genuine",
    "Verif.C36_unique",
    "Verif.C36_errors"
   ],
   "note": ""
  },
  {
   "property": "C37",
   "status": "proved",
   "theorems": [
    "Verif.C37_rfc3394",
    "Verif.C37_default",
    "Verif.C37_withpad_raises"
   ],
   "note": ""
  },
  {
   "property": "C38",
   "status": "proved",
   "theorems": [
    "Verif.C38_pad_length",
    "Verif.C38_roundtrip",
    "Verif.C38_trim",
    "Verif.C38_unchecked"
   ],
   "note": ""
  },
  {
   "property": "C39",
   "status": "proved",
   "theorems": [
    "Verif.C39_roundtrip",
    "Verif.C39_bad_sizes"
   ],
   "note": ""
  },
  {
   "property": "C40",
   "status": "proved",
   "theorems": [
    "Verif.C40_tag",
    "Verif.C40_injective",
    "Verif.C40_collision",
    "Verif.C40_no_decrypt"
   ],
   "note": ""
  },
  {
   "property": "C41",
   "status": "proved",
   "theorems": [
    "Verif.C41_concat",
    "Verif.C41_extends"
   ],
   "note": ""
  },
  {
   "property": "C42",
   "status": "proved",
   "theorems": [
    "Verif.C42_separates",
    "Verif.C42_ambiguous_names",
    "Verif.C42_agreement",
    "Verif.C42_succeeds"
   ],
   "note": ""
  },
  {
   "property": "C43",
   "status": "proved",
   "theorems": [
    "Verif.C43_gf_mul",
    "Verif.C43_representation",
    "Verif.C43_comm",
    "Verif.C43_assoc",
    "Verif.C43_distrib",
    "Verif.C43_table"
   ],
   "note": ""
  },
  {
   "property": "C44",
   "status": "proved",
   "theorems": [
    "Verif.C44_encrypt",
    "Verif.C44_round_trip",
    "Verif.C44_too_long"
   ],
   "note": ""
  },
  {
   "property": "C45",
   "status": "proved",
   "theorems": [
    "Verif.C45_decrypt",
    "Verif.C45_tag_unique",
    "Verif.C45_tag_bits",
    "Verif.C45_history",
    "Verif.C45_reuse_refused",
    "Verif.C45_reuse_undetected"
   ],
   "note": ""
  },
  {
   "property": "C46",
   "status": "proved",
   "theorems": [
    "Verif.C46_blocks_injective",
    "Verif.C46_collision"
   ],
   "note": ""
  },
  {
   "property": "C47",
   "status": "proved",
   "theorems": [
    "Verif.C47_accepts",
    "Verif.C47_used_key",
    "Verif.C47_same_key",
    "Verif.C47_192"
   ],
   "note": ""
  },
  {
   "property": "C48",
   "status": "proved",
   "theorems": [
    "Verif.C48_euclid",
    "Verif.C48_inv"
   ],
   "note": ""
  },
  {
   "property": "C49",
   "status": "proved",
   "theorems": [
    "Verif.C49_element",
    "Verif.C49_curve_q",
    "Verif.C49_add",
    "Verif.C49_neg",
    "Verif.C49_addf",
    "Verif.C49_doublef",
    "Verif.C49_doublef_two_torsion",
    "Verif.C49_projective",
    "Verif.C49_rep_unique",
    "Verif.C49_rep_exists"
   ],
   "note": ""
  },
  {
   "property": "C50",
   "status": "proved",
   "theorems": [
    "Verif.C50_digits",
    "Verif.C50_value",
    "Verif.C50_length",
    "Verif.C50_nonadjacent"
   ],
   "note": ""
  },
  {
   "property": "C51",
   "status": "proved",
   "theorems": [
    "Verif.C51_mul",
    "Verif.C51_mulp",
    "Verif.C51_muladdp",
    "Verif.C51_agree",
    "Verif.C51_two_torsion_wrong"
   ],
   "note": ""
  },
  {
   "property": "C52",
   "status": "proved",
   "theorems": [
    "Verif.NistCurve.C52_roundtrip",
    "Verif.NistCurve.C52_termination",
    "Verif.C55_sound"
   ],
   "note": ""
  },
  {
   "property": "C53",
   "status": "proved",
   "theorems": [
    "Verif.NistCurve.C53_verify",
    "Verif.C55_sound"
   ],
   "note": ""
  },
  {
   "property": "C54",
   "status": "proved",
   "theorems": [
    "Verif.NistCurve.C54_agreement",
    "Verif.NistCurve.C54_secret",
    "Verif.NistCurve.C54_succeeds",
    "Verif.C55_sound"
   ],
   "note": ""
  },
  {
   "property": "C55",
   "status": "proved",
   "theorems": [
    "Verif.C55_by_name",
    "Verif.C55_by_name_bytes",
    "Verif.C55_sound",
    "Verif.C55_sound_bytes",
    "Verif.C55_order",
    "Verif.C55_P256",
    "Verif.C55_P384",
    "Verif.C55_P521"
   ],
   "note": "Primality by kernel-checked Pocklington certificates, one of them by a Lucas (N+1) certificate."
  },
  {
   "property": "C56",
   "status": "proved",
   "theorems": [
    "Verif.NistCurve.C56_key_pair",
    "Verif.C55_sound"
   ],
   "note": ""
  },
  {
   "property": "C57",
   "status": "proved",
   "theorems": [
    "Verif.C57_roundtrip",
    "Verif.C57_total"
   ],
   "note": "a supplied cek must have a length divisible by 8, otherwise wrapping raises"
  },
  {
   "property": "C58",
   "status": "proved",
   "theorems": [
    "Verif.C58_roundtrip",
    "Verif.C58_supplied",
    "Verif.C58_total"
   ],
   "note": "the RSA primitives and the compression are parameters with a round-trip law"
  },
  {
   "property": "C59",
   "status": "proved",
   "theorems": [
    "Verif.C59_roundtrip",
    "Verif.C59_total"
   ],
   "note": "C59_total excludes an ephemeral key with first coordinate zero, which the library cannot serialize"
  },
  {
   "property": "C60",
   "status": "proved",
   "theorems": [
    "Verif.C60_authenticated",
    "Verif.C60_tag_unique",
    "Verif.C60_collision",
    "Verif.C60_modified"
   ],
   "note": "collision resistance of the MAC is not assumed; the theorems exhibit the collision"
  },
  {
   "property": "C61",
   "status": "proved",
   "theorems": [
    "Verif.C61_gate",
    "Verif.C61_mismatch",
    "Verif.C61_unchecked"
   ],
   "note": "includes a defect: names of the form A...KW are not checked against the supported list"
  },
  {
   "property": "C62",
   "status": "proved",
   "theorems": [
    "Verif.C62_first",
    "Verif.C62_abort_sym",
    "Verif.C62_abort_rsa",
    "Verif.C62_pkcs1"
   ],
   "note": "the code violates the expectation that the right key is found; the theorems state what it does"
  },
  {
   "property": "C63",
   "status": "proved",
   "theorems": [
    "Verif.C63_five",
    "Verif.C63_sym",
    "Verif.C63_extra"
   ],
   "note": "a defect: extra segments are ignored on the RSA and Diffie-Hellman paths"
  },
  {
   "property": "C64",
   "status": "proved",
   "theorems": [
    "Verif.C64_sizes",
    "Verif.C64_unknown"
   ],
   "note": ""
  },
  {
   "property": "C65",
   "status": "proved",
   "theorems": [
    "Verif.C65_public",
    "Verif.C65_needless"
   ],
   "note": "a defect"
  },
  {
   "property": "C66",
   "status": "proved",
   "theorems": [
    "Verif.C66_left_hash",
    "Verif.C66_other"
   ],
   "note": ""
  },
  {
   "property": "C67",
   "status": "proved",
   "theorems": [
    "Verif.C67_new",
    "Verif.C67_crypt"
   ],
   "note": "a defect; the parts of the module that need an object are not modelled"
  },
  {
   "property": "C68",
   "status": "proved",
   "theorems": [
    "Verif.C68_derivation",
    "Verif.C68_text",
    "Verif.C68_other",
    "Verif.C68_length",
    "Verif.C68_missing"
   ],
   "note": ""
  },
  {
   "property": "C69",
   "status": "proved",
   "theorems": [
    "Verif.C69_b_unused",
    "Verif.C69_dh_b_unused",
    "Verif.C69_other_curve",
    "Verif.C69_small_subgroup"
   ],
   "note": ""
  },
  {
   "property": "C70",
   "status": "proved",
   "theorems": [
    "Verif.NistCurve.C70_shrink",
    "Verif.NistCurve.C70_halved",
    "Verif.NistCurve.C70_collision",
    "Verif.NistCurve.C70_unchanged",
    "Verif.NistCurve.C70_P521"
   ],
   "note": ""
  },
  {
   "property": "C71",
   "status": "proved",
   "theorems": [
    "Verif.NistCurve.C71_negated",
    "Verif.NistCurve.C71_padded"
   ],
   "note": ""
  },
  {
   "property": "C72",
   "status": "proved",
   "theorems": [
    "Verif.NistCurve.C72_outcome",
    "Verif.NistCurve.C72_diverges"
   ],
   "note": ""
  },
  {
   "property": "C73",
   "status": "proved",
   "theorems": [
    "Verif.NistCurve.C73_uncompress",
    "Verif.NistCurve.C73_injective"
   ],
   "note": ""
  },
  {
   "property": "C74",
   "status": "proved",
   "theorems": [
    "Verif.C74_irreducible",
    "Verif.C74_few_keys",
    "Verif.C74_inverse"
   ],
   "note": ""
  },
  {
   "property": "C75",
   "status": "proved",
   "theorems": [
    "Verif.C75_poisoned"
   ],
   "note": ""
  },
  {
   "property": "C76",
   "status": "proved",
   "theorems": [
    "Verif.C76_no_alg",
    "Verif.C76_jwk"
   ],
   "note": ""
  },
  {
   "property": "C77",
   "status": "proved",
   "theorems": [
    "Verif.C77_loads",
    "Verif.C77_forgery",
    "Verif.infinity_accepts"
   ],
   "note": "a vulnerability"
  },
  {
   "property": "C78",
   "status": "proved",
   "theorems": [
    "Verif.C78_forgery"
   ],
   "note": "a vulnerability"
  },
  {
   "property": "C79",
   "status": "proved",
   "theorems": [
    "Verif.C79_zeros",
    "Verif.C79_trailing"
   ],
   "note": ""
  },
  {
   "property": "C80",
   "status": "proved",
   "theorems": [
    "Verif.C80_cert",
    "Verif.C80_material",
    "Verif.C80_mismatch",
    "Verif.C80_chain",
    "Verif.C80_unchecked",
    "Verif.C80_keyrep"
   ],
   "note": "includes three defects; the certificate parser is a parameter"
  },
  {
   "property": "C81",
   "status": "proved",
   "theorems": [
    "Verif.C81_missing",
    "Verif.C81_no_kty",
    "Verif.C81_unknown",
    "Verif.C81_only",
    "Verif.C81_ec",
    "Verif.C81_rsa",
    "Verif.C81_sym"
   ],
   "note": ""
  },
  {
   "property": "C82",
   "status": "proved",
   "theorems": [
    "Verif.C82_to_dict",
    "Verif.C82_plain",
    "Verif.C82_extra",
    "Verif.C82_known",
    "Verif.C82_not_json"
   ],
   "note": "the last part is a defect"
  },
  {
   "property": "C83",
   "status": "proved",
   "theorems": [
    "Verif.C83_rsa",
    "Verif.C83_text",
    "Verif.C83_curve",
    "Verif.C83_curve_ok",
    "Verif.C83_other"
   ],
   "note": "C83_curve_ok excludes a point with a zero coordinate, which the library refuses"
  },
  {
   "property": "C84",
   "status": "proved",
   "theorems": [
    "Verif.C84_jwks"
   ],
   "note": ""
  },
  {
   "property": "C85",
   "status": "proved",
   "theorems": [
    "Verif.C85_success",
    "Verif.C85_unsigned",
    "Verif.C85_failure",
    "Verif.C85_pins",
    "Verif.C85_forged_first",
    "Verif.C85_json"
   ],
   "note": "includes two defects: a stale key and the algorithm fixed by a refused token"
  },
  {
   "property": "C86",
   "status": "proved",
   "theorems": [
    "Verif.C86_sign_pins",
    "Verif.C86_history",
    "Verif.C86_unsigned_forever"
   ],
   "note": ""
  },
  {
   "property": "C87",
   "status": "proved",
   "theorems": [
    "Verif.C87_reply",
    "Verif.C87_own_key"
   ],
   "note": ""
  },
  {
   "property": "C88",
   "status": "proved",
   "theorems": [
    "Verif.C88_is_header",
    "Verif.C88_stale"
   ],
   "note": "a defect"
  },
  {
   "property": "C89",
   "status": "proved",
   "theorems": [
    "Verif.C89_wrap",
    "Verif.C89_ecdh",
    "Verif.C89_rsa",
    "Verif.C89_jwk"
   ],
   "note": ""
  },
  {
   "property": "C90",
   "status": "proved",
   "theorems": [
    "Verif.C90_content",
    "Verif.C90_unique",
    "Verif.C90_wrap",
    "Verif.C90_rsa",
    "Verif.C90_ecdh"
   ],
   "note": "departures from the standards are part of the statement"
  },
  {
   "property": "C91",
   "status": "proved",
   "theorems": [
    "Verif.C91_direct",
    "Verif.C91_wrap"
   ],
   "note": "a defect"
  },
  {
   "property": "C92",
   "status": "proved",
   "theorems": [
    "Verif.C92_only_cek",
    "Verif.C92_decrypt",
    "Verif.C92_encrypt",
    "Verif.C92_stores",
    "Verif.C92_reuse"
   ],
   "note": "includes a defect: the stored content key is used again"
  },
  {
   "property": "C93",
   "status": "proved",
   "theorems": [
    "Verif.C93_message",
    "Verif.C93_sealed"
   ],
   "note": ""
  },
  {
   "property": "C94",
   "status": "proved",
   "theorems": [
    "Verif.C94_instance",
    "Verif.C94_both",
    "Verif.C94_not_text",
    "Verif.C94_load",
    "Verif.C94_stale",
    "Verif.C94_load_empty",
    "Verif.C94_again",
    "Verif.C94_ec",
    "Verif.C94_deserialize",
    "Verif.C94_plain"
   ],
   "note": "includes two defects; C94_again assumes modulus and exponent are not 0"
  },
  {
   "property": "C95",
   "status": "proved",
   "theorems": [
    "Verif.C95_text",
    "Verif.C95_text_unique",
    "Verif.C95_order",
    "Verif.C95_default",
    "Verif.C95_absent",
    "Verif.C95_private",
    "Verif.C95_digest",
    "Verif.C95_digest_default",
    "Verif.C95_get_hash",
    "Verif.C95_get_hash_error",
    "Verif.C95_hash_follows",
    "Verif.C95_add_kid"
   ],
   "note": "includes a defect: hash depends on an earlier get_hash"
  },
  {
   "property": "C96",
   "status": "proved",
   "theorems": [
    "Verif.C96_mpint",
    "Verif.C96_mp2bin",
    "Verif.C96_party",
    "Verif.C96_hash_input",
    "Verif.C96_key_eq",
    "Verif.C96_items_rsa",
    "Verif.C96_items"
   ],
   "note": "mostly defects of unused functions"
  },
  {
   "property": "C97",
   "status": "proved",
   "theorems": [
    "Verif.C97_laws",
    "Verif.C97_construct",
    "Verif.C97_quiet",
    "Verif.C97_jws",
    "Verif.C97_jws_any",
    "Verif.C97_wrap",
    "Verif.C97_ecdh",
    "Verif.C97_rsa"
   ],
   "note": "The standards are formalised in lean/Verif/Real (AES, SHA-1/2, HMAC, RSA with its paddings; published test vectors are checked by the kernel). Certificates, zlib and JSON of bytes that are not UTF-8 remain parameters."
  },
  {
   "property": "C98",
   "status": "proved",
   "theorems": [
    "Verif.C98_publish",
    "Verif.C98_publish_any",
    "Verif.C98_cannot_sign"
   ],
   "note": "the key sets are those of C84; the second and third theorem are for the standard algorithms of lean/Verif/Real"
  },
  {
   "property": "C99",
   "status": "proved",
   "theorems": [
    "Verif.C99_item",
    "Verif.C99_item_total",
    "Verif.C99_item_error",
    "Verif.C99_same_token",
    "Verif.C99_refused",
    "Verif.C99_header_refused",
    "Verif.C99_roundtrip"
   ],
   "note": "the refusal of floats is a defect"
  }
 ]
}