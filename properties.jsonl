{"id": "C01", "title": "Base64url round trip", "statement": "Decoding with b64d what b64e produced gives back exactly the original bytes; no byte string makes either call raise.", "quantifier": "every byte string of every length", "why_tests_cant": "Byte strings are unbounded; the three residues mod 3 interact with padding stripping and re-adding.", "anchors": ["src/jwkest/__init__.py:b64e", "src/jwkest/__init__.py:b64d", "src/jwkest/__init__.py:add_padding"]}
{"id": "C02", "title": "Base64url output is the RFC 4648 unpadded encoding", "statement": "b64e output contains only A-Z a-z 0-9 - _, never '=', has length ceil(4n/3), spells the input bits six at a time (zero filled), and different inputs give different outputs.", "quantifier": "every byte string", "why_tests_cant": "Needs every length and content; a spec-level bit equality cannot be sampled.", "anchors": ["src/jwkest/__init__.py:b64e"]}
{"id": "C03", "title": "b64d accepts base64url text and nothing else", "statement": "b64d returns only if its argument is base64url alphabet characters followed by '=' characters; everything else raises. (The code violates this for text followed by a newline and '='; the exact accept set is proved instead.)", "quantifier": "every byte string", "why_tests_cant": "The accept set is infinite and depends on regex '$' and lenient binascii behaviour.", "anchors": ["src/jwkest/__init__.py:b64d", "src/jwkest/__init__.py:_b64_re", "src/jwkest/__init__.py:add_padding"]}
{"id": "C04", "title": "Unpadded base64url text is determined by its bytes up to unused bits", "statement": "If two unpadded strings are accepted by b64d and decode to the same bytes they have the same length and agree on every character except possibly the last, and they are equal when the decoded length is a multiple of 3; otherwise a second spelling always exists, so token text is not a unique name of its content.", "quantifier": "every pair of byte strings", "why_tests_cant": "Quantifies over pairs of unbounded strings.", "anchors": ["src/jwkest/__init__.py:b64d"]}
{"id": "C05", "title": "Integer JWK parameter round trip", "statement": "For every positive integer n, long_to_base64(n) succeeds, has no leading zero byte and base64_to_long of it is n; for n = 0 long_to_base64 raises, and for negative n it never returns.", "quantifier": "every integer", "why_tests_cant": "All integers; the negative case is a non-termination claim no test can observe.", "anchors": ["src/jwkest/__init__.py:long_to_base64", "src/jwkest/__init__.py:base64_to_long", "src/jwkest/__init__.py:long2intarr", "src/jwkest/__init__.py:intarr2long"]}
{"id": "C06", "title": "Byte-array/integer helpers are exact inverses", "statement": "intarr2long(long2intarr(n)) = n for n>0; long2intarr(intarr2long(a)) is a without its leading zeros for every nonempty byte array; intarr2bin(a) is exactly the bytes a; long2hexseq(n) returns the big-endian bytes exactly when n has an even number of hex digits and raises otherwise.", "quantifier": "every integer and byte array", "why_tests_cant": "Unbounded integers; parity of hex digits.", "anchors": ["src/jwkest/__init__.py:intarr2long", "src/jwkest/__init__.py:long2intarr", "src/jwkest/__init__.py:intarr2bin", "src/jwkest/__init__.py:long2hexseq"]}
{"id": "C07", "title": "Constant-time comparison decides equality", "statement": "constant_time_compare and safe_str_cmp return True exactly when their arguments are equal.", "quantifier": "every pair of byte strings / strings", "why_tests_cant": "A wrong accumulation (e.g. & or ^ instead of |) errs on a vanishing fraction of inputs.", "anchors": ["src/jwkest/__init__.py:constant_time_compare", "src/jwkest/__init__.py:safe_str_cmp"]}
{"id": "C08", "title": "JWT pack/unpack round trip", "statement": "Unpacking a packed token yields the same header object and byte-for-byte the same parts, for any header and any nonempty list of parts.", "quantifier": "every JSON-representable header and every list of byte-string or text parts", "why_tests_cant": "Unbounded headers and part lists.", "anchors": ["src/jwkest/jwt.py:JWT.pack", "src/jwkest/jwt.py:JWT.unpack", "src/jwkest/jwt.py:b64encode_item"]}
{"id": "C09", "title": "Token segmentation is exact", "statement": "unpack raises BadSyntax on text without a dot; otherwise it yields exactly one part per dot-separated segment, joining the segments gives back the token, and it returns only if every segment is individually decodable by b64d and the first is JSON.", "quantifier": "every byte string", "why_tests_cant": "All token texts, including hostile ones.", "anchors": ["src/jwkest/jwt.py:split_token", "src/jwkest/jwt.py:JWT.unpack"]}
{"id": "C10", "title": "Payload interpretation", "statement": "payload() returns the parsed JSON value when part 1 is JSON text and cty is absent or 'jwt' in any case, and otherwise the text; it never raises for string or absent cty. Bytes that are not UTF-8 are returned raw unless json.loads itself can decode them (UTF-16/32); a cty that is not a string raises AttributeError.", "quantifier": "every decoded token", "why_tests_cant": "All payloads and cty spellings.", "anchors": ["src/jwkest/jwt.py:JWT.payload", "src/jwkest/__init__.py:as_unicode"]}
{"id": "C11", "title": "Sign/verify round trip", "statement": "For HS/RS/PS/ES 256/384/512, whatever sign_compact with a non-empty key list returns is accepted by verify_compact on a fresh JWS with the same list (with or without naming the algorithm) and gives the signed message's payload interpretation: a JSON object or list comes back unchanged. Provisos: private and public half of the signing key belong together; a kid among the protected headers is not left standing for a key without kid; no other suitable key makes the verifier raise anything but BadSignature or IndexError; cty is absent or text.", "quantifier": "every message, algorithm, and key list", "why_tests_cant": "Messages, key sets and kid/use/alg tags are unbounded.", "anchors": ["src/jwkest/jws.py:JWS.sign_compact", "src/jwkest/jws.py:JWS.verify_compact", "src/jwkest/jws.py:JWS.verify_compact_verbose"]}
{"id": "C12", "title": "Unsigned tokens are never accepted unless allowed", "statement": "With allow_none false, verify_compact raises SignerAlgError for every three-part token whose header alg is null or any letter-case of 'none'; with allow_none true it returns the payload without any key; and nothing is ever accepted without a key except in that case.", "quantifier": "every token, key list, expected algorithm and object state", "why_tests_cant": "All spellings and all object states.", "anchors": ["src/jwkest/jws.py:JWS.verify_compact_verbose"]}
{"id": "C13", "title": "Verification soundness", "statement": "If verify_compact_verbose returns a key, the token has exactly three segments, the header names a supported algorithm, the key is one of the caller's keys (or, when none are given, the key set in the constructor), it passed the key-type/kid/alg filter, and the algorithm's verifier accepted exactly (segment0 '.' segment1) as sent with the decoded third segment under that key.", "quantifier": "every token text, key list, and object state", "why_tests_cant": "A forged token is an adversarial input; acceptance must be impossible, not just untested.", "anchors": ["src/jwkest/jws.py:JWS.verify_compact_verbose", "src/jwkest/jws.py:JWx.pick_keys"]}
{"id": "C14", "title": "No algorithm confusion", "statement": "A key whose type is not symmetric is never used as an HMAC key, and a symmetric key is never used for RS/PS/ES verification, whatever the token header says.", "quantifier": "every token, header alg and key list", "why_tests_cant": "Attack needs all headers x all key sets.", "anchors": ["src/jwkest/jws.py:JWx.pick_keys", "src/jwkest/jws.py:alg2keytype", "src/jwkest/jws.py:SIGNER_ALGS"]}
{"id": "C15", "title": "Expected-algorithm pinning", "statement": "If the caller passes sigalg (or constructed the object with alg), verify_compact returns a verified message only for tokens whose header alg equals it; the single exception is alg none with allow_none.", "quantifier": "every token, sigalg, constructor alg", "why_tests_cant": "All combinations of states and headers.", "anchors": ["src/jwkest/jws.py:JWS.verify_compact_verbose"]}
{"id": "C16", "title": "Algorithm pinning across a history of calls", "statement": "Once a JWS object has algorithm A, set in the constructor or by an accepted token, then after any sequence of verify_compact calls, successful or not, no later call on that object accepts a key-verified token with another algorithm.", "quantifier": "every finite sequence of verify calls with arbitrary tokens and keys", "why_tests_cant": "History property over unbounded call sequences.", "anchors": ["src/jwkest/jws.py:JWS.verify_compact_verbose"]}
{"id": "C17", "title": "HMAC token integrity", "statement": "If two tokens are accepted under the same HS algorithm and same secret with the same signature bytes but differ anywhere in the first two segments, the HMAC has a collision; in particular acceptance means the signature equals HMAC(secret, segments as sent).", "quantifier": "every pair of token texts", "why_tests_cant": "Adversarial modifications are unbounded.", "anchors": ["src/jwkest/jws.py:HMACSigner.verify", "src/jwkest/jws.py:JWS.verify_compact_verbose", "src/jwkest/jws.py:JWSig.sign_input"]}
{"id": "C18", "title": "Tokens without alg never verify", "statement": "A token whose header has no alg member, or an empty one, is never accepted, whatever the keys and allow_none; every accepted token has exactly three segments, an object as header, and a supported alg (or a spelling of none with allow_none).", "quantifier": "every token and key list", "why_tests_cant": "All tokens.", "anchors": ["src/jwkest/jws.py:JWS.verify_compact_verbose", "src/jwkest/jws.py:alg2keytype"]}
{"id": "C19", "title": "Key selection is exactly the documented filter", "statement": "pick_keys returns the subsequence, in order, of the given keys whose type matches the algorithm family (upper or lower case), whose kid equals the requested kid if there is one, whose use is empty or equal, and whose alg is empty or equal; for alg none or unknown families it is empty.", "quantifier": "every key list, kid, use, alg", "why_tests_cant": "Unbounded lists; order preservation.", "anchors": ["src/jwkest/jws.py:JWx.pick_keys", "src/jwkest/jws.py:alg2keytype"]}
{"id": "C20", "title": "Verification tries every suitable key", "statement": "If no suitable key makes the verifier raise anything but BadSignature or IndexError, verify_compact accepts iff some suitable key verifies, the key reported is the first such, and acceptance does not depend on the order of the keys. (Without that proviso order does matter: a key without material before the right one prevents acceptance.)", "quantifier": "every key list and permutation", "why_tests_cant": "Permutations of unbounded lists.", "anchors": ["src/jwkest/jws.py:JWS.verify_compact_verbose"]}
{"id": "C21", "title": "sign_compact never silently drops the signature", "statement": "The token sign_compact returns is unsigned exactly when the algorithm determined (the object's, else that of the only key given, else none) is none; otherwise it is signed by the first suitable key. With a supported algorithm set on the object the signature is never dropped. (But JWS(msg).sign_compact(keys) with two or more keys, whatever algorithms they carry, silently returns an unsigned token.)", "quantifier": "every object state and key list", "why_tests_cant": "Needs every combination of constructor state and keys.", "anchors": ["src/jwkest/jws.py:JWx._pick_alg", "src/jwkest/jws.py:JWS.alg_keys", "src/jwkest/jws.py:JWS.sign_compact"]}
{"id": "C22", "title": "Signed header names the algorithm and key used", "statement": "A signed token's header has alg equal to the algorithm used and, when the key has a kid, that kid, and otherwise exactly the protected headers given plus typ.", "quantifier": "every protected header dict and key", "why_tests_cant": "All header dicts.", "anchors": ["src/jwkest/jws.py:JWS.alg_keys", "src/jwkest/jws.py:JWS.sign_compact"]}
{"id": "C23", "title": "JSON serialization: every signature must verify", "statement": "verify_json returns m exactly when the text is a JSON object with a payload, each listed signature (or the flattened one) individually verifies over the same payload segment with protected headers overriding unprotected ones, and m is the claim they agree on; the state of the object does not matter. A token with an empty signature list is accepted with result None whatever the payload and keys (the expectation of at least one signature is violated).", "quantifier": "every JSON JWS with any number of signatures", "why_tests_cant": "Any number of signatures.", "anchors": ["src/jwkest/jws.py:JWS.verify_json"]}
{"id": "C24", "title": "JSON serialization round trip", "statement": "verify_json(sign_json(msg)) with the same keys gives the payload interpretation of a text message, in general and flattened form, for any nonempty list of header pairs; with an empty list of headers nothing is signed and None comes back.", "quantifier": "every message, header list, key list", "why_tests_cant": "Unbounded.", "anchors": ["src/jwkest/jws.py:JWS.sign_json", "src/jwkest/jws.py:JWS.verify_json"]}
{"id": "C25", "title": "Only caller-trusted keys verify", "statement": "On an object created without a key, verify_compact accepts a token only under a key supplied by the caller, after any sequence of earlier verifications; verify_json called with keys likewise. verify_json called without keys trusts a key embedded in the token's own header: for every payload and every secret there is an accepted token.", "quantifier": "every token", "why_tests_cant": "Attacker-chosen tokens.", "anchors": ["src/jwkest/jws.py:JWx._get_keys", "src/jwkest/jws.py:JWS.verify_json", "src/jwkest/jws.py:JWx.__init__"]}
{"id": "C26", "title": "Critical headers are honoured", "statement": "The code does not honour crit: a correctly keyed token is accepted whatever its crit header says, and a crit argument given to the constructor is never stored but replaces x5c.", "quantifier": "every token and header", "why_tests_cant": "All headers.", "anchors": ["src/jwkest/jws.py:JWx.__init__", "src/jwkest/jws.py:JWS.verify_compact_verbose"]}
{"id": "C27", "title": "Token kind classification", "statement": "is_jws answers True for compact text exactly when it unpacks and its header alg is a supported signing algorithm (or null); for JSON objects exactly when payload and signatures/signature are present. is_jwe of an unpacked token whose header is an object is True exactly when typ is JWE in any letter case or alg and enc are both supported; a typ that is no text raises AttributeError. jwe.factory gives an object holding the token exactly when is_jwe is True, None when it is False.", "quantifier": "every token text", "why_tests_cant": "All texts.", "anchors": ["src/jwkest/jws.py:JWS.is_jws", "src/jwkest/jws.py:JWS._is_compact_jws", "src/jwkest/jws.py:JWS._is_json_serialized_jws", "src/jwkest/jwe.py:JWEnc.is_jwe", "src/jwkest/jwe.py:factory"]}
{"id": "C28", "title": "JWK serialization round trip", "statement": "Serializing an RSA, EC or symmetric key (with private parts) and constructing a key from the resulting dictionary gives a key with the same integers/bytes, kid, use, alg and type. For EC this holds of ECKey(**dict); loading the same dictionary with keyrep (as KEYS does) gives back point and labels but leaves the private part d and the curve name as bytes.", "quantifier": "every key with positive integer parameters and text labels / every non-empty secret", "why_tests_cant": "All integers and byte strings.", "anchors": ["src/jwkest/jwk.py:RSAKey.serialize", "src/jwkest/jwk.py:RSAKey.deserialize", "src/jwkest/jwk.py:ECKey.serialize", "src/jwkest/jwk.py:ECKey.deserialize", "src/jwkest/jwk.py:SYMKey.serialize"]}
{"id": "C29", "title": "Public serialization reveals nothing private", "statement": "serialize() of RSA and EC keys does not depend on the private parameters and has no private member; dump_jwks likewise. (SYMKey.serialize always contains the secret, whatever private says.)", "quantifier": "every key", "why_tests_cant": "Non-interference: quantifies over pairs of keys.", "anchors": ["src/jwkest/jwk.py:RSAKey.serialize", "src/jwkest/jwk.py:ECKey.serialize", "src/jwkest/jwk.py:SYMKey.serialize", "src/jwkest/jwk.py:KEYS.dump_jwks"]}
{"id": "C30", "title": "make_public_copy removes private parts", "statement": "The copy of an RSA or EC key carries no private parameter and no key instance and has the same public members; so it cannot sign with any algorithm, but it cannot be serialized either; for a symmetric key it still carries the encoded secret k, from which every derived key is obtained.", "quantifier": "every key", "why_tests_cant": "All keys.", "anchors": ["src/jwkest/jwk.py:make_public_copy", "src/jwkest/jwk.py:Key.public_members"]}
{"id": "C31", "title": "Thumbprint depends exactly on the required members", "statement": "Two RSA (or symmetric) keys have the same thumbprint input iff they have the same required members, and kid/use/alg/private parts never influence it; it is the RFC 7638 canonical JSON for RSA and oct, while the EC input lacks kty and so is not.", "quantifier": "every pair of keys", "why_tests_cant": "Injectivity over all key pairs.", "anchors": ["src/jwkest/jwk.py:Key.thumbprint", "src/jwkest/jwk.py:ECKey.required"]}
{"id": "C32", "title": "Key equality and hashing", "statement": "a == b iff same class and all public members agree (two agreeing plain keys raise AttributeError); hashing a key without kid gives it a kid and so changes what it equals; after that, and in every sequence of hash calls, the hash stays; equal RSA keys have equal hashes; two symmetric keys built from different raw secrets compare equal although their thumbprint inputs differ.", "quantifier": "every pair of keys and every sequence of hash/eq calls", "why_tests_cant": "State change by observation; all histories.", "anchors": ["src/jwkest/jwk.py:Key.__eq__", "src/jwkest/jwk.py:Key.__hash__", "src/jwkest/jwk.py:Key.add_kid", "src/jwkest/jwk.py:Key.get_hash"]}
{"id": "C33", "title": "Key container is a faithful ordered collection", "statement": "After any sequence of append/add/load operations, iteration gives the keys in insertion order, len counts them, by_kid / [kty] / kids / key_types are exactly the corresponding filters (key_types raises TypeError if some kty is a list or a dictionary), and as_dict partitions the keys.", "quantifier": "every sequence of operations", "why_tests_cant": "All operation histories.", "anchors": ["src/jwkest/jwk.py:KEYS"]}
{"id": "C34", "title": "Private EC keys loaded from JWK dictionaries", "statement": "keyrep of an EC JWK with text d decodes d exactly when both coordinates are given as integers (or as lists of byte values, which bytes() takes); with the textual coordinates of RFC 7518 d stays undecoded bytes, and every ECDSA signer fails with OverflowError on the loaded key.", "quantifier": "every EC JWK dictionary", "why_tests_cant": "All dictionaries.", "anchors": ["src/jwkest/jwk.py:keyrep", "src/jwkest/jwk.py:ECKey.deserialize", "src/jwkest/jwk.py:Key.verify"]}
{"id": "C35", "title": "AES key wrap round trip", "statement": "aes_unwrap_key(kek, aes_wrap_key(kek, k)) = k for every k whose length is a multiple of 8; other lengths are silently truncated to a multiple of 8.", "quantifier": "every kek, every plaintext of every length", "why_tests_cant": "6n interleaved rounds for every n.", "anchors": ["src/jwkest/aes_key_wrap.py:aes_wrap_key", "src/jwkest/aes_key_wrap.py:aes_unwrap_key", "src/jwkest/aes_key_wrap.py:aes_unwrap_key_and_iv"]}
{"id": "C36", "title": "AES key unwrap accepts only genuine wraps", "statement": "If aes_unwrap_key(kek, w) returns k then wrapping k under kek gives exactly w up to at most 7 trailing ignored bytes; a mismatch raises.", "quantifier": "every kek and every byte string w", "why_tests_cant": "Adversarial ciphertexts.", "anchors": ["src/jwkest/aes_key_wrap.py:aes_unwrap_key"]}
{"id": "C37", "title": "AES key wrap is RFC 3394", "statement": "The wrap output has length len+8 and equals the RFC 3394 index-based definition.", "quantifier": "every key and plaintext", "why_tests_cant": "All n.", "anchors": ["src/jwkest/aes_key_wrap.py:aes_wrap_key"]}
{"id": "C38", "title": "PKCS#5 padding", "statement": "Trimming a padded string gives the original; padded length is the next multiple of 16; trim never returns more than it was given, and raises on a last byte above 16.", "quantifier": "every byte string", "why_tests_cant": "All lengths.", "anchors": ["src/jwkest/extra.py:pkcs5pad", "src/jwkest/extra.py:pkcs5trim"]}
{"id": "C39", "title": "AES-CBC-HMAC round trip", "statement": "aes_cbc_hmac_decrypt of aes_cbc_hmac_encrypt output with the same key, iv and aad returns the plaintext for 32/48/64 byte keys and 16 byte iv; any other key or iv length raises.", "quantifier": "every key, iv, aad and plaintext", "why_tests_cant": "Unbounded data.", "anchors": ["src/jwkest/extra.py:aes_cbc_hmac_encrypt", "src/jwkest/extra.py:aes_cbc_hmac_decrypt", "src/jwkest/extra.py:get_keys_seclen_dgst"]}
{"id": "C40", "title": "AES-CBC-HMAC authenticates aad, iv and ciphertext", "statement": "If decryption returns, the tag equals the truncated MAC of an input that determines (aad, iv, ct) uniquely; hence any accepted modification of aad, iv or ct under the same tag is a MAC collision, and nothing is decrypted before the tag matches.", "quantifier": "every pair of (aad, iv, ct)", "why_tests_cant": "Adversarial modifications; needs injectivity of the MAC encoding.", "anchors": ["src/jwkest/extra.py:aes_cbc_hmac_decrypt"]}
{"id": "C41", "title": "Concat KDF", "statement": "concat_sha256 returns exactly ceil(dk_len/8) bytes, being the prefix of hash blocks over counters 1,2,3,...; longer requests extend shorter ones when block count permits.", "quantifier": "every secret, length and other_info", "why_tests_cant": "All lengths.", "anchors": ["src/jwkest/extra.py:concat_sha256"]}
{"id": "C42", "title": "ECDH-ES key derivation separates its inputs", "statement": "Different (algorithm name, apu, apv, length) tuples feed different strings to the KDF, for the algorithm names the library uses, and both parties derive the same key.", "quantifier": "every apu, apv, and supported algorithm", "why_tests_cant": "Injectivity over unbounded strings.", "anchors": ["src/jwkest/extra.py:ecdh_derive_key", "src/jwkest/jwe.py:JWE_EC.enc_setup", "src/jwkest/jwe.py:JWE_EC.dec_setup"]}
{"id": "C43", "title": "GCM field multiplication", "statement": "gf_2_128_mul is multiplication in GF(2)[x]/(x^128+x^7+x^2+x+1) with the GCM bit order; it is commutative, distributes over xor, and its result is below 2^128; the 8-bit table lookup equals it for every value.", "quantifier": "all pairs of 128-bit values", "why_tests_cant": "2^256 pairs.", "anchors": ["src/jwkest/aes_gcm.py:gf_2_128_mul", "src/jwkest/aes_gcm.py:AES_GCM.__times_auth_key", "src/jwkest/aes_gcm.py:AES_GCM.change_key"]}
{"id": "C44", "title": "AES-GCM conforms to the standard and round-trips", "statement": "On an object with AES key K in any state, encrypt with an iv below 2^96 other than the last one used returns the plaintext xor the counter-mode key stream (same length) and the GHASH tag of NIST SP 800-38D; decrypt on any object with the same key returns the plaintext. Plaintexts of more than 2^32 blocks raise OverflowError.", "quantifier": "every key, object history, iv, plaintext up to 2^32 blocks, aad", "why_tests_cant": "Unbounded data.", "anchors": ["src/jwkest/aes_gcm.py:AES_GCM.encrypt", "src/jwkest/aes_gcm.py:AES_GCM.decrypt"]}
{"id": "C45", "title": "AES-GCM rejects unless the tag matches; iv reuse check", "statement": "decrypt returns exactly if the given tag is the one GHASH tag of this iv, aad and ciphertext; a tag with any bits flipped is rejected; an iv of 2^96 or more and a tag of 2^128 or more are rejected. After any history the object remembers the last iv below 2^96, and encrypt refuses exactly this one: reusing an iv after another one was used is NOT detected, and then the ciphertexts reveal the xor of the plaintexts.", "quantifier": "every iv, ciphertext, tag, aad, and every call history", "why_tests_cant": "Adversarial; histories.", "anchors": ["src/jwkest/aes_gcm.py:AES_GCM.decrypt", "src/jwkest/aes_gcm.py:AES_GCM.encrypt"]}
{"id": "C46", "title": "GHASH input encoding is unambiguous", "statement": "Distinct (aad, ciphertext) pairs (below 2^61 bytes each) give distinct sequences of GHASH blocks.", "quantifier": "every pair of (aad, ct)", "why_tests_cant": "Injectivity over unbounded strings.", "anchors": ["src/jwkest/aes_gcm.py:AES_GCM.__ghash"]}
{"id": "C47", "title": "Which AES key GCM really uses", "statement": "AES_GCM(bytes_to_long(key)), as the JWE code calls it, accepts exactly the keys denoting a number below 2^256 (of any length). The AES key is the given key exactly if it has 16 bytes, or 32 bytes and a non-zero byte among the first 16. A 24-byte key (A192GCM) is never used as such: it is extended with 8 zero bytes to an AES-256 key, or shortened to 16 bytes if the first 8 are zero.", "quantifier": "every key", "why_tests_cant": "All keys.", "anchors": ["src/jwkest/aes_gcm.py:AES_GCM.change_key", "src/jwkest/jwe.py:JWe.enc_setup"]}
{"id": "C48", "title": "Modular inverse", "statement": "inv(a, n) is the inverse of a modulo n, in [0, n) up to one addition of n, whenever a and n are coprime; euclid returns Bezout coefficients and the gcd.", "quantifier": "every pair of integers", "why_tests_cant": "All integers.", "anchors": ["src/jwkest/elliptic.py:euclid", "src/jwkest/elliptic.py:inv"]}
{"id": "C49", "title": "Affine and Jacobian point arithmetic is the elliptic-curve group law", "statement": "add, addf, doublef and neg compute the group operation of the curve y^2 = x^3 - p x - q over the prime field for all points on the curve (no 2-torsion for the raw doubling).", "quantifier": "every prime modulus, curve and pair of points", "why_tests_cant": "All points on all curves.", "anchors": ["src/jwkest/elliptic.py:add", "src/jwkest/elliptic.py:addf", "src/jwkest/elliptic.py:doublef", "src/jwkest/elliptic.py:neg", "src/jwkest/elliptic.py:from_projective"]}
{"id": "C50", "title": "Signed binary expansion", "statement": "_signed_bin(n) has digits in {-1,0,1}, evaluates to n, terminates for every n>=0 and has length at most bitlength+1.", "quantifier": "every natural number", "why_tests_cant": "All integers.", "anchors": ["src/jwkest/elliptic.py:_signed_bin", "src/jwkest/elliptic.py:_gbd"]}
{"id": "C51", "title": "Scalar multiplication", "statement": "mulp(P,c) is c times P and muladdp(P,c1,Q,c2) is c1 P + c2 Q in the group; mul and mulp agree.", "quantifier": "every scalar and every pair of points", "why_tests_cant": "256 to 521-bit scalars.", "anchors": ["src/jwkest/elliptic.py:mul", "src/jwkest/elliptic.py:mulf", "src/jwkest/elliptic.py:mulp", "src/jwkest/elliptic.py:muladdf", "src/jwkest/elliptic.py:muladdp"]}
{"id": "C52", "title": "ECDSA sign/verify round trip on P-256, P-384, P-521", "statement": "If sign returns, verify accepts the signature for the matching public key, for every hash value, private key in 1..N-1 and nonce; signature length is fixed.", "quantifier": "every hash integer, private key, nonce", "why_tests_cant": "2^256 keys x nonces x hashes.", "anchors": ["src/jwkest/ecc.py:NISTEllipticCurve.sign", "src/jwkest/ecc.py:NISTEllipticCurve.verify", "src/jwkest/curves.py:DOMAINS"]}
{"id": "C53", "title": "ECDSA verification rejects out-of-range and equals the ECDSA equation", "statement": "verify returns True only if 0<r<N, 0<s<N and the x coordinate of (h/s)G+(r/s)Q equals r modulo N; otherwise False (or an error at the neutral element).", "quantifier": "every hash, signature byte string, public key on the curve", "why_tests_cant": "Adversarial signatures.", "anchors": ["src/jwkest/ecc.py:NISTEllipticCurve.verify"]}
{"id": "C54", "title": "ECDH agreement", "statement": "dh_z(a, B) = dh_z(b, A) for key pairs (a,A), (b,B) of the same curve, and the secret is the first coordinate of the common point as a big-endian number of the curve's fixed length.", "quantifier": "every pair of private keys", "why_tests_cant": "2^512 key pairs.", "anchors": ["src/jwkest/ecc.py:NISTEllipticCurve.dh_z", "src/jwkest/ecc.py:NISTEllipticCurve.key_pair"]}
{"id": "C55", "title": "Curve domain parameters are sound", "statement": "For P-256/384/521 the field modulus and the group order are prime, the base point is on the curve and has exactly the stated order, and the curve has no 2-torsion.", "quantifier": "the three shipped curves (each claim is a statement about all multiples / all field elements)", "why_tests_cant": "Primality and order are universal statements over the field.", "anchors": ["src/jwkest/curves.py:DOMAINS", "src/jwkest/ecc.py:NISTEllipticCurve.by_name"]}
{"id": "C56", "title": "Generated private keys are in range", "statement": "key_pair's private scalar is in 1..N-1 whatever the random bits, and the public key is on the curve.", "quantifier": "every random draw", "why_tests_cant": "All random values.", "anchors": ["src/jwkest/ecc.py:NISTEllipticCurve.key_pair"]}
{"id": "C57", "title": "JWE round trip (symmetric key wrap)", "statement": "Decrypting with the same shared key what JWE_SYM.encrypt produced returns the message bytes, for A128KW/A192KW/A256KW and all six enc algorithms.", "quantifier": "every message, key, cek, iv, header", "why_tests_cant": "Unbounded.", "anchors": ["src/jwkest/jwe.py:JWE_SYM.encrypt", "src/jwkest/jwe.py:JWE_SYM.decrypt"]}
{"id": "C58", "title": "JWE round trip (RSA)", "statement": "The same for RSA1_5, RSA-OAEP, RSA-OAEP-256, with and without DEF compression and with a caller-supplied cek.", "quantifier": "every message, key, cek, iv", "why_tests_cant": "Unbounded.", "anchors": ["src/jwkest/jwe.py:JWE_RSA.encrypt", "src/jwkest/jwe.py:JWE_RSA.decrypt", "src/jwkest/jwe.py:RSAEncrypter"]}
{"id": "C59", "title": "JWE round trip (ECDH-ES)", "statement": "The same for ECDH-ES and ECDH-ES+A128KW/A192KW/A256KW between any two key pairs of a curve.", "quantifier": "every message and pair of key pairs", "why_tests_cant": "Unbounded.", "anchors": ["src/jwkest/jwe.py:JWE_EC.enc_setup", "src/jwkest/jwe.py:JWE_EC.dec_setup", "src/jwkest/jwe.py:JWE_EC.encrypt", "src/jwkest/jwe.py:JWE_EC.decrypt"]}
{"id": "C60", "title": "JWE protects its header", "statement": "If decryption of a token succeeds, the content tag was checked, under a content key obtained from one of the candidate keys (or the supplied one), over exactly the header segment as sent, the iv and the ciphertext. Two accepted tokens with the same content key and tag either agree in header segment, iv and ciphertext (GCM ivs and tags compared as numbers) or exhibit a MAC/GHASH collision; and the tag is determined by the rest.", "quantifier": "every pair of tokens", "why_tests_cant": "Adversarial modifications.", "anchors": ["src/jwkest/jwe.py:JWe._decrypt", "src/jwkest/jwe.py:JWE_RSA.decrypt", "src/jwkest/jwe.py:JWE_SYM.decrypt", "src/jwkest/jwe.py:JWE_EC.decrypt"]}
{"id": "C61", "title": "JWE algorithm gate", "statement": "If decrypt succeeds then the header enc is one of the six supported values, the header alg equals the one the caller expects when given, and alg is one of the supported names - or, a defect, any other name of the form A...KW: with a supplied content key every such name is accepted. A header alg other than the expected one raises WrongEncryptionAlgorithm whatever keys are given.", "quantifier": "every token, expected alg and keys", "why_tests_cant": "All headers.", "anchors": ["src/jwkest/jwe.py:JWE.decrypt", "src/jwkest/jwe.py:JWe._decrypt", "src/jwkest/jwe.py:JWE_RSA.decrypt"]}
{"id": "C62", "title": "Which of several keys JWE.decrypt tries", "statement": "Except for RSA1_5 only the first key that fits by type, kid, use and alg is tried: decrypting with a key list succeeds exactly if decrypting with that key alone does. A first key that cannot unwrap the encrypted key ends the call with that error whatever keys follow. For RSA1_5 keys are tried as long as the padding is wrong. (A user would expect any fitting key to be found.)", "quantifier": "every key list", "why_tests_cant": "All key lists.", "anchors": ["src/jwkest/jwe.py:JWE.decrypt"]}
{"id": "C63", "title": "Number of segments of a JWE token", "statement": "An accepted token has at least five segments, exactly five with AES key wrap; with RSA and Diffie-Hellman algorithms a further segment that decodes as base64url never changes the outcome (a defect: such tokens should be rejected).", "quantifier": "every token", "why_tests_cant": "All tokens.", "anchors": ["src/jwkest/jwe.py:JWE_SYM.decrypt", "src/jwkest/jwe.py:JWE_RSA.decrypt", "src/jwkest/jwe.py:JWE_EC.decrypt"]}
{"id": "C64", "title": "Generated content keys and ivs have the right sizes", "statement": "For the six supported enc values _generate_key_and_iv keeps supplied values and draws missing ones with the key and iv length of the algorithm. For any other value it raises, except when both are supplied, which are then returned unchecked.", "quantifier": "every enc, supplied cek/iv, random source", "why_tests_cant": "All combinations.", "anchors": ["src/jwkest/jwe.py:JWe._generate_key_and_iv"]}
{"id": "C65", "title": "Encrypting to a public EC key", "statement": "JWE.encrypt with a Diffie-Hellman algorithm never returns when the selected EC key object has no private part, although the private part is not used: if encryption with some private part returns, then without it the call raises ValueError. (A defect: encryption should need the public key only.)", "quantifier": "every EC public key, message", "why_tests_cant": "All keys.", "anchors": ["src/jwkest/jwe.py:JWE.encrypt", "src/jwkest/jwk.py:ECKey.get_key"]}
{"id": "C66", "title": "left_hash", "statement": "left_hash returns the unpadded base64url text of the left half of the digest: 22, 32 or 43 characters, and None for other function names.", "quantifier": "every message", "why_tests_cant": "All messages.", "anchors": ["src/jwkest/jws.py:left_hash"]}
{"id": "C67", "title": "PBKDF2 is unusable on Python 3", "statement": "Constructing PBKDF2 raises TypeError for every passphrase, salt and iteration count. crypt never returns: it raises UnicodeEncodeError for a salt text with a non-ASCII character and TypeError for every other argument. (A defect.)", "quantifier": "every argument", "why_tests_cant": "All arguments.", "anchors": ["src/jwkest/PBKDF2.py:PBKDF2._setup", "src/jwkest/PBKDF2.py:crypt"]}
{"id": "C68", "title": "Symmetric encryption-key derivation", "statement": "encryption_key(alg) is the leading 16/24/32/48/64 bytes of the SHA-2 digest of the secret selected by the length table and raises KeyError for any other alg name; a secret assigned as text counts as its UTF-8 octets, any other type raises TypeError, and without a secret and without k nothing is derived.", "quantifier": "every secret and alg", "why_tests_cant": "All secrets.", "anchors": ["src/jwkest/jwk.py:SYMKey.encryption_key", "src/jwkest/jwk.py:ALG2KEYLEN"]}
{"id": "C69", "title": "Peer public keys are not validated", "statement": "dh_z and mulp never use the curve parameter b: a peer point that is not on the curve is multiplied on whatever curve it does lie on. For a suitable pair off P-256, dh_z reveals the private key modulo 3: it raises exactly when 3 divides the key and otherwise returns one fixed string.", "quantifier": "every private key; every pair of coordinates", "why_tests_cant": "2^256 keys.", "anchors": ["src/jwkest/ecc.py:NISTEllipticCurve.dh_z", "src/jwkest/elliptic.py:mulp", "src/jwkest/elliptic.py:doublef", "src/jwkest/elliptic.py:addf"]}
{"id": "C70", "title": "Hash shortening", "statement": "sign and verify use the longest prefix of the binary digits of the hash integer whose value does not exceed N. A hash not above N is used unchanged (on P-521 every 512-bit digest). A hash above N is treated exactly like its half, so on P-256 two different 256-bit hashes have the same signatures.", "quantifier": "every hash integer, signature and key", "why_tests_cant": "All hash values; the affected ones are 2^-32 of them.", "anchors": ["src/jwkest/ecc.py:NISTEllipticCurve.sign", "src/jwkest/ecc.py:NISTEllipticCurve.verify"]}
{"id": "C71", "title": "ECDSA signatures are malleable", "statement": "From every accepted signature another accepted one is made without the private key by replacing s by N-s, and inserting any number of zero bytes before s changes nothing.", "quantifier": "every hash, key and accepted signature", "why_tests_cant": "Adversarial signatures.", "anchors": ["src/jwkest/ecc.py:NISTEllipticCurve.verify"]}
{"id": "C72", "title": "When sign returns", "statement": "sign raises TypeError iff N divides the nonce; it never returns iff the nonce gives r = 0 or s = 0 (the nonce is not redrawn), and it returns a signature in all other cases. There is an input on P-256 for which it never returns.", "quantifier": "every hash, private key and nonce", "why_tests_cant": "Non-termination over all inputs.", "anchors": ["src/jwkest/ecc.py:NISTEllipticCurve.sign", "src/jwkest/ecc.py:NISTEllipticCurve._sign_loop"]}
{"id": "C73", "title": "Point compression", "statement": "compress determines a point of the curve with reduced coordinates, but uncompress never recovers it: its y is always None.", "quantifier": "every point of every sound curve", "why_tests_cant": "All points.", "anchors": ["src/jwkest/ecc.py:NISTEllipticCurve.compress", "src/jwkest/ecc.py:NISTEllipticCurve.uncompress", "src/jwkest/elliptic.py:y_from_x"]}
{"id": "C74", "title": "GHASH is a field hash with few bad keys", "statement": "The field polynomial is irreducible, so every non-zero value has an inverse under gf_2_128_mul; for any two different (aad, ciphertext) pairs and any wanted difference of their GHASH values, the number of the 2^128 authentication keys giving that difference is at most the number of blocks of the longer pair.", "quantifier": "all pairs of (aad, ciphertext) below 2^61 bytes, all differences", "why_tests_cant": "Counts over 2^128 keys.", "anchors": ["src/jwkest/aes_gcm.py:gf_2_128_mul", "src/jwkest/aes_gcm.py:AES_GCM.__ghash"]}
{"id": "C76", "title": "Keyword arguments without alg mean alg none", "statement": "A JWS constructed with any keyword argument but no alg has algorithm none: it refuses every signed token whatever keys it is given (also JWS(msg, jwk=key)), and what it signs is unsigned.", "quantifier": "every keyword set without alg, token, key list", "why_tests_cant": "All constructor arguments and tokens.", "anchors": ["src/jwkest/jws.py:JWx.__init__", "src/jwkest/jws.py:JWS.verify_compact_verbose", "src/jwkest/jws.py:JWS.sign_compact"]}
{"id": "C77", "title": "A JWK with kty 'ec' in lower case accepts forged signatures", "statement": "Loading a JWK whose kty is spelled ec succeeds whatever its other members and gives a key without material, which ECDSA verification treats as the point at infinity: for every header and payload a signature computable from public data alone is accepted under ES256, ES384 and ES512 (unless the shortened digest is 0 or the group order).", "quantifier": "every JWK dictionary with kty ec, every header and payload", "why_tests_cant": "Adversarial tokens for all messages.", "anchors": ["src/jwkest/jwk.py:keyrep", "src/jwkest/jws.py:DSASigner.verify", "src/jwkest/ecc.py:NISTEllipticCurve.verify", "src/jwkest/elliptic.py:to_projective"]}
{"id": "C78", "title": "A token that every shared key decrypts", "statement": "For every message there is a token, made without any key, that JWE.decrypt with any shared key and A128KW/A192KW/A256KW and a GCM enc decrypts to this message: the encrypted key A6A6A6A6A6A6A6A6 unwraps to an empty content key, which AES-GCM takes for the zero key.", "quantifier": "every message, object, shared key and randomness", "why_tests_cant": "Universal forgery; needs all keys.", "anchors": ["src/jwkest/jwe.py:JWE_SYM.decrypt", "src/jwkest/aes_key_wrap.py:aes_unwrap_key", "src/jwkest/aes_gcm.py:AES_GCM.change_key"]}
{"id": "C79", "title": "JWE tokens are malleable", "statement": "Adding zero bytes in front of the iv and the tag of a GCM token, or up to seven bytes to the end of the encrypted key of a key-wrap token, changes nothing: every decrypt call has the same outcome and leaves the same state.", "quantifier": "every token, object, key list, expected alg and cek", "why_tests_cant": "Adversarial tokens.", "anchors": ["src/jwkest/jwe.py:JWe._decrypt", "src/jwkest/aes_key_wrap.py:aes_unwrap_key_and_iv", "src/jwkest/jwt.py:JWT.unpack"]}
{"id": "C80", "title": "Keys from certificates", "statement": "RSAKey(x5c=..., x5t=...) without modulus gives a key exactly when the first certificate decodes, holds an RSA key and, if a thumbprint is given, the thumbprint is the SHA-1 of the certificate; the key then has the certificate's numbers, and a differing thumbprint raises DeSerializationNotPossible. The other certificates of the chain have no influence; with n and e given neither x5c nor x5t is checked; and through keyrep a certificate with a thumbprint never loads (AttributeError), right or wrong.", "quantifier": "every keyword set, certificate, chain and thumbprint", "why_tests_cant": "All certificates and chains; the last three parts are defects no happy-path test meets.", "anchors": ["src/jwkest/jwk.py:RSAKey.deserialize", "src/jwkest/jwk.py:keyrep", "src/jwkest/jwk.py:der2rsa"]}
{"id": "C81", "title": "key_from_jwk_dict", "statement": "key_from_jwk_dict reads exactly kid and the numbers of the type (private ones only if private=True): a missing one raises KeyError, another type UnknownAlgorithm, no other member (use, alg, certificates) has any influence; the dictionary a key serializes to gives back its numbers, its type and its kid, with use and alg empty.", "quantifier": "every dictionary, every key with kid", "why_tests_cant": "Every key and every set of members.", "anchors": ["src/jwkest/jwk.py:key_from_jwk_dict"]}
{"id": "C82", "title": "to_dict", "statement": "to_dict is the private serialization with the unknown members added; for a key made by keyrep these are the members that are not parameters of its class, and never displace a serialized one; a text member among them is bytes there, so that the dictionary is not JSON. A plain Key has no dictionary form.", "quantifier": "every key and JWK dictionary", "why_tests_cant": "All member names and classes.", "anchors": ["src/jwkest/jwk.py:Key.to_dict", "src/jwkest/jwk.py:keyrep"]}
{"id": "C83", "title": "jwk_wrap", "statement": "jwk_wrap gives for a PyCryptodome key an RSAKey with its numbers, for text a SYMKey with its UTF-8 encoding as secret, for a curve an ECKey with a key pair of that curve, with the given use and kid; anything else, also bytes, raises.", "quantifier": "every key object, text, curve, use and kid", "why_tests_cant": "Every curve point and number.", "anchors": ["src/jwkest/jwk.py:jwk_wrap", "src/jwkest/jwk.py:RSAKey.load_key", "src/jwkest/jwk.py:ECKey.load_key", "src/jwkest/jwk.py:RSAKey._split"]}
{"id": "C84", "title": "Key sets survive dump and load", "statement": "load_jwks(dump_jwks()) adds, in order, one key per key of the set with the same type, kid, use and alg: of RSA and EC keys the public half, of symmetric keys the secret itself (a key set to be published must not hold one).", "quantifier": "every list of exportable keys, every set loaded into", "why_tests_cant": "Induction over key sets of any size.", "anchors": ["src/jwkest/jwk.py:KEYS.dump_jwks", "src/jwkest/jwk.py:KEYS.load_jwks", "src/jwkest/jwk.py:KEYS.load_dict"]}
{"id": "C85", "title": "A JWS object after verification", "statement": "A successful verification leaves on the object the message, the verifying key, the token and its algorithm, and nothing else changes; a refused token leaves message, key and every parameter but alg, which on an object without algorithm is fixed to that of the refused token, so that tokens with another algorithm are refused from then on; an accepted unsigned token leaves the key of an earlier token in place; after verify_json the key is that of the last signed entry, or the earlier one.", "quantifier": "every object, token, key list, flag", "why_tests_cant": "State after arbitrary calls; forged tokens.", "anchors": ["src/jwkest/jws.py:JWS.verify_compact_verbose", "src/jwkest/jws.py:JWS.verify_json", "src/jwkest/jws.py:JWx.__init__"]}
{"id": "C86", "title": "The algorithm sticks to the object", "statement": "sign_compact, successful or not, fixes the algorithm it determined and changes nothing else of the object; whatever calls follow, later tokens are signed with this algorithm or unsigned and later accepted tokens name it. An object that produced one unsigned token never signs again and refuses every signed token.", "quantifier": "every object, key list, and every sequence of sign and verify calls", "why_tests_cant": "History property over unbounded call sequences.", "anchors": ["src/jwkest/jws.py:JWx._pick_alg", "src/jwkest/jws.py:JWS.sign_compact", "src/jwkest/jws.py:JWS.verify_compact_verbose"]}
{"id": "C87", "title": "Signing with an object that has verified", "statement": "After a successful verification sign_compact uses the algorithm of the token and, if the token has a kid and the object none of its own, only a key with that kid: with keys of other kids it fails.", "quantifier": "every object, token, and key lists for both calls", "why_tests_cant": "All pairs of calls.", "anchors": ["src/jwkest/jws.py:JWx.pick_keys", "src/jwkest/jws.py:JWS.alg_keys"]}
{"id": "C88", "title": "The dictionary of protected headers is changed", "statement": "sign_compact fills the caller's non-empty protected dictionary in place: afterwards it is the header of the token, with alg, kid and typ. Reused for a key without kid it gives a token that names the earlier key and that no verifier finds the signing key for.", "quantifier": "every object, key, dictionary, and pair of calls", "why_tests_cant": "Effect on the caller's data, over all pairs of calls.", "anchors": ["src/jwkest/jws.py:JWS.alg_keys", "src/jwkest/jws.py:JWS.sign_compact"]}
{"id": "C89", "title": "Header of an encrypted token", "statement": "The header of a token made by JWE.encrypt has exactly the recognised parameters of the object (those of the RSA tokens without the empty ones), kid from the argument, the picked key or the object in this order, jwk, and for agreement apu, apv and epk; byte strings stand as text; nothing else. Departures: crit is never shown, its value appears as x5c; zip is shown for RSA tokens only; an object holding a key object as jwk can make no key wrap or agreement token.", "quantifier": "every object, key list, arguments, random bytes", "why_tests_cant": "Universally quantified over parameters and keys; says what is absent.", "anchors": ["src/jwkest/jwe.py:JWE.encrypt", "src/jwkest/jwe.py:JWE_SYM.encrypt", "src/jwkest/jwe.py:JWE_RSA.encrypt", "src/jwkest/jwe.py:JWE_EC.enc_setup", "src/jwkest/jws.py:JWx.__init__"]}
{"id": "C90", "title": "Segments of an encrypted token", "statement": "The five segments of a token are: the header; the content key wrapped with RFC 3394 under the first bytes of the SHA-256 digest of the secret, or RSA-encrypted with the padding that alg names, or wrapped under the key derived from the Diffie-Hellman secret of the ephemeral key and the recipient's point, or empty; the iv; AES-GCM or AES-CBC-HMAC of the (compressed) message with the header segment as additional data; its tag. The content key is the given one or random of the size of enc. Departures: A192GCM uses a 32-byte AES key and small keys a 16-byte one, the GCM tag loses leading zero bytes, a given cek makes the RSA key segment empty, agreement ignores the cek and iv arguments.", "quantifier": "every object, key, message, random bytes, any lawful cipher, hash and RSA", "why_tests_cant": "Both directions agree even when both are wrong: round trips cannot see a wrong derivation or padding.", "anchors": ["src/jwkest/jwe.py:JWe.enc_setup", "src/jwkest/jwe.py:JWE_SYM.encrypt", "src/jwkest/jwe.py:JWE_RSA.encrypt", "src/jwkest/jwe.py:JWE_EC.enc_setup", "src/jwkest/jwe.py:RSAEncrypter.encrypt", "src/jwkest/extra.py:aes_cbc_hmac_encrypt"]}
{"id": "C91", "title": "Key agreement departs from RFC 7518", "statement": "The hash input from which ECDH-ES derives a key never is the one RFC 7518 prescribes: the length of the algorithm name is missing, and with key wrap the part ECDH-ES+ of the name. So the library and a conforming one derive the same key only if the hash agrees on these two different inputs.", "quantifier": "every secret, parties, algorithm, hash", "why_tests_cant": "Round trips inside the library always succeed.", "anchors": ["src/jwkest/extra.py:ecdh_derive_key", "src/jwkest/jwe.py:JWE_EC.enc_setup"]}
{"id": "C92", "title": "A JWE object across calls", "statement": "Whatever encrypt and decrypt calls are made on an object, nothing of it changes but the entry cek, which holds the content key of the last RSA token made or opened. What decrypt returns and what RSA, key wrap and direct agreement tokens are made does not depend on it. Agreement with key wrap uses a stored content key again for the new token (a defect).", "quantifier": "every object and every sequence of calls", "why_tests_cant": "History property over unbounded call sequences.", "anchors": ["src/jwkest/jwe.py:JWE.encrypt", "src/jwkest/jwe.py:JWE.decrypt", "src/jwkest/jwe.py:JWE_EC.enc_setup"]}
{"id": "C93", "title": "What decrypt returns", "statement": "The message that decrypt returns is the ciphertext of the token opened with the content key belonging to the token: the xor with the GCM key stream, or the CBC plaintext without as many bytes as its last byte says (everything if that is zero), decompressed exactly for RSA tokens whose header has zip DEF. Opened so, a sealed message gives back what was sealed and nothing else.", "quantifier": "every token, object, key list, arguments", "why_tests_cant": "Adversarial tokens, not only those made by the library.", "anchors": ["src/jwkest/jwe.py:JWE.decrypt", "src/jwkest/jwe.py:JWe._decrypt", "src/jwkest/jwe.py:JWE_RSA.decrypt", "src/jwkest/extra.py:aes_cbc_hmac_decrypt"]}
{"id": "C94", "title": "Key objects made from library objects, loaded and deserialized again", "statement": "An RSAKey made with key=r and without both n and e has the numbers of r (private ones from r if it has any, otherwise those given). With n and e it keeps the texts unchecked, computes with r and cannot be serialized (a defect). An integer modulus is a TypeError. load_key(r) makes the key compute with r and takes its public numbers, but keeps the private numbers of the old key when r is public (a defect). Deserializing again changes nothing; deserialize leaves a bare Key alone and of a SYMKey sets only key, to the bytes that k encodes. ECKey(key=curve) is a fresh pair on that curve.", "quantifier": "every key, library object and arguments", "why_tests_cant": "Depends on the combination of arguments and on the previous state of the object.", "anchors": ["src/jwkest/jwk.py:RSAKey.__init__", "src/jwkest/jwk.py:RSAKey.load_key", "src/jwkest/jwk.py:RSAKey._split", "src/jwkest/jwk.py:RSAKey.deserialize", "src/jwkest/jwk.py:ECKey.__init__"]}
{"id": "C95", "title": "Thumbprints with given members, get_hash and add_kid", "statement": "thumbprint(name, members) is the digest named SHA-256, SHA-384 or SHA-512 (any other name is a KeyError) of the JSON object with those of the members the public serialization has, in ascending order; the order given does not matter, the caller's list is sorted in place, private members never enter, and if none is left the digest is that of {} for every key. get_hash stores the digest as the hash of the key, so equal keys can have different hashes (a defect). add_kid replaces the identifier by the thumbprint and is idempotent.", "quantifier": "every key, member list and name", "why_tests_cant": "The digest input is only defined by a text over all subsets and orders of members.", "anchors": ["src/jwkest/jwk.py:Key.thumbprint", "src/jwkest/jwk.py:Key.get_hash", "src/jwkest/jwk.py:Key.add_kid"]}
{"id": "C96", "title": "Helpers outside the token code", "statement": "mp2bin(mpint(b)) is b with a zero byte for every b (a defect). party_value raises TypeError for every non-empty value, so _hash_input works only without party values. key_eq raises TypeError for any two RSA keys and says True only for equal texts. keyitems2keyreps makes one key per object, in order, of the class that the type names in any letter case (a bare Key for an unknown type), for an RSA object with its numbers.", "quantifier": "every argument", "why_tests_cant": "Universally quantified over byte strings and keys.", "anchors": ["src/jwkest/jws.py:mpint", "src/jwkest/jws.py:mp2bin", "src/jwkest/jwe.py:party_value", "src/jwkest/jwe.py:_hash_input", "src/jwkest/jwk.py:key_eq", "src/jwkest/jwk.py:keyitems2keyreps"]}
{"id": "C97", "title": "Round trips with the standard algorithms", "statement": "With AES (FIPS 197), SHA-1/256/384/512 and HMAC (FIPS 180-4, RFC 2104) and RSA with PKCS #1 v1.5, PSS and OAEP padding (RFC 8017) as the cryptographic library, everything that the other properties assume of that library holds: AES is a permutation of blocks under every valid key, digests have their size, the public half of an RSA key accepts what the private key signed, and a private key accepted by RSA.construct decrypts what was encrypted with its public half and raises only ValueError and TypeError. Hence JWS signing and verification, JWE with AES key wrap, JWE with ECDH-ES, and JWE with an RSA key of 1040 bits or more return the message that was put in, without any assumption about the primitives (except, for the \"zip\" parameter, that zlib inverts its own compression).", "quantifier": "for all keys, messages, random draws, algorithms and content encryptions", "why_tests_cant": "Tests run the library on single keys and messages; that decryption inverts encryption for every RSA key and every padding, and for all 2^128 blocks under every AES key, is a theorem about finite fields, not a sample.", "anchors": ["src/jwkest/jwe.py:RSAEncrypter", "src/jwkest/jwe.py:JWE.encrypt", "src/jwkest/jws.py:RSASigner", "src/jwkest/jws.py:PSSSigner", "src/jwkest/jws.py:HMACSigner"]}
{"id": "C98", "title": "Publish and verify", "statement": "A signer's key set, exported with dump_jwks and imported elsewhere with load_jwks, is all a verifier needs: whatever sign_compact (HS/RS/PS/ES) returns with the original set, verify_compact accepts with the imported set, giving the signed message, and the key it reports is the published half of the one that signed. This holds whenever the keys have different non-empty identifiers; for HMAC and RSA with the standard algorithms it holds whatever the identifiers. Conversely the imported set signs nothing with RSA or ECDSA. (Symmetric keys are exported with their secret, so with those the verifier can sign.)", "quantifier": "every key set of text-labelled RSA, EC and symmetric keys, message, protected header and randomness", "why_tests_cant": "Two parties, an unbounded set of keys of mixed types, and JSON text in between.", "anchors": ["src/jwkest/jwk.py:KEYS.dump_jwks", "src/jwkest/jwk.py:KEYS.load_jwks", "src/jwkest/jws.py:JWS.sign_compact", "src/jwkest/jws.py:JWS.verify_compact_verbose"]}
{"id": "C99", "title": "What can be put into a token", "statement": "A dictionary, list or None is packed exactly if it consists of None, booleans, integers, text and bytes that are UTF-8, nested to any depth; it is packed to the same bytes as the value with every byte string replaced by its text, and that is what the receiver gets after signing and verifying. Any float, at any depth, in the message or in a protected header parameter, and bytes that are not UTF-8, make packing raise ValueError, so there is no token. (So claims such as a fractional exp cannot be signed as a dictionary.)", "quantifier": "every Python value built from these types, every header and key list", "why_tests_cant": "Nesting is unbounded; tests use flat dictionaries of text and integers.", "anchors": ["src/jwkest/jwt.py:b2s_conv", "src/jwkest/jwt.py:b64encode_item", "src/jwkest/jws.py:JWS.sign_compact"]}
{"id": "C100", "title": "Signing succeeds", "statement": "sign_compact with a supported algorithm and at least one key returns a token whenever the first key that fits (type, use, kid, alg) has what the algorithm needs and message, header and identifiers are JSON values or text/bytes; if no key fits it raises NoSuitableSigningKeys and never falls back to another key or to an unsigned token. Any secret can sign with HMAC, and with the standard algorithms every RSA key that RSA.construct accepts of 1040 bits or more can sign with RS*/PS* and all three hashes; the token is then accepted with the same keys. With ES* and a private number that is no multiple of the group order a token is returned for all but at most eight of the possible nonces, whatever the message; with those signing never returns, because the loop repeats with the same nonce.", "quantifier": "every object, key list, protected header, message, randomness, RSA key of 1040 bits or more, EC private number", "why_tests_cant": "Whether an encoding fits into the modulus and whether the private operation can fail depends on numbers of unbounded size.", "anchors": ["src/jwkest/jws.py:JWS.sign_compact", "src/jwkest/jws.py:JWSig", "src/jwkest/jws.py:RSASigner.sign", "src/jwkest/jws.py:PSSSigner.sign"]}
{"id": "C101", "title": "Nested tokens", "statement": "A token that is signed and then encrypted (AES key wrap, RSA of 1040 bits or more, or ECDH-ES; any of the six content encryptions) is recovered by decrypting and handing the resulting bytes to verification: the signature is accepted and the claims are those that were signed.", "quantifier": "every message, key list, header, randomness; standard algorithms", "why_tests_cant": "Composition of two protocols over all messages, keys and random choices.", "anchors": ["src/jwkest/jws.py:JWS.sign_compact", "src/jwkest/jwe.py:JWE.encrypt", "src/jwkest/jwe.py:JWE.decrypt", "src/jwkest/jws.py:JWS.verify_compact_verbose"]}
{"id": "C102", "title": "What jwkutil.py prints", "statement": "The keys of `jwkutil.py` are, in this order, the RSA key of `-r` (with the kid of the option, or None), the secret of `-k`, the key described by `-j`, the keys of the set `-J` and those of the set found at `-u`; if every source that is given can be read, the tool has its keys. `jwkutil.py -s` without `-a` prints an unsigned token, with a typ exactly if `-t` gives a non-empty one, which `-v` refuses with SignerAlgError whatever the keys. With a secret (`-k`) and HS256/384/512, `-s` prints a token for every message and every non-empty secret, and `-v` with the same secret prints that message (its JSON value if it is JSON). `-s -e` with a secret and AES key wrap prints a nested token from which the library recovers the signed token, but the tool's own `-d` and `-d -v` always end with ValueError on it: `-d` never prints a plaintext, for no token and no key.", "quantifier": "every message, secret, algorithm, set of options and state of the random source", "why_tests_cant": "Holds for all messages, secrets and random choices; that -d never prints anything is a statement about all runs.", "anchors": ["script/jwkutil.py:sign", "script/jwkutil.py:verify", "script/jwkutil.py:encrypt", "script/jwkutil.py:decrypt"]}
{"id": "C103", "title": "jwenc.py and jwdecrypt.py fit together", "statement": "What `jwenc.py` prints for an RSA public key file (modulus of 1040 bits or more), any of the three RSA algorithms and six content encryptions, and any message, `jwdecrypt.py` with the private key file turns into the message again, whether the token is given on the command line or in a file that ends with newlines. `jwenc.py -X` raises NoSuitableEncryptionKey for every URL and algorithm, because the arguments of load_x509_cert are in the wrong order.", "quantifier": "every message, RSA key pair, algorithm pair and state of the random source", "why_tests_cant": "All keys, messages and random choices.", "anchors": ["script/jwenc.py:64-111", "script/jwdecrypt.py:53-78"]}
{"id": "C104", "title": "The library recognises its own tokens", "statement": "Every compact token made by sign_compact, signed or not, is no JSON text and jws.factory recognises it and gives its header and payload. jwe.factory answers None for it, unless its typ header is \"JWE\" in any letter case, which makes jwe.factory (and peek.py) take it for an encrypted token, or is no text, which makes both raise AttributeError. Every token made by JWE.encrypt with a typ that is text or absent is recognised by jwe.factory, and jws.factory answers None. peek.py prints accordingly.", "quantifier": "every token the library can make", "why_tests_cant": "Quantifies over all headers, messages, keys and random choices.", "anchors": ["src/jwkest/jws.py:factory", "src/jwkest/jwe.py:factory", "src/jwkest/jws.py:JWS._is_compact_jws", "src/jwkest/jwe.py:JWEnc.is_jwe", "script/peek.py:8-18"]}
{"id": "C105", "title": "gen_symkey.py makes usable keys", "statement": "What gen_symkey.py prints is a key set that `jwkutil.py -J` loads as exactly one symmetric key with the generated secret and the given kid (an absent kid and an empty kid give the same output); tokens signed with it are verified with it.", "quantifier": "every non-empty secret, kid, message and HS algorithm", "why_tests_cant": "All secrets and labels.", "anchors": ["script/gen_symkey.py:25-27", "src/jwkest/jwk.py:SYMKey.serialize", "src/jwkest/jwk.py:KEYS.load_jwks"]}
{"id": "C106", "title": "The JSON and the compact form of a signed token mean the same", "statement": "A JWS in flattened JSON serialization without unprotected header is accepted by verify_json, with message m, exactly when the compact token made of the same three segments is accepted by verify_compact of a fresh object with the same keys, allow_none and sigalg, with message m, and the protected header is plain: it has no member `self` and a member `jwk`, if any, holds a usable key. The settings of the object do not matter to verify_json. With a list of signatures all of them must be acceptable in this way, and the messages combined.", "quantifier": "every JSON text, segments, keys, object and message", "why_tests_cant": "Equivalence of two code paths over all tokens.", "anchors": ["src/jwkest/jws.py:JWS.verify_json", "src/jwkest/jws.py:JWS.verify_compact_verbose", "src/jwkest/jws.py:JWS._is_json_serialized_jws"]}
{"id": "C107", "title": "Signed tokens are malleable in the signature segment, and how", "statement": "Whether verify_compact accepts a token depends on the third segment only through its decoded bytes; so an accepted token whose signature is not a multiple of three bytes has an accepted companion with another last character, and ones with any number (two or more) of '=' added. With HMAC there are no others: two accepted tokens with the same first segments and secret have the same signature bytes. With ES* zero bytes may be inserted between r and s, and replacing s by N-s gives another accepted token; both without the private key.", "quantifier": "every token, object, key list and outcome", "why_tests_cant": "A statement about all pairs of tokens.", "anchors": ["src/jwkest/jws.py:JWS.verify_compact_verbose", "src/jwkest/__init__.py:b64d", "src/jwkest/ecc.py:NISTEllipticCurve.verify", "src/jwkest/jws.py:HMACSigner.verify"]}
{"id": "C108", "title": "Signed tokens are URL safe and their signature segment has a fixed length", "statement": "What sign_compact returns consists of three segments of base64url characters, without '=', joined by two dots. The third is empty for alg none; otherwise its length is that of the base64url text of n bytes where n is the digest size (HS*), twice the field size of the curve (ES*: 64, 96, 132), or the byte length of the modulus of the signing key (RS*, PS*).", "quantifier": "every object, message, key list and signed token", "why_tests_cant": "All keys, messages and random values.", "anchors": ["src/jwkest/jws.py:JWS.sign_compact", "src/jwkest/jwt.py:JWT.pack", "src/jwkest/ecc.py:NISTEllipticCurve.sign"]}
{"id": "C109", "title": "Publish a key set, receive encrypted messages", "statement": "Writing a key set with dump_jwks and loading the text in another process gives keys with which messages can be encrypted to the publisher: what is encrypted with the loaded keys and RSA1_5, RSA-OAEP or RSA-OAEP-256 is decrypted to the message with the publisher's own key set (private keys are not in the text), likewise with A*KW and shared keys; with the standard algorithms and RSA moduli of at least 1040 bits encrypting does succeed. With ECDH-ES* no message can be encrypted with a published key set, since the code needs the private part of the recipient's key.", "quantifier": "every non-empty set of exportable keys, every message, algorithm, object and random choice", "why_tests_cant": "All key sets, messages and random values; composition of export, import, encryption and decryption.", "anchors": ["src/jwkest/jwk.py:KEYS.dump_jwks", "src/jwkest/jwk.py:KEYS.load_jwks", "src/jwkest/jwe.py:JWE.encrypt", "src/jwkest/jwe.py:JWE.decrypt"]}
{"id": "C110", "title": "Encryption succeeds", "statement": "JWE.encrypt returns a token, it does not raise, whenever the object has a supported alg and enc, the header parameters can be written as JSON, and the first key picked is usable: a shared secret (A*KW, text message), an RSA key that can encrypt the content key (RSA*, with zip absent or DEF), or an EC key with both coordinates and its scalar (ECDH-ES*), for texts and bytes up to the limit of GCM, with given or generated content key and initialization vector of the right length.", "quantifier": "every object, message, key list, argument and random choice meeting the conditions", "why_tests_cant": "All messages, header parameters and keys.", "anchors": ["src/jwkest/jwe.py:JWE.encrypt", "src/jwkest/jwe.py:JWE_SYM.encrypt", "src/jwkest/jwe.py:JWE_RSA.encrypt", "src/jwkest/jwe.py:JWE_EC.encrypt", "src/jwkest/jwe.py:JWEnc.pack"]}
{"id": "C111", "title": "Encrypted tokens made by other implementations", "statement": "A compact JWE whose parts are computed as RFC 7518 and RFC 3394 say (content encrypted with AES-GCM or AES-CBC-HMAC under a content key of the right length, the header as additional data) decrypts to the message: for RSA* when the encrypted key opens to the content key, for A*KW when the wrapping key is the start of SHA-256 of the secret (so not the secret itself as RFC 7518 says). _decrypt returns a message exactly when the tag is the right one and the message is the decryption. Exception: A192GCM uses AES with a key of another length (leading zeros added, or 8 bytes dropped), so tokens of other implementations do not open, and for the other GCM names the key may not begin with zero bytes beyond the length limit.", "quantifier": "every token, key, header and message", "why_tests_cant": "Interoperability: the tests only decrypt what the library itself made.", "anchors": ["src/jwkest/jwe.py:JWEnc", "src/jwkest/jwe.py:JWe._decrypt", "src/jwkest/jwe.py:JWE_RSA.decrypt", "src/jwkest/jwe.py:JWE_SYM.decrypt", "src/jwkest/aes_gcm.py:AES_GCM"]}
{"id": "C112", "title": "The curve a key names plays no role for ES256, ES384, ES512", "statement": "Verification does not look at the curve or the private number of an EC key: exchanging them in the keys given changes neither which tokens are accepted nor the message returned. What a key signs is accepted with the key whose point is the private number times the base point of the curve of the algorithm, whatever curve and point the signing key names; so a P-521 key signs with ES256 on P-256.", "quantifier": "every key list, token, algorithm, private number and point", "why_tests_cant": "All keys and tokens; the mismatch only shows with a key of another curve.", "anchors": ["src/jwkest/jwk.py:ECKey.get_key", "src/jwkest/jws.py:DSASigner", "src/jwkest/ecc.py:NISTEllipticCurve.sign", "src/jwkest/jws.py:JWS.verify_compact_verbose"]}
{"id": "C113", "title": "Header members given twice", "statement": "When a header names a member more than once, the last one counts, for every white space between the members: json.loads keeps the last value of each name, and a token is verified with the algorithm of its last alg, whatever the earlier ones say (also none).", "quantifier": "every list of members, every token with such a header, every key list", "why_tests_cant": "All lists of members; RFC 7515 lets a reader either refuse or take the last.", "anchors": ["src/jwkest/jwt.py:JWT.unpack", "src/jwkest/jws.py:JWS.verify_compact_verbose"]}
{"id": "C114", "title": "Which ECDH-ES tokens are opened", "statement": "A token for ECDH-ES or ECDH-ES with key wrap whose header lacks apu or apv, which RFC 7518 makes optional, is not opened, whatever the keys and arguments. With both, it is opened to the message by the first key picked, if the content is encrypted as RFC 7518 says under the content key: the key derived as in C42 from the private number of the key and the point of epk on the curve of epk, or the one wrapped (RFC 3394) under that derived key; curve and point of the own key play no role.", "quantifier": "every token, header, key list, private number, point and message", "why_tests_cant": "All headers and keys; the tests only use tokens the library made, which have both members.", "anchors": ["src/jwkest/jwe.py:JWE_EC.dec_setup", "src/jwkest/jwe.py:JWE_EC.decrypt", "src/jwkest/extra.py:ecdh_derive_key", "src/jwkest/jwe.py:JWE.decrypt"]}
{"id": "C115", "title": "ECDSA nonces and EC keys come from a predictable generator", "statement": "The random numbers of ecc.py are Python's random.getrandbits (MT19937), not a cryptographic generator. Whoever has seen 624 consecutive 32-bit outputs of that generator (or 78 numbers of 256 bits: long numbers are made of the same words) computes every number it returns later, whatever was drawn in between. Hence that observer computes the signer's private number, modulo the order of the base point, from one token signed later with ES256, ES384 or ES512; the private number of a key that jwk_wrap makes from a curve; and, knowing the recipient's public point, the content key of an ECDH-ES token with a generated ephemeral key.", "quantifier": "every state of the generator, number of draws in between, key list, header, message, curve and recipient", "why_tests_cant": "A relation between past outputs and secrets over all 2^19968 states; tests cannot see that a random number is predictable.", "anchors": ["src/jwkest/ecc.py:NISTEllipticCurve._sign_loop", "src/jwkest/ecc.py:NISTEllipticCurve.key_pair", "src/jwkest/jws.py:DSASigner.sign", "src/jwkest/jwk.py:jwk_wrap", "src/jwkest/jwe.py:JWE_EC.enc_setup"]}
{"id": "C116", "title": "RSA1_5 decryption is a padding oracle", "statement": "JWE.decrypt with one RSA key answers, for an RSA1_5 token whose second segment has the length of the modulus and is a number below it, whatever its enc, iv, ciphertext and tag: DecryptionFailed is raised exactly if that segment does not decrypt to a PKCS#1 v1.5 block 00 02 PS 00 M with at least eight non-zero bytes PS (or M is the random sentinel); with a block it returns a message or raises something else. Hence a sender who has seen an encrypted key learns, for every multiplier s, whether s times the unknown padded number is such a block modulo n, and each such s confines that number to the intervals of Bleichenbacher's attack.", "quantifier": "every RSA key, encrypted key, multiplier, content encryption, iv, ciphertext, tag, header with other members, sentinel", "why_tests_cant": "An equivalence over all second segments; tests try a few broken tokens and see an exception, not which one tells what.", "anchors": ["src/jwkest/jwe.py:RSAEncrypter.decrypt", "src/jwkest/jwe.py:JWE_RSA.decrypt", "src/jwkest/jwe.py:JWE.decrypt"]}
{"id": "C117", "title": "Two signatures from the same state of the generator reveal the private key", "statement": "If two tokens are signed with ES256, ES384 or ES512 by keys with the same private number while the random generator returns the same number (a restored snapshot, a forked worker, a fixed seed), their signatures begin with the same half; and if the signatures differ, the private number modulo the order is computed from the two tokens alone: nothing in the nonce depends on the message or the key.", "quantifier": "every pair of objects, messages, headers, key lists and every generator output", "why_tests_cant": "A relation between two executions for all 2^256 keys and nonces.", "anchors": ["src/jwkest/ecc.py:NISTEllipticCurve._sign_loop", "src/jwkest/ecc.py:NISTEllipticCurve.sign", "src/jwkest/jws.py:DSASigner.sign"]}
{"id": "C118", "title": "Verification and RSA encryption use nothing but the public half of a key", "statement": "If the keys of two lists have pairwise the same labels and the same public halves (RSA modulus and exponent, EC coordinates, the shared secret), verify_compact and verify_json give the same message or the same exception for every token, object and option. Hence a verifier with nothing but the exported key set (dump_jwks, load_jwks) answers every token exactly as one with the private keys does. Key wrapping and RSA encryption make the same token from both lists. (Encryption to an EC key does need its private half: C65.)", "quantifier": "every object, token, pair of key lists with the same public halves, allow_none, sigalg, message and randomness", "why_tests_cant": "Equality of two executions over all tokens, including all failing ones and which exception they raise.", "anchors": ["src/jwkest/jws.py:JWS.verify_compact_verbose", "src/jwkest/jws.py:JWS.verify_json", "src/jwkest/jwe.py:JWE.encrypt", "src/jwkest/jwk.py:KEYS.dump_jwks", "src/jwkest/jwk.py:KEYS.load_jwks"]}
{"id": "C119", "title": "Points off the curve reveal the whole private key of an ECDH-ES recipient", "statement": "The ephemeral point of an ECDH-ES token is never checked to lie on the curve. For a pair of numbers that has odd order q on whatever curve it lies, dh_z gives the same result for two private numbers exactly if they are equal modulo q up to sign. Keys that give the same secret with the ephemeral point of a token get the same answer from decrypt (message or exception), so a token sealed under a guess for the private number is opened by every private number equal to the guess modulo q up to sign. For P-256 there are sixty such pairs with different prime orders up to 14249: one of fewer than 65000 guesses is right for each of them, and the right guesses determine every private number below the order of the base point (the square root of the number with these squares modulo the orders).", "quantifier": "every private number, curve and pair of odd order; every token, header, key list, randomness; sixty explicit points", "why_tests_cant": "A relation between answers to adversarial tokens and the key, for all 2^256 keys.", "anchors": ["src/jwkest/ecc.py:NISTEllipticCurve.dh_z", "src/jwkest/jwe.py:JWE_EC.dec_setup", "src/jwkest/elliptic.py:mulp", "src/jwkest/jwe.py:JWE.decrypt"]}
{"id": "C120", "title": "What checking an untrusted compact token can raise", "statement": "With a non-empty list of ordinary keys (RSA keys with library object, EC keys with two non-zero coordinates, symmetric keys with a secret), verify_compact on any token, object state, allow_none and sigalg either returns or raises one of eleven exceptions: BadSyntax, WrongNumberOfParts, BadSignature, SignerAlgError, NoSuitableSigningKeys, and, contrary to what a caller catching JWKESTException expects, binascii.Error, UnicodeDecodeError, JSONDecodeError, TypeError, AttributeError and KeyError. Each of the eleven is raised by an explicit token. If the token has three decodable parts, its header is an object with a supported algorithm, and cty is absent or text, only SignerAlgError, NoSuitableSigningKeys, BadSignature and, for ECDSA only, TypeError remain.", "quantifier": "every byte string as token, every object state, key list of ordinary keys, allow_none, sigalg", "why_tests_cant": "Absence of other exceptions over all hostile inputs.", "anchors": ["src/jwkest/jws.py:JWS.verify_compact", "src/jwkest/jws.py:JWS.verify_compact_verbose", "src/jwkest/jwt.py:JWT.unpack", "src/jwkest/jws.py:JWx.pick_keys"]}
{"id": "C121", "title": "Accessors of tokens and objects", "statement": "For an unpacked token b64_encrypted_key() and its siblings give the segments of the text in order and unchanged, the decoded accessors their decodings, and both raise IndexError beyond the last segment; valid() is True exactly for two dots; protected_header() is the JSON text of the header. dump_header() is exactly the header parameters among the settings. _decode parses JSON only for cty 'JWT' in this spelling, unlike payload(), which takes any letter case. rsa_eq compares exactly the public halves.", "quantifier": "every token, index, object, payload and pair of keys", "why_tests_cant": "All segment counts, positions and member names.", "anchors": ["src/jwkest/jwe.py:JWEnc.b64_encrypted_key", "src/jwkest/jws.py:JWSig.valid", "src/jwkest/jws.py:JWx.dump_header", "src/jwkest/jws.py:JWx._decode", "src/jwkest/jwk.py:rsa_eq"]}
{"id": "C122", "title": "Distribution of EC private numbers and nonces", "statement": "On the three named curves every private number from 1 to N-1 arises in key_pair from exactly one or two of the 2^bits draws of getrandbits, from two exactly if it is at most 2^bits-(N-1); the doubled ones are less than a fraction 2^-31 (P-256), 2^-193 (P-384), 2^-259 (P-521) of all. Different private numbers have different public points. A signature with draw r is the one with the nonce key_pair would make of r, so that nonces have the same distribution.", "quantifier": "every curve name, private number, draw, hash and key", "why_tests_cant": "Counting over 2^256 draws.", "anchors": ["src/jwkest/ecc.py:NISTEllipticCurve.key_pair", "src/jwkest/ecc.py:NISTEllipticCurve.public_key_for", "src/jwkest/ecc.py:NISTEllipticCurve.sign"]}
{"id": "C123", "title": "The type of kid in EC keys is checked only for keys made from numbers", "statement": "ECKey(crv=..., x=..., y=..., kid=v) with numbers as coordinates raises HeaderError if v is non-empty and no text. With coordinates as base64url text, as in every JWK, the check is never reached: the key is made or refused exactly as without kid, and carries v, whatever its type.", "quantifier": "every keyword dictionary, kid value and coordinate", "why_tests_cant": "All types of kid and all coordinates.", "anchors": ["src/jwkest/jwk.py:Key.verify", "src/jwkest/jwk.py:ECKey.__init__"]}
{"id": "C124", "title": "A refused JSON serialization rewrites the object", "statement": "verify_json forgets the object it is called on: message, algorithm and parameters of the caller have no influence and are lost (only key stays), also when it raises. After a refused token with one signature the message, alg, kid, typ, cty, jku, x5u and x5t of the object are those of the token's merged header (a jwk that cannot be read leaves alg and jku only). So the payload of what the object signs next is the member msg of the header of the forged token.", "quantifier": "every object, JSON text, key list, flags, exception, later signing keys", "why_tests_cant": "State after every refused text; over all headers.", "anchors": ["src/jwkest/jws.py:JWS.verify_json", "src/jwkest/jws.py:JWx.__init__", "src/jwkest/jws.py:JWS.sign_compact"]}
{"id": "C125", "title": "Exceptions of JWE.decrypt on untrusted tokens", "statement": "Whatever bytes (up to 32 GiB) are given as token to JWE.decrypt with keys as the constructors make them (symmetric ones not empty), an exception is one of nine subclasses of JWKESTException (BadSyntax, WrongNumberOfParts, WrongEncryptionAlgorithm, NoSuitableDecryptionKey, NotSupportedAlgorithm, DecryptionFailed, VerificationFailure, HeaderError, DeSerializationNotPossible) or one of fourteen that are not: binascii.Error, UnicodeDecodeError, JSONDecodeError, TypeError, AttributeError, KeyError, IndexError, ValueError, struct.error, zlib.error, Exception, InvalidInputException and InvalidTagException of aes_gcm, ECCException. For a token with one of the ten algorithms only the exceptions of its family are possible; each of the twenty-three is raised by some token, all but VerificationFailure, NotSupportedAlgorithm and zlib.error by one that is written without any key. So `except JWKESTException` does not catch a forged token: a wrong GCM tag, a bad wrapped key and a bad epk escape it.", "quantifier": "every byte string, list of usable keys, expected alg, random values", "why_tests_cant": "A sample of bad tokens shows some exceptions, never that there are no others.", "anchors": ["src/jwkest/jwe.py:JWE.decrypt", "src/jwkest/jwe.py:JWE_RSA.decrypt", "src/jwkest/jwe.py:JWE_SYM.decrypt", "src/jwkest/jwe.py:JWE_EC.dec_setup", "src/jwkest/jwt.py:JWT.unpack"]}
{"id": "C126", "title": "The key of a certificate (der2rsa, x5c)", "statement": "der2rsa gives a key exactly for byte strings that are one DER sequence whose first member is a DER sequence with at least seven members, the seventh not an INTEGER and accepted by RSA.importKey: the key is that of the seventh member (the subjectPublicKeyInfo of a version 2 or 3 certificate), whatever the issuer, validity, algorithm and signature are: changing or removing the signature changes nothing. A version 1 certificate (no version field) gives IndexError. Trailing bytes are refused. RSAKey(x5c=[base64 of such a certificate]) has the modulus and exponent of that member; with a version 1 certificate its constructor raises IndexError.", "quantifier": "every byte string, every RSA.importKey", "why_tests_cant": "One certificate shows that one layout is read, not that the signature never counts.", "anchors": ["src/jwkest/jwk.py:der2rsa", "src/jwkest/jwk.py:RSAKey._extract_rsa_from_cert", "src/jwkest/jwk.py:RSAKey.deserialize"]}
{"id": "C127", "title": "Certificates as text (der_cert2rsa, pem_cert2rsa)", "statement": "der_cert2rsa deletes everything but the 64 letters of base64, the padding included: the base64 of a byte string of any layout is read if the number of bytes is a multiple of three, and raises binascii.Error otherwise, so two of three certificates are refused. A PEM text is never read: the letters of BEGIN CERTIFICATE count. pem_cert2rsa reads every PEM text (LF or CRLF, lines of any length, white space at the end) as der2rsa reads its bytes, provided RSA.importKey accepts the text. If other text follows the first certificate (a chain) the key is that of the first certificate when its length is no multiple of three; otherwise binascii.Error or ValueError.", "quantifier": "every byte string, line structure and following ASCII text", "why_tests_cant": "Fixtures have one length and one line structure.", "anchors": ["src/jwkest/jwk.py:der_cert2rsa", "src/jwkest/jwk.py:pem_cert2rsa"]}
{"id": "C128", "title": "load_x509_cert and its dictionary", "statement": "load_x509_cert never raises. In every sequence of calls that share a dictionary that was empty before the first, whatever the server answers each time, a call returns [('rsa', key)] with the key that its own answer stands for if the status is 200 and the text can be imported, else the empty list: no call depends on the earlier ones and no failure is remembered. A key already in the dictionary is returned for its text without a look at the text. With an empty dictionary it agrees with x509_rsa_load of the text, except that it returns the empty list where the latter raises.", "quantifier": "every sequence of calls, urls, answers and texts", "why_tests_cant": "A test makes one or two calls.", "anchors": ["src/jwkest/jwk.py:load_x509_cert"]}
{"id": "C129", "title": "Which half of a key is handed out", "statement": "get_key and encryption_key of an EC key give, without private=True, the point (x, y) and nothing that depends on the private number; the key and the keys read from its public or private JWK give the same point. Asked for the private half, a key made by the constructor from the private JWK gives the number, a key read from the public JWK raises ValueError. An RSA key ignores the flag: read from a private JWK it hands the object with the private exponent also to a caller who asks for private=False.", "quantifier": "every key, JWK and flag", "why_tests_cant": "Independence from the private number is a statement about pairs of keys.", "anchors": ["src/jwkest/jwk.py:ECKey.get_key", "src/jwkest/jwk.py:ECKey.encryption_key", "src/jwkest/jwk.py:RSAKey.encryption_key", "src/jwkest/jwk.py:Key.get_key"]}
{"id": "C130", "title": "Exceptions of reading an untrusted JWK or JWK set", "statement": "KEYS.load_jwks on a text from anywhere raises exactly thirteen exceptions: JSONDecodeError, TypeError, AttributeError, KeyError, ValueError, IndexError, OverflowError, UnicodeEncodeError, binascii.Error, BadSyntax, HeaderError, DeSerializationNotPossible and ECCException (not a subclass of JWKESTException). For a single JWK the set depends on kty: RSA gives TypeError, DeSerializationNotPossible, AttributeError, KeyError, UnicodeEncodeError, binascii.Error, ValueError, IndexError; oct gives TypeError, ValueError, OverflowError, BadSyntax, binascii.Error; EC gives TypeError, HeaderError, DeSerializationNotPossible, ECCException, AttributeError. Each is raised by some JWK, none other by any. A JWK of another type never raises unless it has a member `self` (TypeError).", "quantifier": "every text, every JSON object, every set before", "why_tests_cant": "That no other exception is possible for any text is out of reach of a sample.", "anchors": ["src/jwkest/jwk.py:keyrep", "src/jwkest/jwk.py:KEYS.load_jwks", "src/jwkest/jwk.py:KEYS.load_dict", "src/jwkest/jwk.py:RSAKey.deserialize", "src/jwkest/jwk.py:ECKey.deserialize", "src/jwkest/jwk.py:SYMKey.__init__"]}
{"id": "C131", "title": "Exceptions of verify_json on untrusted text", "statement": "With a non-empty list of ordinary keys, verify_json on any text raises one of twenty exceptions. Seventeen are raised by an explicit text whatever the keys and the object are: JSONDecodeError, TypeError, AttributeError, KeyError, ValueError, IndexError, OverflowError, UnicodeEncodeError, UnicodeDecodeError, binascii.Error, BadSyntax, WrongNumberOfParts, SignerAlgError, FormatError, HeaderError, DeSerializationNotPossible, ECCException; BadSignature, NoSuitableSigningKeys and AssertionError depend on the keys. In particular the jwk of an unprotected header is read (and can fail) although the caller gave the keys to use.", "quantifier": "every text, object state, list of ordinary keys, allow_none, sigalg", "why_tests_cant": "Absence of other exceptions over all hostile inputs.", "anchors": ["src/jwkest/jws.py:JWS.verify_json", "src/jwkest/jws.py:JWx.__init__", "src/jwkest/jwk.py:keyrep", "src/jwkest/jwt.py:JWT.unpack"]}
{"id": "C132", "title": "Retrying a verification, and keys that do not concern a token", "statement": "verify_compact leaves the object such that calling it again on the same token gives what a first call would give, whatever keys, allow_none and sigalg the earlier call had and whether it succeeded or failed: after a key rotation a token that was rejected can be retried on the same object. A key that does not suit the token (by type, kid or alg) may be put anywhere into a key list or removed, without changing the message or the exception, unless the list becomes empty. Keys of any kind added at the end do not change an acceptance or the key reported. HMAC and RSA keys added anywhere do not prevent an acceptance.", "quantifier": "every object, token, key lists, allow_none, sigalg", "why_tests_cant": "Histories of an object and the set of possible extra keys are unbounded.", "anchors": ["src/jwkest/jws.py:JWS.verify_compact_verbose", "src/jwkest/jws.py:JWS.verify_compact", "src/jwkest/jws.py:JWx.pick_keys", "src/jwkest/jws.py:JWx._pick_alg"]}
{"id": "C133", "title": "The kid of an encrypted token", "statement": "JWE().decrypt(token, keys) looks neither at the kid of the token's header nor at the kid of the keys: relabelling the keys in any way changes neither the message nor the exception. factory(token).decrypt(keys=keys) gives what JWE().decrypt gives with those of the keys that have the kid of the header (all of them if the header has no kid or an empty one). The object keeps wanting that kid: decrypt(other_token, keys) on it selects by the kid of the token it was made from, not by that of the other token. If the sender's key has a kid, the header shows it, and a recipient who has exactly one key with this kid (and its material) gets the message from factory(token).decrypt(keys=keys), wherever the key is in the list and whatever the others are; for key wrap, RSA and key agreement.", "quantifier": "every token, key list, labelling, message, random choice", "why_tests_cant": "Key lists and labels are unbounded.", "anchors": ["src/jwkest/jwe.py:factory", "src/jwkest/jwe.py:JWE.decrypt", "src/jwkest/jwe.py:JWE.encrypt", "src/jwkest/jws.py:JWx.pick_keys"]}
{"id": "C134", "title": "Keys that do not concern an encrypted token", "statement": "A key that decrypt sorts out for a token (by type, kid, use or alg) may be put anywhere into the key list or removed from it: message, exception and what the call leaves in the object are the same, unless the list becomes empty. Keys of any kind added at the end do not change a decryption that succeeds.", "quantifier": "every object, token, key list, position, extra keys, random choice", "why_tests_cant": "The set of possible extra keys is unbounded.", "anchors": ["src/jwkest/jwe.py:JWE.decrypt", "src/jwkest/jws.py:JWx.pick_keys"]}
{"id": "C135", "title": "Signed tokens made by other implementations", "statement": "With the standard algorithms, verify_compact on a fresh object accepts a compact token exactly if its signature over the first two segments as sent is valid by RFC 7518 under one of the caller's keys with the right type, kid and alg, however the header is spelled as JSON and base64: for HS* the HMAC, for RS* RSASSA-PKCS1-v1_5 (DigestInfo with or without NULL), for PS* RSASSA-PSS with some salt as long as the digest, for ES* the ECDSA equation (one key with a point of the curve). Departure: if the digest as a number is above the order of the curve (about one ES256 token in 2^32), half of it is signed and verified, so tokens of other implementations are judged by the wrong number.", "quantifier": "every token text, header, payload, signature and key", "why_tests_cant": "Interoperability: the tests only verify what the library itself made and a few vectors.", "anchors": ["src/jwkest/jws.py:JWS.verify_compact_verbose", "src/jwkest/jws.py:RSASigner.verify", "src/jwkest/jws.py:PSSSigner.verify", "src/jwkest/jws.py:DSASigner.verify", "src/jwkest/jws.py:HMACSigner.verify", "src/jwkest/ecc.py:NISTEllipticCurve.verify"]}
{"id": "C136", "title": "Signed tokens of the library are valid for other implementations", "statement": "With the standard algorithms and keys whose public half belongs to the private half, every token that sign_compact returns is a JWS compact serialization of RFC 7515: three unpadded base64url texts, the first one of a JSON object with the algorithm, the kid of the key that signed and the other members given, the second one of the bytes of the message, and a signature as RFC 7518 prescribes under a key of the caller: the HMAC, RSASSA-PKCS1-v1_5 with the NULL parameter and the length of the modulus, RSASSA-PSS with a salt as long as the digest, or ECDSA with both numbers at the full width of the curve. Departure: for ES256 and ES384 half of a digest above the order of the curve is signed; for ES512 the digest is always signed itself.", "quantifier": "every object, message, header, key list and random choice", "why_tests_cant": "Interoperability: the tests verify tokens with the library itself.", "anchors": ["src/jwkest/jws.py:JWS.sign_compact", "src/jwkest/jws.py:RSASigner.sign", "src/jwkest/jws.py:PSSSigner.sign", "src/jwkest/jws.py:DSASigner.sign", "src/jwkest/jws.py:HMACSigner.sign", "src/jwkest/ecc.py:NISTEllipticCurve.sign"]}
{"id": "C137", "title": "The encrypted keys of RSA tokens are those of RFC 8017", "statement": "With the standard algorithms and a key whose public half belongs to the private half, the second segment of a token opens to a content key exactly if it is as long as the modulus and is the encryption, under the public half, of the block that RFC 8017 prescribes: for RSA1_5 the bytes 0 and 2, at least eight bytes other than zero, a zero and the key; for RSA-OAEP and RSA-OAEP-256 the byte 0, the masked seed and the masked data block with an empty label, with SHA-1 or SHA-256 both for the label and for the mask. So tokens of other implementations decrypt, and the tokens that the library makes for an RSA key have such a second segment.", "quantifier": "every key, encrypted key, content key, token, message and random choice", "why_tests_cant": "Interoperability: the tests decrypt tokens made by the library itself.", "anchors": ["src/jwkest/jwe.py:RSAEncrypter.encrypt", "src/jwkest/jwe.py:RSAEncrypter.decrypt", "src/jwkest/jwe.py:JWE_RSA.encrypt", "src/jwkest/jwe.py:JWE_RSA.decrypt"]}
{"id": "C138", "title": "JSON serializations and other implementations", "statement": "With the standard algorithms: a JSON serialization (general or flattened) with HMAC and RSA algorithms is accepted by verify_json exactly if every entry has a signature that is valid by RFC 7518 under a suitable key of the caller, over its own protected header and the payload as they were sent, with the kid in either header, and the messages agree; and everything that sign_json returns is a JSON serialization of RFC 7515 section 7.2: the payload as unpadded base64url, one entry for each pair of headers, the protected header with the algorithm and the members asked for, the unprotected header as given, and a signature by RFC 7518 under one of the keys. Departure: RFC 7515 lets the algorithm be in the unprotected header; such an entry is never accepted, whatever the keys and arguments.", "quantifier": "every text, object, key list, header list, message and random choice", "why_tests_cant": "Interoperability: the tests verify with the library what the library signed.", "anchors": ["src/jwkest/jws.py:JWS.sign_json", "src/jwkest/jws.py:JWS.verify_json"]}
{"id": "C139", "title": "The width of the numbers in EC JWKs", "statement": "A JWK of an EC key by RFC 7518 sections 6.2.1.2, 6.2.1.3 and 6.2.2.1 (coordinates and private number in the full octet width of the curve), leading zero octets included, loads to the key with these coordinates (the private number stays an undecoded text, C34). Departure: the library writes these numbers in their shortest form, so that the JWK it exports is as the RFC asks exactly if none of the numbers in it starts with a zero octet; a JWK that is loaded and written again changes its x (or y) exactly if that coordinate starts with a zero octet.", "quantifier": "every key, JWK and curve; every coordinate that fits the curve", "why_tests_cant": "Of random keys only about one in 128 shows the difference.", "anchors": ["src/jwkest/jwk.py:ECKey.serialize", "src/jwkest/jwk.py:ECKey.deserialize"]}
{"id": "C140", "title": "The members of RSA JWKs", "statement": "The JWK written for an RSA key has the numbers of the key as Base64urlUInt of RFC 7518; the public JWK is always as section 6.3 asks, the private one exactly if the key has all of p, q, dp, dq and qi together with d, or none of them. Departure: a key made from a private RSA object of the library writes d, p and q but never dp, dq and qi, so that its private JWK is never as the RFC asks. In the other direction an RSA JWK by the RFC loads to the key built from n, e, d, p and q alone and is written again with the same members: dp, dq and qi are not compared with the others, however wrong.", "quantifier": "every key, JWK, label and number", "why_tests_cant": "Consistency of members nobody uses, and what the RFC demands of the producer; the tests only read back what the library wrote.", "anchors": ["src/jwkest/jwk.py:RSAKey.serialize", "src/jwkest/jwk.py:RSAKey.deserialize", "src/jwkest/jwk.py:RSAKey._split"]}
{"id": "C141", "title": "A JWS object shared between threads", "statement": "If several threads call verify_compact_verbose on one JWS object, then in every interleaving a call that returns has checked its own token, under its own keys, algorithm and allow_none, with the key it returns; and the message it returns is that of a token which some call on the object has checked. Undisturbed, a call returns what it returns on the object alone. Defect: the message is written to self.msg and read back for the return value, so whenever two calls succeed one after the other there is an interleaving in which the first returns the message of the second token beside its own key; in particular a caller that forbids unsigned tokens can be handed the payload of an unsigned token another thread allows, as if its key had signed it.", "quantifier": "every number of threads, every calls and object, every interleaving", "why_tests_cant": "Interleavings are not enumerable by running threads, and the window is two statements wide.", "anchors": ["src/jwkest/jws.py:JWS.verify_compact_verbose"]}
{"id": "C142", "title": "A JWE object shared between threads", "statement": "If several threads call encrypt and decrypt on one JWE object, then in every interleaving a decryption returns or raises what it does alone, and an encryption with RSA, AES key wrap or direct agreement makes the token it makes alone from the same random choices; the object changes in the entry cek alone. Departure: an encryption with ECDH-ES and key wrap takes over the content key another thread's call has left in the object, so that a token to one party may be sealed with the content key of a token from another.", "quantifier": "every number of threads, every calls and object, every interleaving", "why_tests_cant": "Interleavings are not enumerable by running threads; nothing visible goes wrong in the departing case.", "anchors": ["src/jwkest/jwe.py:JWE.encrypt", "src/jwkest/jwe.py:JWE.decrypt"]}
{"id": "C143", "title": "The class JWE_SYM used by itself", "statement": "JWE_SYM used directly with a SYMKey object wraps the content key under the secret itself as RFC 7518 has it, and every SYMKey with this secret, as bytes or as text, opens the token; it works exactly for secrets of 16, 24 and 32 bytes, and does not hold the length against alg. It opens tokens of exactly five segments; a content key given by the caller is used and makes the key object irrelevant. Departure: JWE.encrypt and JWE.decrypt use the first bytes of the SHA-256 digest of the secret instead, so the two ways do not open each other's tokens for one key, except for a coincidence of two wraps; they do if the directly used key has that digest for its secret. A key of another class encrypts and opens nothing.", "quantifier": "every secret, message, alg, enc, content key, iv, random values", "why_tests_cant": "Tests use one of the two ways on both sides.", "anchors": ["src/jwkest/jwe.py:JWE_SYM.encrypt", "src/jwkest/jwe.py:JWE_SYM.decrypt", "src/jwkest/jwe.py:JWE.encrypt", "src/jwkest/jwk.py:SYMKey.encryption_key"]}
{"id": "C144", "title": "The class JWE_RSA used by itself, and with_digest", "statement": "Every message encrypted by a JWE_RSA object is returned by a JWE_RSA object with the same with_digest and the private key, with all three paddings and with compression. with_digest matters only for RSA1_5: the SHA-1 digest of the content key is encrypted along with it; a token without it is refused with DecryptionFailed, and one with it is opened by no object without it if the content encryption is one of the CBC ones. A wrong RSA padding is DecryptionFailed either way. Departure: JWE(with_digest=True) is silently the same as without, so only the class JWE_RSA offers this.", "quantifier": "every message, key pair, content encryption, random values, sentinel", "why_tests_cant": "Tests use with_digest nowhere; the claims are about all keys and sentinels.", "anchors": ["src/jwkest/jwe.py:JWE_RSA.encrypt", "src/jwkest/jwe.py:JWE_RSA.decrypt", "src/jwkest/jwe.py:RSAEncrypter.encrypt", "src/jwkest/jwe.py:RSAEncrypter.decrypt"]}
{"id": "C145", "title": "The class JWE_EC used by itself: dec_setup, then decrypt", "statement": "What JWE.encrypt makes for a public point is opened by a JWE_EC object with the private number: dec_setup(token, key), then decrypt(token), whatever was called on the object before. In general, after any sequence of calls, decrypt(token) uses the content key of the last dec_setup that returned, and enc, iv, ciphertext and tag of the last dec_setup at all; it returns m exactly if that tag belongs to the header segment of the token, that iv and that ciphertext under that key and m is the content. Before any dec_setup has returned it raises AttributeError, and after one that returned an empty key (which a second segment of eight bytes A6 brings about without knowledge of any key) an exception. Departures: of the token handed to decrypt only the header segment counts, so a token with another ciphertext and the same header gives the message of the earlier one; a dec_setup that raises leaves the earlier content key in force, so a token without an ephemeral key, which dec_setup refuses, is opened by decrypt for whoever knows the earlier content key.", "quantifier": "every sequence of calls on the object, message, curve, key pair, algorithm, random values", "why_tests_cant": "Tests make one call of each on a fresh object; the claims are about all histories of an object.", "anchors": ["src/jwkest/jwe.py:JWE_EC.dec_setup", "src/jwkest/jwe.py:JWE_EC.decrypt"]}
{"id": "C146", "title": "Encrypting with the class JWE_EC itself", "statement": "enc_setup(msg, auth_data, key=k, **kw) on a JWE_EC object, followed by encrypt with the cek, iv, params and encrypted_key that it returned, makes a token that JWE.decrypt and a JWE_EC object (dec_setup, decrypt) open to msg with the private number, on every curve, with generated or supplied ephemeral key, content key, iv and party data; both steps do succeed. The message is the one handed to enc_setup, not the one of the constructor. Departures: encrypt accepts calls that leave something out and makes tokens nobody can open: without encrypted_key the token has four segments and dec_setup raises IndexError for every key; without params the header has no epk and dec_setup raises for every key; without iv the third segment is empty, since the random iv used is dropped, and with a CBC content encryption decrypt never returns.", "quantifier": "every message, key pair, curve, algorithm, keyword arguments, random values, history of the decrypting object", "why_tests_cant": "Tests hand over everything on one curve; the claims are about all arguments.", "anchors": ["src/jwkest/jwe.py:JWE_EC.enc_setup", "src/jwkest/jwe.py:JWE_EC.encrypt"]}
{"id": "C75", "title": "A token without alg poisons the object", "statement": "Giving a JWS object a three-part token whose header has no alg, with no expected algorithm, raises, but afterwards the object accepts no signed token ever again, whatever sequence of calls follows.", "quantifier": "every object, token without alg, and later sequence of calls", "why_tests_cant": "History property over unbounded call sequences.", "anchors": ["src/jwkest/jws.py:JWS.verify_compact_verbose"]}
