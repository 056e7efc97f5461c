#!/usr/bin/env python3
"""Writes properties.jsonl.  One tuple per property:
(id, title, statement, quantifier, why_tests_cant, anchors)"""
import json
I="src/jwkest/__init__.py"; T="src/jwkest/jwt.py"; S="src/jwkest/jws.py"; K="src/jwkest/jwk.py"; W="src/jwkest/jwe.py"
G="src/jwkest/aes_gcm.py"; A="src/jwkest/aes_key_wrap.py"; X="src/jwkest/extra.py"; E="src/jwkest/ecc.py"; L="src/jwkest/elliptic.py"; C="src/jwkest/curves.py"; B="src/jwkest/PBKDF2.py"
P=[]
def p(i,t,s,q,w,*a): P.append(dict(id=i,title=t,statement=s,quantifier=q,why_tests_cant=w,anchors=list(a)))
# ---------------------------------------------------------------- encodings
p("C01","Base64url round trip","Decoding with b64d what b64e produced gives back exactly the original bytes; no byte string makes either call raise.","every byte string of every length","Byte strings are unbounded; the three residues mod 3 interact with padding stripping and re-adding.",I+":b64e",I+":b64d",I+":add_padding")
p("C02","Base64url output is the RFC 4648 unpadded encoding","b64e output contains only A-Z a-z 0-9 - _, never '=', has length ceil(4n/3), spells the input bits six at a time (zero filled), and different inputs give different outputs.","every byte string","Needs every length and content; a spec-level bit equality cannot be sampled.",I+":b64e")
p("C03","b64d accepts base64url text and nothing else","b64d returns only if its argument is base64url alphabet characters followed by '=' characters; everything else raises. (The code violates this for text followed by a newline and '='; the exact accept set is proved instead.)","every byte string","The accept set is infinite and depends on regex '$' and lenient binascii behaviour.",I+":b64d",I+":_b64_re",I+":add_padding")
p("C04","Unpadded base64url text is determined by its bytes up to unused bits","If two unpadded strings are accepted by b64d and decode to the same bytes they have the same length and agree on every character except possibly the last, and they are equal when the decoded length is a multiple of 3; otherwise a second spelling always exists, so token text is not a unique name of its content.","every pair of byte strings","Quantifies over pairs of unbounded strings.",I+":b64d")
p("C05","Integer JWK parameter round trip","For every positive integer n, long_to_base64(n) succeeds, has no leading zero byte and base64_to_long of it is n; for n = 0 long_to_base64 raises, and for negative n it never returns.","every integer","All integers; the negative case is a non-termination claim no test can observe.",I+":long_to_base64",I+":base64_to_long",I+":long2intarr",I+":intarr2long")
p("C06","Byte-array/integer helpers are exact inverses","intarr2long(long2intarr(n)) = n for n>0; long2intarr(intarr2long(a)) is a without its leading zeros for every nonempty byte array; intarr2bin(a) is exactly the bytes a; long2hexseq(n) returns the big-endian bytes exactly when n has an even number of hex digits and raises otherwise.","every integer and byte array","Unbounded integers; parity of hex digits.",I+":intarr2long",I+":long2intarr",I+":intarr2bin",I+":long2hexseq")
p("C07","Constant-time comparison decides equality","constant_time_compare and safe_str_cmp return True exactly when their arguments are equal.","every pair of byte strings / strings","A wrong accumulation (e.g. & or ^ instead of |) errs on a vanishing fraction of inputs.",I+":constant_time_compare",I+":safe_str_cmp")
# ---------------------------------------------------------------- JWT
p("C08","JWT pack/unpack round trip","Unpacking a packed token yields the same header object and byte-for-byte the same parts, for any header and any nonempty list of parts.","every JSON-representable header and every list of byte-string or text parts","Unbounded headers and part lists.",T+":JWT.pack",T+":JWT.unpack",T+":b64encode_item")
p("C09","Token segmentation is exact","unpack raises BadSyntax on text without a dot; otherwise it yields exactly one part per dot-separated segment, joining the segments gives back the token, and it returns only if every segment is individually decodable by b64d and the first is JSON.","every byte string","All token texts, including hostile ones.",T+":split_token",T+":JWT.unpack")
p("C10","Payload interpretation","payload() returns the parsed JSON value when part 1 is JSON text and cty is absent or 'jwt' in any case, and otherwise the text; it never raises for string or absent cty. Bytes that are not UTF-8 are returned raw unless json.loads itself can decode them (UTF-16/32); a cty that is not a string raises AttributeError.","every decoded token","All payloads and cty spellings.",T+":JWT.payload",I+":as_unicode")
# ---------------------------------------------------------------- JWS
p("C11","Sign/verify round trip","For HS/RS/PS/ES 256/384/512, whatever sign_compact with a non-empty key list returns is accepted by verify_compact on a fresh JWS with the same list (with or without naming the algorithm) and gives the signed message's payload interpretation: a JSON object or list comes back unchanged. Provisos: private and public half of the signing key belong together; a kid among the protected headers is not left standing for a key without kid; no other suitable key makes the verifier raise anything but BadSignature or IndexError; cty is absent or text.","every message, algorithm, and key list","Messages, key sets and kid/use/alg tags are unbounded.",S+":JWS.sign_compact",S+":JWS.verify_compact",S+":JWS.verify_compact_verbose")
p("C12","Unsigned tokens are never accepted unless allowed","With allow_none false, verify_compact raises SignerAlgError for every three-part token whose header alg is null or any letter-case of 'none'; with allow_none true it returns the payload without any key; and nothing is ever accepted without a key except in that case.","every token, key list, expected algorithm and object state","All spellings and all object states.",S+":JWS.verify_compact_verbose")
p("C13","Verification soundness","If verify_compact_verbose returns a key, the token has exactly three segments, the header names a supported algorithm, the key is one of the caller's keys (or, when none are given, the key set in the constructor), it passed the key-type/kid/alg filter, and the algorithm's verifier accepted exactly (segment0 '.' segment1) as sent with the decoded third segment under that key.","every token text, key list, and object state","A forged token is an adversarial input; acceptance must be impossible, not just untested.",S+":JWS.verify_compact_verbose",S+":JWx.pick_keys")
p("C14","No algorithm confusion","A key whose type is not symmetric is never used as an HMAC key, and a symmetric key is never used for RS/PS/ES verification, whatever the token header says.","every token, header alg and key list","Attack needs all headers x all key sets.",S+":JWx.pick_keys",S+":alg2keytype",S+":SIGNER_ALGS")
p("C15","Expected-algorithm pinning","If the caller passes sigalg (or constructed the object with alg), verify_compact returns a verified message only for tokens whose header alg equals it; the single exception is alg none with allow_none.","every token, sigalg, constructor alg","All combinations of states and headers.",S+":JWS.verify_compact_verbose")
p("C16","Algorithm pinning across a history of calls","Once a JWS object has algorithm A, set in the constructor or by an accepted token, then after any sequence of verify_compact calls, successful or not, no later call on that object accepts a key-verified token with another algorithm.","every finite sequence of verify calls with arbitrary tokens and keys","History property over unbounded call sequences.",S+":JWS.verify_compact_verbose")
p("C17","HMAC token integrity","If two tokens are accepted under the same HS algorithm and same secret with the same signature bytes but differ anywhere in the first two segments, the HMAC has a collision; in particular acceptance means the signature equals HMAC(secret, segments as sent).","every pair of token texts","Adversarial modifications are unbounded.",S+":HMACSigner.verify",S+":JWS.verify_compact_verbose",S+":JWSig.sign_input")
p("C18","Tokens without alg never verify","A token whose header has no alg member, or an empty one, is never accepted, whatever the keys and allow_none; every accepted token has exactly three segments, an object as header, and a supported alg (or a spelling of none with allow_none).","every token and key list","All tokens.",S+":JWS.verify_compact_verbose",S+":alg2keytype")
p("C19","Key selection is exactly the documented filter","pick_keys returns the subsequence, in order, of the given keys whose type matches the algorithm family (upper or lower case), whose kid equals the requested kid if there is one, whose use is empty or equal, and whose alg is empty or equal; for alg none or unknown families it is empty.","every key list, kid, use, alg","Unbounded lists; order preservation.",S+":JWx.pick_keys",S+":alg2keytype")
p("C20","Verification tries every suitable key","If no suitable key makes the verifier raise anything but BadSignature or IndexError, verify_compact accepts iff some suitable key verifies, the key reported is the first such, and acceptance does not depend on the order of the keys. (Without that proviso order does matter: a key without material before the right one prevents acceptance.)","every key list and permutation","Permutations of unbounded lists.",S+":JWS.verify_compact_verbose")
p("C21","sign_compact never silently drops the signature","The token sign_compact returns is unsigned exactly when the algorithm determined (the object's, else that of the only key given, else none) is none; otherwise it is signed by the first suitable key. With a supported algorithm set on the object the signature is never dropped. (But JWS(msg).sign_compact(keys) with two or more keys, whatever algorithms they carry, silently returns an unsigned token.)","every object state and key list","Needs every combination of constructor state and keys.",S+":JWx._pick_alg",S+":JWS.alg_keys",S+":JWS.sign_compact")
p("C22","Signed header names the algorithm and key used","A signed token's header has alg equal to the algorithm used and, when the key has a kid, that kid, and otherwise exactly the protected headers given plus typ.","every protected header dict and key","All header dicts.",S+":JWS.alg_keys",S+":JWS.sign_compact")
p("C23","JSON serialization: every signature must verify","verify_json returns m exactly when the text is a JSON object with a payload, each listed signature (or the flattened one) individually verifies over the same payload segment with protected headers overriding unprotected ones, and m is the claim they agree on; the state of the object does not matter. A token with an empty signature list is accepted with result None whatever the payload and keys (the expectation of at least one signature is violated).","every JSON JWS with any number of signatures","Any number of signatures.",S+":JWS.verify_json")
p("C24","JSON serialization round trip","verify_json(sign_json(msg)) with the same keys gives the payload interpretation of a text message, in general and flattened form, for any nonempty list of header pairs; with an empty list of headers nothing is signed and None comes back.","every message, header list, key list","Unbounded.",S+":JWS.sign_json",S+":JWS.verify_json")
p("C25","Only caller-trusted keys verify","On an object created without a key, verify_compact accepts a token only under a key supplied by the caller, after any sequence of earlier verifications; verify_json called with keys likewise. verify_json called without keys trusts a key embedded in the token's own header: for every payload and every secret there is an accepted token.","every token","Attacker-chosen tokens.",S+":JWx._get_keys",S+":JWS.verify_json",S+":JWx.__init__")
p("C26","Critical headers are honoured","The code does not honour crit: a correctly keyed token is accepted whatever its crit header says, and a crit argument given to the constructor is never stored but replaces x5c.","every token and header","All headers.",S+":JWx.__init__",S+":JWS.verify_compact_verbose")
p("C27","Token kind classification","is_jws answers True for compact text exactly when it unpacks and its header alg is a supported signing algorithm (or null); for JSON objects exactly when payload and signatures/signature are present. is_jwe of an unpacked token whose header is an object is True exactly when typ is JWE in any letter case or alg and enc are both supported; a typ that is no text raises AttributeError. jwe.factory gives an object holding the token exactly when is_jwe is True, None when it is False.","every token text","All texts.",S+":JWS.is_jws",S+":JWS._is_compact_jws",S+":JWS._is_json_serialized_jws",W+":JWEnc.is_jwe",W+":factory")
# ---------------------------------------------------------------- JWK
p("C28","JWK serialization round trip","Serializing an RSA, EC or symmetric key (with private parts) and constructing a key from the resulting dictionary gives a key with the same integers/bytes, kid, use, alg and type. For EC this holds of ECKey(**dict); loading the same dictionary with keyrep (as KEYS does) gives back point and labels but leaves the private part d and the curve name as bytes.","every key with positive integer parameters and text labels / every non-empty secret","All integers and byte strings.",K+":RSAKey.serialize",K+":RSAKey.deserialize",K+":ECKey.serialize",K+":ECKey.deserialize",K+":SYMKey.serialize")
p("C29","Public serialization reveals nothing private","serialize() of RSA and EC keys does not depend on the private parameters and has no private member; dump_jwks likewise. (SYMKey.serialize always contains the secret, whatever private says.)","every key","Non-interference: quantifies over pairs of keys.",K+":RSAKey.serialize",K+":ECKey.serialize",K+":SYMKey.serialize",K+":KEYS.dump_jwks")
p("C30","make_public_copy removes private parts","The copy of an RSA or EC key carries no private parameter and no key instance and has the same public members; so it cannot sign with any algorithm, but it cannot be serialized either; for a symmetric key it still carries the encoded secret k, from which every derived key is obtained.","every key","All keys.",K+":make_public_copy",K+":Key.public_members")
p("C31","Thumbprint depends exactly on the required members","Two RSA (or symmetric) keys have the same thumbprint input iff they have the same required members, and kid/use/alg/private parts never influence it; it is the RFC 7638 canonical JSON for RSA and oct, while the EC input lacks kty and so is not.","every pair of keys","Injectivity over all key pairs.",K+":Key.thumbprint",K+":ECKey.required")
p("C32","Key equality and hashing","a == b iff same class and all public members agree (two agreeing plain keys raise AttributeError); hashing a key without kid gives it a kid and so changes what it equals; after that, and in every sequence of hash calls, the hash stays; equal RSA keys have equal hashes; two symmetric keys built from different raw secrets compare equal although their thumbprint inputs differ.","every pair of keys and every sequence of hash/eq calls","State change by observation; all histories.",K+":Key.__eq__",K+":Key.__hash__",K+":Key.add_kid",K+":Key.get_hash")
p("C33","Key container is a faithful ordered collection","After any sequence of append/add/load operations, iteration gives the keys in insertion order, len counts them, by_kid / [kty] / kids / key_types are exactly the corresponding filters (key_types raises TypeError if some kty is a list or a dictionary), and as_dict partitions the keys.","every sequence of operations","All operation histories.",K+":KEYS")
p("C34","Private EC keys loaded from JWK dictionaries","keyrep of an EC JWK with text d decodes d exactly when both coordinates are given as integers (or as lists of byte values, which bytes() takes); with the textual coordinates of RFC 7518 d stays undecoded bytes, and every ECDSA signer fails with OverflowError on the loaded key.","every EC JWK dictionary","All dictionaries.",K+":keyrep",K+":ECKey.deserialize",K+":Key.verify")
# ---------------------------------------------------------------- AES key wrap, CBC-HMAC, KDF, GCM
p("C35","AES key wrap round trip","aes_unwrap_key(kek, aes_wrap_key(kek, k)) = k for every k whose length is a multiple of 8; other lengths are silently truncated to a multiple of 8.","every kek, every plaintext of every length","6n interleaved rounds for every n.",A+":aes_wrap_key",A+":aes_unwrap_key",A+":aes_unwrap_key_and_iv")
p("C36","AES key unwrap accepts only genuine wraps","If aes_unwrap_key(kek, w) returns k then wrapping k under kek gives exactly w up to at most 7 trailing ignored bytes; a mismatch raises.","every kek and every byte string w","Adversarial ciphertexts.",A+":aes_unwrap_key")
p("C37","AES key wrap is RFC 3394","The wrap output has length len+8 and equals the RFC 3394 index-based definition.","every key and plaintext","All n.",A+":aes_wrap_key")
p("C38","PKCS#5 padding","Trimming a padded string gives the original; padded length is the next multiple of 16; trim never returns more than it was given, and raises on a last byte above 16.","every byte string","All lengths.",X+":pkcs5pad",X+":pkcs5trim")
p("C39","AES-CBC-HMAC round trip","aes_cbc_hmac_decrypt of aes_cbc_hmac_encrypt output with the same key, iv and aad returns the plaintext for 32/48/64 byte keys and 16 byte iv; any other key or iv length raises.","every key, iv, aad and plaintext","Unbounded data.",X+":aes_cbc_hmac_encrypt",X+":aes_cbc_hmac_decrypt",X+":get_keys_seclen_dgst")
p("C40","AES-CBC-HMAC authenticates aad, iv and ciphertext","If decryption returns, the tag equals the truncated MAC of an input that determines (aad, iv, ct) uniquely; hence any accepted modification of aad, iv or ct under the same tag is a MAC collision, and nothing is decrypted before the tag matches.","every pair of (aad, iv, ct)","Adversarial modifications; needs injectivity of the MAC encoding.",X+":aes_cbc_hmac_decrypt")
p("C41","Concat KDF","concat_sha256 returns exactly ceil(dk_len/8) bytes, being the prefix of hash blocks over counters 1,2,3,...; longer requests extend shorter ones when block count permits.","every secret, length and other_info","All lengths.",X+":concat_sha256")
p("C42","ECDH-ES key derivation separates its inputs","Different (algorithm name, apu, apv, length) tuples feed different strings to the KDF, for the algorithm names the library uses, and both parties derive the same key.","every apu, apv, and supported algorithm","Injectivity over unbounded strings.",X+":ecdh_derive_key",W+":JWE_EC.enc_setup",W+":JWE_EC.dec_setup")
p("C43","GCM field multiplication","gf_2_128_mul is multiplication in GF(2)[x]/(x^128+x^7+x^2+x+1) with the GCM bit order; it is commutative, distributes over xor, and its result is below 2^128; the 8-bit table lookup equals it for every value.","all pairs of 128-bit values","2^256 pairs.",G+":gf_2_128_mul",G+":AES_GCM.__times_auth_key",G+":AES_GCM.change_key")
p("C44","AES-GCM conforms to the standard and round-trips","On an object with AES key K in any state, encrypt with an iv below 2^96 other than the last one used returns the plaintext xor the counter-mode key stream (same length) and the GHASH tag of NIST SP 800-38D; decrypt on any object with the same key returns the plaintext. Plaintexts of more than 2^32 blocks raise OverflowError.","every key, object history, iv, plaintext up to 2^32 blocks, aad","Unbounded data.",G+":AES_GCM.encrypt",G+":AES_GCM.decrypt")
p("C45","AES-GCM rejects unless the tag matches; iv reuse check","decrypt returns exactly if the given tag is the one GHASH tag of this iv, aad and ciphertext; a tag with any bits flipped is rejected; an iv of 2^96 or more and a tag of 2^128 or more are rejected. After any history the object remembers the last iv below 2^96, and encrypt refuses exactly this one: reusing an iv after another one was used is NOT detected, and then the ciphertexts reveal the xor of the plaintexts.","every iv, ciphertext, tag, aad, and every call history","Adversarial; histories.",G+":AES_GCM.decrypt",G+":AES_GCM.encrypt")
p("C46","GHASH input encoding is unambiguous","Distinct (aad, ciphertext) pairs (below 2^61 bytes each) give distinct sequences of GHASH blocks.","every pair of (aad, ct)","Injectivity over unbounded strings.",G+":AES_GCM.__ghash")
p("C47","Which AES key GCM really uses","AES_GCM(bytes_to_long(key)), as the JWE code calls it, accepts exactly the keys denoting a number below 2^256 (of any length). The AES key is the given key exactly if it has 16 bytes, or 32 bytes and a non-zero byte among the first 16. A 24-byte key (A192GCM) is never used as such: it is extended with 8 zero bytes to an AES-256 key, or shortened to 16 bytes if the first 8 are zero.","every key","All keys.",G+":AES_GCM.change_key",W+":JWe.enc_setup")
# ---------------------------------------------------------------- EC
p("C48","Modular inverse","inv(a, n) is the inverse of a modulo n, in [0, n) up to one addition of n, whenever a and n are coprime; euclid returns Bezout coefficients and the gcd.","every pair of integers","All integers.",L+":euclid",L+":inv")
p("C49","Affine and Jacobian point arithmetic is the elliptic-curve group law","add, addf, doublef and neg compute the group operation of the curve y^2 = x^3 - p x - q over the prime field for all points on the curve (no 2-torsion for the raw doubling).","every prime modulus, curve and pair of points","All points on all curves.",L+":add",L+":addf",L+":doublef",L+":neg",L+":from_projective")
p("C50","Signed binary expansion","_signed_bin(n) has digits in {-1,0,1}, evaluates to n, terminates for every n>=0 and has length at most bitlength+1.","every natural number","All integers.",L+":_signed_bin",L+":_gbd")
p("C51","Scalar multiplication","mulp(P,c) is c times P and muladdp(P,c1,Q,c2) is c1 P + c2 Q in the group; mul and mulp agree.","every scalar and every pair of points","256 to 521-bit scalars.",L+":mul",L+":mulf",L+":mulp",L+":muladdf",L+":muladdp")
p("C52","ECDSA sign/verify round trip on P-256, P-384, P-521","If sign returns, verify accepts the signature for the matching public key, for every hash value, private key in 1..N-1 and nonce; signature length is fixed.","every hash integer, private key, nonce","2^256 keys x nonces x hashes.",E+":NISTEllipticCurve.sign",E+":NISTEllipticCurve.verify",C+":DOMAINS")
p("C53","ECDSA verification rejects out-of-range and equals the ECDSA equation","verify returns True only if 0<r<N, 0<s<N and the x coordinate of (h/s)G+(r/s)Q equals r modulo N; otherwise False (or an error at the neutral element).","every hash, signature byte string, public key on the curve","Adversarial signatures.",E+":NISTEllipticCurve.verify")
p("C54","ECDH agreement","dh_z(a, B) = dh_z(b, A) for key pairs (a,A), (b,B) of the same curve, and the secret is the first coordinate of the common point as a big-endian number of the curve's fixed length.","every pair of private keys","2^512 key pairs.",E+":NISTEllipticCurve.dh_z",E+":NISTEllipticCurve.key_pair")
p("C55","Curve domain parameters are sound","For P-256/384/521 the field modulus and the group order are prime, the base point is on the curve and has exactly the stated order, and the curve has no 2-torsion.","the three shipped curves (each claim is a statement about all multiples / all field elements)","Primality and order are universal statements over the field.",C+":DOMAINS",E+":NISTEllipticCurve.by_name")
p("C56","Generated private keys are in range","key_pair's private scalar is in 1..N-1 whatever the random bits, and the public key is on the curve.","every random draw","All random values.",E+":NISTEllipticCurve.key_pair")
# ---------------------------------------------------------------- JWE
p("C57","JWE round trip (symmetric key wrap)","Decrypting with the same shared key what JWE_SYM.encrypt produced returns the message bytes, for A128KW/A192KW/A256KW and all six enc algorithms.","every message, key, cek, iv, header","Unbounded.",W+":JWE_SYM.encrypt",W+":JWE_SYM.decrypt")
p("C58","JWE round trip (RSA)","The same for RSA1_5, RSA-OAEP, RSA-OAEP-256, with and without DEF compression and with a caller-supplied cek.","every message, key, cek, iv","Unbounded.",W+":JWE_RSA.encrypt",W+":JWE_RSA.decrypt",W+":RSAEncrypter")
p("C59","JWE round trip (ECDH-ES)","The same for ECDH-ES and ECDH-ES+A128KW/A192KW/A256KW between any two key pairs of a curve.","every message and pair of key pairs","Unbounded.",W+":JWE_EC.enc_setup",W+":JWE_EC.dec_setup",W+":JWE_EC.encrypt",W+":JWE_EC.decrypt")
p("C60","JWE protects its header","If decryption of a token succeeds, the content tag was checked, under a content key obtained from one of the candidate keys (or the supplied one), over exactly the header segment as sent, the iv and the ciphertext. Two accepted tokens with the same content key and tag either agree in header segment, iv and ciphertext (GCM ivs and tags compared as numbers) or exhibit a MAC/GHASH collision; and the tag is determined by the rest.","every pair of tokens","Adversarial modifications.",W+":JWe._decrypt",W+":JWE_RSA.decrypt",W+":JWE_SYM.decrypt",W+":JWE_EC.decrypt")
p("C61","JWE algorithm gate","If decrypt succeeds then the header enc is one of the six supported values, the header alg equals the one the caller expects when given, and alg is one of the supported names - or, a defect, any other name of the form A...KW: with a supplied content key every such name is accepted. A header alg other than the expected one raises WrongEncryptionAlgorithm whatever keys are given.","every token, expected alg and keys","All headers.",W+":JWE.decrypt",W+":JWe._decrypt",W+":JWE_RSA.decrypt")
p("C62","Which of several keys JWE.decrypt tries","Except for RSA1_5 only the first key that fits by type, kid, use and alg is tried: decrypting with a key list succeeds exactly if decrypting with that key alone does. A first key that cannot unwrap the encrypted key ends the call with that error whatever keys follow. For RSA1_5 keys are tried as long as the padding is wrong. (A user would expect any fitting key to be found.)","every key list","All key lists.",W+":JWE.decrypt")
p("C63","Number of segments of a JWE token","An accepted token has at least five segments, exactly five with AES key wrap; with RSA and Diffie-Hellman algorithms a further segment that decodes as base64url never changes the outcome (a defect: such tokens should be rejected).","every token","All tokens.",W+":JWE_SYM.decrypt",W+":JWE_RSA.decrypt",W+":JWE_EC.decrypt")
p("C64","Generated content keys and ivs have the right sizes","For the six supported enc values _generate_key_and_iv keeps supplied values and draws missing ones with the key and iv length of the algorithm. For any other value it raises, except when both are supplied, which are then returned unchecked.","every enc, supplied cek/iv, random source","All combinations.",W+":JWe._generate_key_and_iv")
p("C65","Encrypting to a public EC key","JWE.encrypt with a Diffie-Hellman algorithm never returns when the selected EC key object has no private part, although the private part is not used: if encryption with some private part returns, then without it the call raises ValueError. (A defect: encryption should need the public key only.)","every EC public key, message","All keys.",W+":JWE.encrypt",K+":ECKey.get_key")
p("C66","left_hash","left_hash returns the unpadded base64url text of the left half of the digest: 22, 32 or 43 characters, and None for other function names.","every message","All messages.",S+":left_hash")
p("C67","PBKDF2 is unusable on Python 3","Constructing PBKDF2 raises TypeError for every passphrase, salt and iteration count. crypt never returns: it raises UnicodeEncodeError for a salt text with a non-ASCII character and TypeError for every other argument. (A defect.)","every argument","All arguments.",B+":PBKDF2._setup",B+":crypt")
p("C68","Symmetric encryption-key derivation","encryption_key(alg) is the leading 16/24/32/48/64 bytes of the SHA-2 digest of the secret selected by the length table and raises KeyError for any other alg name; a secret assigned as text counts as its UTF-8 octets, any other type raises TypeError, and without a secret and without k nothing is derived.","every secret and alg","All secrets.",K+":SYMKey.encryption_key",K+":ALG2KEYLEN")
# ---------------------------------------------------------------- EC, what is not checked
p("C69","Peer public keys are not validated","dh_z and mulp never use the curve parameter b: a peer point that is not on the curve is multiplied on whatever curve it does lie on. For a suitable pair off P-256, dh_z reveals the private key modulo 3: it raises exactly when 3 divides the key and otherwise returns one fixed string.","every private key; every pair of coordinates","2^256 keys.",E+":NISTEllipticCurve.dh_z",L+":mulp",L+":doublef",L+":addf")
p("C70","Hash shortening","sign and verify use the longest prefix of the binary digits of the hash integer whose value does not exceed N. A hash not above N is used unchanged (on P-521 every 512-bit digest). A hash above N is treated exactly like its half, so on P-256 two different 256-bit hashes have the same signatures.","every hash integer, signature and key","All hash values; the affected ones are 2^-32 of them.",E+":NISTEllipticCurve.sign",E+":NISTEllipticCurve.verify")
p("C71","ECDSA signatures are malleable","From every accepted signature another accepted one is made without the private key by replacing s by N-s, and inserting any number of zero bytes before s changes nothing.","every hash, key and accepted signature","Adversarial signatures.",E+":NISTEllipticCurve.verify")
p("C72","When sign returns","sign raises TypeError iff N divides the nonce; it never returns iff the nonce gives r = 0 or s = 0 (the nonce is not redrawn), and it returns a signature in all other cases. There is an input on P-256 for which it never returns.","every hash, private key and nonce","Non-termination over all inputs.",E+":NISTEllipticCurve.sign",E+":NISTEllipticCurve._sign_loop")
p("C73","Point compression","compress determines a point of the curve with reduced coordinates, but uncompress never recovers it: its y is always None.","every point of every sound curve","All points.",E+":NISTEllipticCurve.compress",E+":NISTEllipticCurve.uncompress",L+":y_from_x")
p("C74","GHASH is a field hash with few bad keys","The field polynomial is irreducible, so every non-zero value has an inverse under gf_2_128_mul; for any two different (aad, ciphertext) pairs and any wanted difference of their GHASH values, the number of the 2^128 authentication keys giving that difference is at most the number of blocks of the longer pair.","all pairs of (aad, ciphertext) below 2^61 bytes, all differences","Counts over 2^128 keys.",G+":gf_2_128_mul",G+":AES_GCM.__ghash")
# ---------------------------------------------------------------- JWS, defects found
p("C76","Keyword arguments without alg mean alg none","A JWS constructed with any keyword argument but no alg has algorithm none: it refuses every signed token whatever keys it is given (also JWS(msg, jwk=key)), and what it signs is unsigned.","every keyword set without alg, token, key list","All constructor arguments and tokens.",S+":JWx.__init__",S+":JWS.verify_compact_verbose",S+":JWS.sign_compact")
p("C77","A JWK with kty 'ec' in lower case accepts forged signatures","Loading a JWK whose kty is spelled ec succeeds whatever its other members and gives a key without material, which ECDSA verification treats as the point at infinity: for every header and payload a signature computable from public data alone is accepted under ES256, ES384 and ES512 (unless the shortened digest is 0 or the group order).","every JWK dictionary with kty ec, every header and payload","Adversarial tokens for all messages.",K+":keyrep",S+":DSASigner.verify",E+":NISTEllipticCurve.verify",L+":to_projective")
# ---------------------------------------------------------------- JWE, defects found
p("C78","A token that every shared key decrypts","For every message there is a token, made without any key, that JWE.decrypt with any shared key and A128KW/A192KW/A256KW and a GCM enc decrypts to this message: the encrypted key A6A6A6A6A6A6A6A6 unwraps to an empty content key, which AES-GCM takes for the zero key.","every message, object, shared key and randomness","Universal forgery; needs all keys.",W+":JWE_SYM.decrypt",A+":aes_unwrap_key",G+":AES_GCM.change_key")
p("C79","JWE tokens are malleable","Adding zero bytes in front of the iv and the tag of a GCM token, or up to seven bytes to the end of the encrypted key of a key-wrap token, changes nothing: every decrypt call has the same outcome and leaves the same state.","every token, object, key list, expected alg and cek","Adversarial tokens.",W+":JWe._decrypt",A+":aes_unwrap_key_and_iv",T+":JWT.unpack")
# ---------------------------------------------------------------- keys, loading and sets
p("C80","Keys from certificates","RSAKey(x5c=..., x5t=...) without modulus gives a key exactly when the first certificate decodes, holds an RSA key and, if a thumbprint is given, the thumbprint is the SHA-1 of the certificate; the key then has the certificate's numbers, and a differing thumbprint raises DeSerializationNotPossible. The other certificates of the chain have no influence; with n and e given neither x5c nor x5t is checked; and through keyrep a certificate with a thumbprint never loads (AttributeError), right or wrong.","every keyword set, certificate, chain and thumbprint","All certificates and chains; the last three parts are defects no happy-path test meets.",K+":RSAKey.deserialize",K+":keyrep",K+":der2rsa")
p("C81","key_from_jwk_dict","key_from_jwk_dict reads exactly kid and the numbers of the type (private ones only if private=True): a missing one raises KeyError, another type UnknownAlgorithm, no other member (use, alg, certificates) has any influence; the dictionary a key serializes to gives back its numbers, its type and its kid, with use and alg empty.","every dictionary, every key with kid","Every key and every set of members.",K+":key_from_jwk_dict")
p("C82","to_dict","to_dict is the private serialization with the unknown members added; for a key made by keyrep these are the members that are not parameters of its class, and never displace a serialized one; a text member among them is bytes there, so that the dictionary is not JSON. A plain Key has no dictionary form.","every key and JWK dictionary","All member names and classes.",K+":Key.to_dict",K+":keyrep")
p("C83","jwk_wrap","jwk_wrap gives for a PyCryptodome key an RSAKey with its numbers, for text a SYMKey with its UTF-8 encoding as secret, for a curve an ECKey with a key pair of that curve, with the given use and kid; anything else, also bytes, raises.","every key object, text, curve, use and kid","Every curve point and number.",K+":jwk_wrap",K+":RSAKey.load_key",K+":ECKey.load_key",K+":RSAKey._split")
p("C84","Key sets survive dump and load","load_jwks(dump_jwks()) adds, in order, one key per key of the set with the same type, kid, use and alg: of RSA and EC keys the public half, of symmetric keys the secret itself (a key set to be published must not hold one).","every list of exportable keys, every set loaded into","Induction over key sets of any size.",K+":KEYS.dump_jwks",K+":KEYS.load_jwks",K+":KEYS.load_dict")
# ---------------------------------------------------------------- JWS, object state
p("C85","A JWS object after verification","A successful verification leaves on the object the message, the verifying key, the token and its algorithm, and nothing else changes; a refused token leaves message, key and every parameter but alg, which on an object without algorithm is fixed to that of the refused token, so that tokens with another algorithm are refused from then on; an accepted unsigned token leaves the key of an earlier token in place; after verify_json the key is that of the last signed entry, or the earlier one.","every object, token, key list, flag","State after arbitrary calls; forged tokens.",S+":JWS.verify_compact_verbose",S+":JWS.verify_json",S+":JWx.__init__")
p("C86","The algorithm sticks to the object","sign_compact, successful or not, fixes the algorithm it determined and changes nothing else of the object; whatever calls follow, later tokens are signed with this algorithm or unsigned and later accepted tokens name it. An object that produced one unsigned token never signs again and refuses every signed token.","every object, key list, and every sequence of sign and verify calls","History property over unbounded call sequences.",S+":JWx._pick_alg",S+":JWS.sign_compact",S+":JWS.verify_compact_verbose")
p("C87","Signing with an object that has verified","After a successful verification sign_compact uses the algorithm of the token and, if the token has a kid and the object none of its own, only a key with that kid: with keys of other kids it fails.","every object, token, and key lists for both calls","All pairs of calls.",S+":JWx.pick_keys",S+":JWS.alg_keys")
p("C88","The dictionary of protected headers is changed","sign_compact fills the caller's non-empty protected dictionary in place: afterwards it is the header of the token, with alg, kid and typ. Reused for a key without kid it gives a token that names the earlier key and that no verifier finds the signing key for.","every object, key, dictionary, and pair of calls","Effect on the caller's data, over all pairs of calls.",S+":JWS.alg_keys",S+":JWS.sign_compact")
p("C89","Header of an encrypted token","The header of a token made by JWE.encrypt has exactly the recognised parameters of the object (those of the RSA tokens without the empty ones), kid from the argument, the picked key or the object in this order, jwk, and for agreement apu, apv and epk; byte strings stand as text; nothing else. Departures: crit is never shown, its value appears as x5c; zip is shown for RSA tokens only; an object holding a key object as jwk can make no key wrap or agreement token.","every object, key list, arguments, random bytes","Universally quantified over parameters and keys; says what is absent.",W+":JWE.encrypt",W+":JWE_SYM.encrypt",W+":JWE_RSA.encrypt",W+":JWE_EC.enc_setup",S+":JWx.__init__")
p("C90","Segments of an encrypted token","The five segments of a token are: the header; the content key wrapped with RFC 3394 under the first bytes of the SHA-256 digest of the secret, or RSA-encrypted with the padding that alg names, or wrapped under the key derived from the Diffie-Hellman secret of the ephemeral key and the recipient's point, or empty; the iv; AES-GCM or AES-CBC-HMAC of the (compressed) message with the header segment as additional data; its tag. The content key is the given one or random of the size of enc. Departures: A192GCM uses a 32-byte AES key and small keys a 16-byte one, the GCM tag loses leading zero bytes, a given cek makes the RSA key segment empty, agreement ignores the cek and iv arguments.","every object, key, message, random bytes, any lawful cipher, hash and RSA","Both directions agree even when both are wrong: round trips cannot see a wrong derivation or padding.",W+":JWe.enc_setup",W+":JWE_SYM.encrypt",W+":JWE_RSA.encrypt",W+":JWE_EC.enc_setup",W+":RSAEncrypter.encrypt",X+":aes_cbc_hmac_encrypt")
p("C91","Key agreement departs from RFC 7518","The hash input from which ECDH-ES derives a key never is the one RFC 7518 prescribes: the length of the algorithm name is missing, and with key wrap the part ECDH-ES+ of the name. So the library and a conforming one derive the same key only if the hash agrees on these two different inputs.","every secret, parties, algorithm, hash","Round trips inside the library always succeed.",X+":ecdh_derive_key",W+":JWE_EC.enc_setup")
p("C92","A JWE object across calls","Whatever encrypt and decrypt calls are made on an object, nothing of it changes but the entry cek, which holds the content key of the last RSA token made or opened. What decrypt returns and what RSA, key wrap and direct agreement tokens are made does not depend on it. Agreement with key wrap uses a stored content key again for the new token (a defect).","every object and every sequence of calls","History property over unbounded call sequences.",W+":JWE.encrypt",W+":JWE.decrypt",W+":JWE_EC.enc_setup")
p("C93","What decrypt returns","The message that decrypt returns is the ciphertext of the token opened with the content key belonging to the token: the xor with the GCM key stream, or the CBC plaintext without as many bytes as its last byte says (everything if that is zero), decompressed exactly for RSA tokens whose header has zip DEF. Opened so, a sealed message gives back what was sealed and nothing else.","every token, object, key list, arguments","Adversarial tokens, not only those made by the library.",W+":JWE.decrypt",W+":JWe._decrypt",W+":JWE_RSA.decrypt",X+":aes_cbc_hmac_decrypt")
p("C94","Key objects made from library objects, loaded and deserialized again","An RSAKey made with key=r and without both n and e has the numbers of r (private ones from r if it has any, otherwise those given). With n and e it keeps the texts unchecked, computes with r and cannot be serialized (a defect). An integer modulus is a TypeError. load_key(r) makes the key compute with r and takes its public numbers, but keeps the private numbers of the old key when r is public (a defect). Deserializing again changes nothing; deserialize leaves a bare Key alone and of a SYMKey sets only key, to the bytes that k encodes. ECKey(key=curve) is a fresh pair on that curve.","every key, library object and arguments","Depends on the combination of arguments and on the previous state of the object.",K+":RSAKey.__init__",K+":RSAKey.load_key",K+":RSAKey._split",K+":RSAKey.deserialize",K+":ECKey.__init__")
p("C95","Thumbprints with given members, get_hash and add_kid","thumbprint(name, members) is the digest named SHA-256, SHA-384 or SHA-512 (any other name is a KeyError) of the JSON object with those of the members the public serialization has, in ascending order; the order given does not matter, the caller's list is sorted in place, private members never enter, and if none is left the digest is that of {} for every key. get_hash stores the digest as the hash of the key, so equal keys can have different hashes (a defect). add_kid replaces the identifier by the thumbprint and is idempotent.","every key, member list and name","The digest input is only defined by a text over all subsets and orders of members.",K+":Key.thumbprint",K+":Key.get_hash",K+":Key.add_kid")
p("C96","Helpers outside the token code","mp2bin(mpint(b)) is b with a zero byte for every b (a defect). party_value raises TypeError for every non-empty value, so _hash_input works only without party values. key_eq raises TypeError for any two RSA keys and says True only for equal texts. keyitems2keyreps makes one key per object, in order, of the class that the type names in any letter case (a bare Key for an unknown type), for an RSA object with its numbers.","every argument","Universally quantified over byte strings and keys.",S+":mpint",S+":mp2bin",W+":party_value",W+":_hash_input",K+":key_eq",K+":keyitems2keyreps")
p("C97","Round trips with the standard algorithms",
 "With AES (FIPS 197), SHA-1/256/384/512 and HMAC (FIPS 180-4, RFC 2104) and RSA with PKCS #1 v1.5, PSS and OAEP padding (RFC 8017) as the cryptographic library, everything that the other properties assume of that library holds: AES is a permutation of blocks under every valid key, digests have their size, the public half of an RSA key accepts what the private key signed, and a private key accepted by RSA.construct decrypts what was encrypted with its public half and raises only ValueError and TypeError. Hence JWS signing and verification, JWE with AES key wrap, JWE with ECDH-ES, and JWE with an RSA key of 1040 bits or more return the message that was put in, without any assumption about the primitives (except, for the \"zip\" parameter, that zlib inverts its own compression).",
 "for all keys, messages, random draws, algorithms and content encryptions",
 "Tests run the library on single keys and messages; that decryption inverts encryption for every RSA key and every padding, and for all 2^128 blocks under every AES key, is a theorem about finite fields, not a sample.",
 W+":RSAEncrypter", W+":JWE.encrypt", S+":RSASigner", S+":PSSSigner", S+":HMACSigner")
p("C98","Publish and verify","A signer's key set, exported with dump_jwks and imported elsewhere with load_jwks, is all a verifier needs: whatever sign_compact (HS/RS/PS/ES) returns with the original set, verify_compact accepts with the imported set, giving the signed message, and the key it reports is the published half of the one that signed. This holds whenever the keys have different non-empty identifiers; for HMAC and RSA with the standard algorithms it holds whatever the identifiers. Conversely the imported set signs nothing with RSA or ECDSA. (Symmetric keys are exported with their secret, so with those the verifier can sign.)","every key set of text-labelled RSA, EC and symmetric keys, message, protected header and randomness","Two parties, an unbounded set of keys of mixed types, and JSON text in between.",K+":KEYS.dump_jwks",K+":KEYS.load_jwks",S+":JWS.sign_compact",S+":JWS.verify_compact_verbose")
p("C99","What can be put into a token","A dictionary, list or None is packed exactly if it consists of None, booleans, integers, text and bytes that are UTF-8, nested to any depth; it is packed to the same bytes as the value with every byte string replaced by its text, and that is what the receiver gets after signing and verifying. Any float, at any depth, in the message or in a protected header parameter, and bytes that are not UTF-8, make packing raise ValueError, so there is no token. (So claims such as a fractional exp cannot be signed as a dictionary.)","every Python value built from these types, every header and key list","Nesting is unbounded; tests use flat dictionaries of text and integers.",T+":b2s_conv",T+":b64encode_item",S+":JWS.sign_compact")
p("C100","Signing succeeds","sign_compact with a supported algorithm and at least one key returns a token whenever the first key that fits (type, use, kid, alg) has what the algorithm needs and message, header and identifiers are JSON values or text/bytes; if no key fits it raises NoSuitableSigningKeys and never falls back to another key or to an unsigned token. Any secret can sign with HMAC, and with the standard algorithms every RSA key that RSA.construct accepts of 1040 bits or more can sign with RS*/PS* and all three hashes; the token is then accepted with the same keys. With ES* and a private number that is no multiple of the group order a token is returned for all but at most eight of the possible nonces, whatever the message; with those signing never returns, because the loop repeats with the same nonce.","every object, key list, protected header, message, randomness, RSA key of 1040 bits or more, EC private number","Whether an encoding fits into the modulus and whether the private operation can fail depends on numbers of unbounded size.",S+":JWS.sign_compact",S+":JWSig",S+":RSASigner.sign",S+":PSSSigner.sign")
p("C101","Nested tokens","A token that is signed and then encrypted (AES key wrap, RSA of 1040 bits or more, or ECDH-ES; any of the six content encryptions) is recovered by decrypting and handing the resulting bytes to verification: the signature is accepted and the claims are those that were signed.","every message, key list, header, randomness; standard algorithms","Composition of two protocols over all messages, keys and random choices.",S+":JWS.sign_compact",W+":JWE.encrypt",W+":JWE.decrypt",S+":JWS.verify_compact_verbose")
p("C102","What jwkutil.py prints","The keys of `jwkutil.py` are, in this order, the RSA key of `-r` (with the kid of the option, or None), the secret of `-k`, the key described by `-j`, the keys of the set `-J` and those of the set found at `-u`; if every source that is given can be read, the tool has its keys. `jwkutil.py -s` without `-a` prints an unsigned token, with a typ exactly if `-t` gives a non-empty one, which `-v` refuses with SignerAlgError whatever the keys. With a secret (`-k`) and HS256/384/512, `-s` prints a token for every message and every non-empty secret, and `-v` with the same secret prints that message (its JSON value if it is JSON). `-s -e` with a secret and AES key wrap prints a nested token from which the library recovers the signed token, but the tool's own `-d` and `-d -v` always end with ValueError on it: `-d` never prints a plaintext, for no token and no key.","every message, secret, algorithm, set of options and state of the random source","Holds for all messages, secrets and random choices; that -d never prints anything is a statement about all runs.","script/jwkutil.py:sign","script/jwkutil.py:verify","script/jwkutil.py:encrypt","script/jwkutil.py:decrypt")
p("C103","jwenc.py and jwdecrypt.py fit together","What `jwenc.py` prints for an RSA public key file (modulus of 1040 bits or more), any of the three RSA algorithms and six content encryptions, and any message, `jwdecrypt.py` with the private key file turns into the message again, whether the token is given on the command line or in a file that ends with newlines. `jwenc.py -X` raises NoSuitableEncryptionKey for every URL and algorithm, because the arguments of load_x509_cert are in the wrong order.","every message, RSA key pair, algorithm pair and state of the random source","All keys, messages and random choices.","script/jwenc.py:64-111","script/jwdecrypt.py:53-78")
p("C104","The library recognises its own tokens","Every compact token made by sign_compact, signed or not, is no JSON text and jws.factory recognises it and gives its header and payload. jwe.factory answers None for it, unless its typ header is \"JWE\" in any letter case, which makes jwe.factory (and peek.py) take it for an encrypted token, or is no text, which makes both raise AttributeError. Every token made by JWE.encrypt with a typ that is text or absent is recognised by jwe.factory, and jws.factory answers None. peek.py prints accordingly.","every token the library can make","Quantifies over all headers, messages, keys and random choices.",S+":factory",W+":factory",S+":JWS._is_compact_jws",W+":JWEnc.is_jwe","script/peek.py:8-18")
p("C105","gen_symkey.py makes usable keys","What gen_symkey.py prints is a key set that `jwkutil.py -J` loads as exactly one symmetric key with the generated secret and the given kid (an absent kid and an empty kid give the same output); tokens signed with it are verified with it.","every non-empty secret, kid, message and HS algorithm","All secrets and labels.","script/gen_symkey.py:25-27",K+":SYMKey.serialize",K+":KEYS.load_jwks")
p("C106","The JSON and the compact form of a signed token mean the same","A JWS in flattened JSON serialization without unprotected header is accepted by verify_json, with message m, exactly when the compact token made of the same three segments is accepted by verify_compact of a fresh object with the same keys, allow_none and sigalg, with message m, and the protected header is plain: it has no member `self` and a member `jwk`, if any, holds a usable key. The settings of the object do not matter to verify_json. With a list of signatures all of them must be acceptable in this way, and the messages combined.","every JSON text, segments, keys, object and message","Equivalence of two code paths over all tokens.",S+":JWS.verify_json",S+":JWS.verify_compact_verbose",S+":JWS._is_json_serialized_jws")
p("C107","Signed tokens are malleable in the signature segment, and how","Whether verify_compact accepts a token depends on the third segment only through its decoded bytes; so an accepted token whose signature is not a multiple of three bytes has an accepted companion with another last character, and ones with any number (two or more) of '=' added. With HMAC there are no others: two accepted tokens with the same first segments and secret have the same signature bytes. With ES* zero bytes may be inserted between r and s, and replacing s by N-s gives another accepted token; both without the private key.","every token, object, key list and outcome","A statement about all pairs of tokens.",S+":JWS.verify_compact_verbose",I+":b64d",E+":NISTEllipticCurve.verify",S+":HMACSigner.verify")
p("C108","Signed tokens are URL safe and their signature segment has a fixed length","What sign_compact returns consists of three segments of base64url characters, without '=', joined by two dots. The third is empty for alg none; otherwise its length is that of the base64url text of n bytes where n is the digest size (HS*), twice the field size of the curve (ES*: 64, 96, 132), or the byte length of the modulus of the signing key (RS*, PS*).","every object, message, key list and signed token","All keys, messages and random values.",S+":JWS.sign_compact",T+":JWT.pack",E+":NISTEllipticCurve.sign")
p("C109","Publish a key set, receive encrypted messages","Writing a key set with dump_jwks and loading the text in another process gives keys with which messages can be encrypted to the publisher: what is encrypted with the loaded keys and RSA1_5, RSA-OAEP or RSA-OAEP-256 is decrypted to the message with the publisher's own key set (private keys are not in the text), likewise with A*KW and shared keys; with the standard algorithms and RSA moduli of at least 1040 bits encrypting does succeed. With ECDH-ES* no message can be encrypted with a published key set, since the code needs the private part of the recipient's key.","every non-empty set of exportable keys, every message, algorithm, object and random choice","All key sets, messages and random values; composition of export, import, encryption and decryption.",K+":KEYS.dump_jwks",K+":KEYS.load_jwks",W+":JWE.encrypt",W+":JWE.decrypt")
p("C110","Encryption succeeds","JWE.encrypt returns a token, it does not raise, whenever the object has a supported alg and enc, the header parameters can be written as JSON, and the first key picked is usable: a shared secret (A*KW, text message), an RSA key that can encrypt the content key (RSA*, with zip absent or DEF), or an EC key with both coordinates and its scalar (ECDH-ES*), for texts and bytes up to the limit of GCM, with given or generated content key and initialization vector of the right length.","every object, message, key list, argument and random choice meeting the conditions","All messages, header parameters and keys.",W+":JWE.encrypt",W+":JWE_SYM.encrypt",W+":JWE_RSA.encrypt",W+":JWE_EC.encrypt",W+":JWEnc.pack")
p("C111","Encrypted tokens made by other implementations","A compact JWE whose parts are computed as RFC 7518 and RFC 3394 say (content encrypted with AES-GCM or AES-CBC-HMAC under a content key of the right length, the header as additional data) decrypts to the message: for RSA* when the encrypted key opens to the content key, for A*KW when the wrapping key is the start of SHA-256 of the secret (so not the secret itself as RFC 7518 says). _decrypt returns a message exactly when the tag is the right one and the message is the decryption. Exception: A192GCM uses AES with a key of another length (leading zeros added, or 8 bytes dropped), so tokens of other implementations do not open, and for the other GCM names the key may not begin with zero bytes beyond the length limit.","every token, key, header and message","Interoperability: the tests only decrypt what the library itself made.",W+":JWEnc",W+":JWe._decrypt",W+":JWE_RSA.decrypt",W+":JWE_SYM.decrypt",G+":AES_GCM")
p("C112","The curve a key names plays no role for ES256, ES384, ES512","Verification does not look at the curve or the private number of an EC key: exchanging them in the keys given changes neither which tokens are accepted nor the message returned. What a key signs is accepted with the key whose point is the private number times the base point of the curve of the algorithm, whatever curve and point the signing key names; so a P-521 key signs with ES256 on P-256.","every key list, token, algorithm, private number and point","All keys and tokens; the mismatch only shows with a key of another curve.",K+":ECKey.get_key",S+":DSASigner",E+":NISTEllipticCurve.sign",S+":JWS.verify_compact_verbose")
p("C113","Header members given twice","When a header names a member more than once, the last one counts, for every white space between the members: json.loads keeps the last value of each name, and a token is verified with the algorithm of its last alg, whatever the earlier ones say (also none).","every list of members, every token with such a header, every key list","All lists of members; RFC 7515 lets a reader either refuse or take the last.",T+":JWT.unpack",S+":JWS.verify_compact_verbose")
p("C114","Which ECDH-ES tokens are opened","A token for ECDH-ES or ECDH-ES with key wrap whose header lacks apu or apv, which RFC 7518 makes optional, is not opened, whatever the keys and arguments. With both, it is opened to the message by the first key picked, if the content is encrypted as RFC 7518 says under the content key: the key derived as in C42 from the private number of the key and the point of epk on the curve of epk, or the one wrapped (RFC 3394) under that derived key; curve and point of the own key play no role.","every token, header, key list, private number, point and message","All headers and keys; the tests only use tokens the library made, which have both members.",W+":JWE_EC.dec_setup",W+":JWE_EC.decrypt",X+":ecdh_derive_key",W+":JWE.decrypt")
p("C115","ECDSA nonces and EC keys come from a predictable generator","The random numbers of ecc.py are Python's random.getrandbits (MT19937), not a cryptographic generator. Whoever has seen 624 consecutive 32-bit outputs of that generator (or 78 numbers of 256 bits: long numbers are made of the same words) computes every number it returns later, whatever was drawn in between. Hence that observer computes the signer's private number, modulo the order of the base point, from one token signed later with ES256, ES384 or ES512; the private number of a key that jwk_wrap makes from a curve; and, knowing the recipient's public point, the content key of an ECDH-ES token with a generated ephemeral key.","every state of the generator, number of draws in between, key list, header, message, curve and recipient","A relation between past outputs and secrets over all 2^19968 states; tests cannot see that a random number is predictable.",E+":NISTEllipticCurve._sign_loop",E+":NISTEllipticCurve.key_pair",S+":DSASigner.sign",K+":jwk_wrap",W+":JWE_EC.enc_setup")
p("C116","RSA1_5 decryption is a padding oracle","JWE.decrypt with one RSA key answers, for an RSA1_5 token whose second segment has the length of the modulus and is a number below it, whatever its enc, iv, ciphertext and tag: DecryptionFailed is raised exactly if that segment does not decrypt to a PKCS#1 v1.5 block 00 02 PS 00 M with at least eight non-zero bytes PS (or M is the random sentinel); with a block it returns a message or raises something else. Hence a sender who has seen an encrypted key learns, for every multiplier s, whether s times the unknown padded number is such a block modulo n, and each such s confines that number to the intervals of Bleichenbacher's attack.","every RSA key, encrypted key, multiplier, content encryption, iv, ciphertext, tag, header with other members, sentinel","An equivalence over all second segments; tests try a few broken tokens and see an exception, not which one tells what.",W+":RSAEncrypter.decrypt",W+":JWE_RSA.decrypt",W+":JWE.decrypt")
p("C117","Two signatures from the same state of the generator reveal the private key","If two tokens are signed with ES256, ES384 or ES512 by keys with the same private number while the random generator returns the same number (a restored snapshot, a forked worker, a fixed seed), their signatures begin with the same half; and if the signatures differ, the private number modulo the order is computed from the two tokens alone: nothing in the nonce depends on the message or the key.","every pair of objects, messages, headers, key lists and every generator output","A relation between two executions for all 2^256 keys and nonces.",E+":NISTEllipticCurve._sign_loop",E+":NISTEllipticCurve.sign",S+":DSASigner.sign")
p("C118","Verification and RSA encryption use nothing but the public half of a key","If the keys of two lists have pairwise the same labels and the same public halves (RSA modulus and exponent, EC coordinates, the shared secret), verify_compact and verify_json give the same message or the same exception for every token, object and option. Hence a verifier with nothing but the exported key set (dump_jwks, load_jwks) answers every token exactly as one with the private keys does. Key wrapping and RSA encryption make the same token from both lists. (Encryption to an EC key does need its private half: C65.)","every object, token, pair of key lists with the same public halves, allow_none, sigalg, message and randomness","Equality of two executions over all tokens, including all failing ones and which exception they raise.",S+":JWS.verify_compact_verbose",S+":JWS.verify_json",W+":JWE.encrypt",K+":KEYS.dump_jwks",K+":KEYS.load_jwks")
p("C119","Points off the curve reveal the whole private key of an ECDH-ES recipient","The ephemeral point of an ECDH-ES token is never checked to lie on the curve. For a pair of numbers that has odd order q on whatever curve it lies, dh_z gives the same result for two private numbers exactly if they are equal modulo q up to sign. Keys that give the same secret with the ephemeral point of a token get the same answer from decrypt (message or exception), so a token sealed under a guess for the private number is opened by every private number equal to the guess modulo q up to sign. For P-256 there are sixty such pairs with different prime orders up to 14249: one of fewer than 65000 guesses is right for each of them, and the right guesses determine every private number below the order of the base point (the square root of the number with these squares modulo the orders).","every private number, curve and pair of odd order; every token, header, key list, randomness; sixty explicit points","A relation between answers to adversarial tokens and the key, for all 2^256 keys.",E+":NISTEllipticCurve.dh_z",W+":JWE_EC.dec_setup",L+":mulp",W+":JWE.decrypt")
p("C120","What checking an untrusted compact token can raise","With a non-empty list of ordinary keys (RSA keys with library object, EC keys with two non-zero coordinates, symmetric keys with a secret), verify_compact on any token, object state, allow_none and sigalg either returns or raises one of eleven exceptions: BadSyntax, WrongNumberOfParts, BadSignature, SignerAlgError, NoSuitableSigningKeys, and, contrary to what a caller catching JWKESTException expects, binascii.Error, UnicodeDecodeError, JSONDecodeError, TypeError, AttributeError and KeyError. Each of the eleven is raised by an explicit token. If the token has three decodable parts, its header is an object with a supported algorithm, and cty is absent or text, only SignerAlgError, NoSuitableSigningKeys, BadSignature and, for ECDSA only, TypeError remain.","every byte string as token, every object state, key list of ordinary keys, allow_none, sigalg","Absence of other exceptions over all hostile inputs.",S+":JWS.verify_compact",S+":JWS.verify_compact_verbose",T+":JWT.unpack",S+":JWx.pick_keys")
p("C121","Accessors of tokens and objects","For an unpacked token b64_encrypted_key() and its siblings give the segments of the text in order and unchanged, the decoded accessors their decodings, and both raise IndexError beyond the last segment; valid() is True exactly for two dots; protected_header() is the JSON text of the header. dump_header() is exactly the header parameters among the settings. _decode parses JSON only for cty 'JWT' in this spelling, unlike payload(), which takes any letter case. rsa_eq compares exactly the public halves.","every token, index, object, payload and pair of keys","All segment counts, positions and member names.",W+":JWEnc.b64_encrypted_key",S+":JWSig.valid",S+":JWx.dump_header",S+":JWx._decode",K+":rsa_eq")
p("C122","Distribution of EC private numbers and nonces","On the three named curves every private number from 1 to N-1 arises in key_pair from exactly one or two of the 2^bits draws of getrandbits, from two exactly if it is at most 2^bits-(N-1); the doubled ones are less than a fraction 2^-31 (P-256), 2^-193 (P-384), 2^-259 (P-521) of all. Different private numbers have different public points. A signature with draw r is the one with the nonce key_pair would make of r, so that nonces have the same distribution.","every curve name, private number, draw, hash and key","Counting over 2^256 draws.",E+":NISTEllipticCurve.key_pair",E+":NISTEllipticCurve.public_key_for",E+":NISTEllipticCurve.sign")
p("C123","The type of kid in EC keys is checked only for keys made from numbers","ECKey(crv=..., x=..., y=..., kid=v) with numbers as coordinates raises HeaderError if v is non-empty and no text. With coordinates as base64url text, as in every JWK, the check is never reached: the key is made or refused exactly as without kid, and carries v, whatever its type.","every keyword dictionary, kid value and coordinate","All types of kid and all coordinates.",K+":Key.verify",K+":ECKey.__init__")
p("C124","A refused JSON serialization rewrites the object","verify_json forgets the object it is called on: message, algorithm and parameters of the caller have no influence and are lost (only key stays), also when it raises. After a refused token with one signature the message, alg, kid, typ, cty, jku, x5u and x5t of the object are those of the token's merged header (a jwk that cannot be read leaves alg and jku only). So the payload of what the object signs next is the member msg of the header of the forged token.","every object, JSON text, key list, flags, exception, later signing keys","State after every refused text; over all headers.",S+":JWS.verify_json",S+":JWx.__init__",S+":JWS.sign_compact")
p("C125","Exceptions of JWE.decrypt on untrusted tokens","Whatever bytes (up to 32 GiB) are given as token to JWE.decrypt with keys as the constructors make them (symmetric ones not empty), an exception is one of nine subclasses of JWKESTException (BadSyntax, WrongNumberOfParts, WrongEncryptionAlgorithm, NoSuitableDecryptionKey, NotSupportedAlgorithm, DecryptionFailed, VerificationFailure, HeaderError, DeSerializationNotPossible) or one of fourteen that are not: binascii.Error, UnicodeDecodeError, JSONDecodeError, TypeError, AttributeError, KeyError, IndexError, ValueError, struct.error, zlib.error, Exception, InvalidInputException and InvalidTagException of aes_gcm, ECCException. For a token with one of the ten algorithms only the exceptions of its family are possible; each of the twenty-three is raised by some token, all but VerificationFailure, NotSupportedAlgorithm and zlib.error by one that is written without any key. So `except JWKESTException` does not catch a forged token: a wrong GCM tag, a bad wrapped key and a bad epk escape it.","every byte string, list of usable keys, expected alg, random values","A sample of bad tokens shows some exceptions, never that there are no others.",W+":JWE.decrypt",W+":JWE_RSA.decrypt",W+":JWE_SYM.decrypt",W+":JWE_EC.dec_setup",T+":JWT.unpack")
p("C126","The key of a certificate (der2rsa, x5c)","der2rsa gives a key exactly for byte strings that are one DER sequence whose first member is a DER sequence with at least seven members, the seventh not an INTEGER and accepted by RSA.importKey: the key is that of the seventh member (the subjectPublicKeyInfo of a version 2 or 3 certificate), whatever the issuer, validity, algorithm and signature are: changing or removing the signature changes nothing. A version 1 certificate (no version field) gives IndexError. Trailing bytes are refused. RSAKey(x5c=[base64 of such a certificate]) has the modulus and exponent of that member; with a version 1 certificate its constructor raises IndexError.","every byte string, every RSA.importKey","One certificate shows that one layout is read, not that the signature never counts.",K+":der2rsa",K+":RSAKey._extract_rsa_from_cert",K+":RSAKey.deserialize")
p("C127","Certificates as text (der_cert2rsa, pem_cert2rsa)","der_cert2rsa deletes everything but the 64 letters of base64, the padding included: the base64 of a byte string of any layout is read if the number of bytes is a multiple of three, and raises binascii.Error otherwise, so two of three certificates are refused. A PEM text is never read: the letters of BEGIN CERTIFICATE count. pem_cert2rsa reads every PEM text (LF or CRLF, lines of any length, white space at the end) as der2rsa reads its bytes, provided RSA.importKey accepts the text. If other text follows the first certificate (a chain) the key is that of the first certificate when its length is no multiple of three; otherwise binascii.Error or ValueError.","every byte string, line structure and following ASCII text","Fixtures have one length and one line structure.",K+":der_cert2rsa",K+":pem_cert2rsa")
p("C128","load_x509_cert and its dictionary","load_x509_cert never raises. In every sequence of calls that share a dictionary that was empty before the first, whatever the server answers each time, a call returns [('rsa', key)] with the key that its own answer stands for if the status is 200 and the text can be imported, else the empty list: no call depends on the earlier ones and no failure is remembered. A key already in the dictionary is returned for its text without a look at the text. With an empty dictionary it agrees with x509_rsa_load of the text, except that it returns the empty list where the latter raises.","every sequence of calls, urls, answers and texts","A test makes one or two calls.",K+":load_x509_cert")
p("C129","Which half of a key is handed out","get_key and encryption_key of an EC key give, without private=True, the point (x, y) and nothing that depends on the private number; the key and the keys read from its public or private JWK give the same point. Asked for the private half, a key made by the constructor from the private JWK gives the number, a key read from the public JWK raises ValueError. An RSA key ignores the flag: read from a private JWK it hands the object with the private exponent also to a caller who asks for private=False.","every key, JWK and flag","Independence from the private number is a statement about pairs of keys.",K+":ECKey.get_key",K+":ECKey.encryption_key",K+":RSAKey.encryption_key",K+":Key.get_key")
p("C130","Exceptions of reading an untrusted JWK or JWK set","KEYS.load_jwks on a text from anywhere raises exactly thirteen exceptions: JSONDecodeError, TypeError, AttributeError, KeyError, ValueError, IndexError, OverflowError, UnicodeEncodeError, binascii.Error, BadSyntax, HeaderError, DeSerializationNotPossible and ECCException (not a subclass of JWKESTException). For a single JWK the set depends on kty: RSA gives TypeError, DeSerializationNotPossible, AttributeError, KeyError, UnicodeEncodeError, binascii.Error, ValueError, IndexError; oct gives TypeError, ValueError, OverflowError, BadSyntax, binascii.Error; EC gives TypeError, HeaderError, DeSerializationNotPossible, ECCException, AttributeError. Each is raised by some JWK, none other by any. A JWK of another type never raises unless it has a member `self` (TypeError).","every text, every JSON object, every set before","That no other exception is possible for any text is out of reach of a sample.",K+":keyrep",K+":KEYS.load_jwks",K+":KEYS.load_dict",K+":RSAKey.deserialize",K+":ECKey.deserialize",K+":SYMKey.__init__")
p("C131","Exceptions of verify_json on untrusted text","With a non-empty list of ordinary keys, verify_json on any text raises one of twenty exceptions. Seventeen are raised by an explicit text whatever the keys and the object are: JSONDecodeError, TypeError, AttributeError, KeyError, ValueError, IndexError, OverflowError, UnicodeEncodeError, UnicodeDecodeError, binascii.Error, BadSyntax, WrongNumberOfParts, SignerAlgError, FormatError, HeaderError, DeSerializationNotPossible, ECCException; BadSignature, NoSuitableSigningKeys and AssertionError depend on the keys. In particular the jwk of an unprotected header is read (and can fail) although the caller gave the keys to use.","every text, object state, list of ordinary keys, allow_none, sigalg","Absence of other exceptions over all hostile inputs.",S+":JWS.verify_json",S+":JWx.__init__",K+":keyrep",T+":JWT.unpack")
p("C132","Retrying a verification, and keys that do not concern a token","verify_compact leaves the object such that calling it again on the same token gives what a first call would give, whatever keys, allow_none and sigalg the earlier call had and whether it succeeded or failed: after a key rotation a token that was rejected can be retried on the same object. A key that does not suit the token (by type, kid or alg) may be put anywhere into a key list or removed, without changing the message or the exception, unless the list becomes empty. Keys of any kind added at the end do not change an acceptance or the key reported. HMAC and RSA keys added anywhere do not prevent an acceptance.","every object, token, key lists, allow_none, sigalg","Histories of an object and the set of possible extra keys are unbounded.",S+":JWS.verify_compact_verbose",S+":JWS.verify_compact",S+":JWx.pick_keys",S+":JWx._pick_alg")
p("C133","The kid of an encrypted token","JWE().decrypt(token, keys) looks neither at the kid of the token's header nor at the kid of the keys: relabelling the keys in any way changes neither the message nor the exception. factory(token).decrypt(keys=keys) gives what JWE().decrypt gives with those of the keys that have the kid of the header (all of them if the header has no kid or an empty one). The object keeps wanting that kid: decrypt(other_token, keys) on it selects by the kid of the token it was made from, not by that of the other token. If the sender's key has a kid, the header shows it, and a recipient who has exactly one key with this kid (and its material) gets the message from factory(token).decrypt(keys=keys), wherever the key is in the list and whatever the others are; for key wrap, RSA and key agreement.","every token, key list, labelling, message, random choice","Key lists and labels are unbounded.",W+":factory",W+":JWE.decrypt",W+":JWE.encrypt",S+":JWx.pick_keys")
p("C134","Keys that do not concern an encrypted token","A key that decrypt sorts out for a token (by type, kid, use or alg) may be put anywhere into the key list or removed from it: message, exception and what the call leaves in the object are the same, unless the list becomes empty. Keys of any kind added at the end do not change a decryption that succeeds.","every object, token, key list, position, extra keys, random choice","The set of possible extra keys is unbounded.",W+":JWE.decrypt",S+":JWx.pick_keys")
p("C135","Signed tokens made by other implementations","With the standard algorithms, verify_compact on a fresh object accepts a compact token exactly if its signature over the first two segments as sent is valid by RFC 7518 under one of the caller's keys with the right type, kid and alg, however the header is spelled as JSON and base64: for HS* the HMAC, for RS* RSASSA-PKCS1-v1_5 (DigestInfo with or without NULL), for PS* RSASSA-PSS with some salt as long as the digest, for ES* the ECDSA equation (one key with a point of the curve). Departure: if the digest as a number is above the order of the curve (about one ES256 token in 2^32), half of it is signed and verified, so tokens of other implementations are judged by the wrong number.","every token text, header, payload, signature and key","Interoperability: the tests only verify what the library itself made and a few vectors.",S+":JWS.verify_compact_verbose",S+":RSASigner.verify",S+":PSSSigner.verify",S+":DSASigner.verify",S+":HMACSigner.verify",E+":NISTEllipticCurve.verify")
p("C136","Signed tokens of the library are valid for other implementations","With the standard algorithms and keys whose public half belongs to the private half, every token that sign_compact returns is a JWS compact serialization of RFC 7515: three unpadded base64url texts, the first one of a JSON object with the algorithm, the kid of the key that signed and the other members given, the second one of the bytes of the message, and a signature as RFC 7518 prescribes under a key of the caller: the HMAC, RSASSA-PKCS1-v1_5 with the NULL parameter and the length of the modulus, RSASSA-PSS with a salt as long as the digest, or ECDSA with both numbers at the full width of the curve. Departure: for ES256 and ES384 half of a digest above the order of the curve is signed; for ES512 the digest is always signed itself.","every object, message, header, key list and random choice","Interoperability: the tests verify tokens with the library itself.",S+":JWS.sign_compact",S+":RSASigner.sign",S+":PSSSigner.sign",S+":DSASigner.sign",S+":HMACSigner.sign",E+":NISTEllipticCurve.sign")
p("C137","The encrypted keys of RSA tokens are those of RFC 8017","With the standard algorithms and a key whose public half belongs to the private half, the second segment of a token opens to a content key exactly if it is as long as the modulus and is the encryption, under the public half, of the block that RFC 8017 prescribes: for RSA1_5 the bytes 0 and 2, at least eight bytes other than zero, a zero and the key; for RSA-OAEP and RSA-OAEP-256 the byte 0, the masked seed and the masked data block with an empty label, with SHA-1 or SHA-256 both for the label and for the mask. So tokens of other implementations decrypt, and the tokens that the library makes for an RSA key have such a second segment.","every key, encrypted key, content key, token, message and random choice","Interoperability: the tests decrypt tokens made by the library itself.",W+":RSAEncrypter.encrypt",W+":RSAEncrypter.decrypt",W+":JWE_RSA.encrypt",W+":JWE_RSA.decrypt")
p("C138","JSON serializations and other implementations","With the standard algorithms: a JSON serialization (general or flattened) with HMAC and RSA algorithms is accepted by verify_json exactly if every entry has a signature that is valid by RFC 7518 under a suitable key of the caller, over its own protected header and the payload as they were sent, with the kid in either header, and the messages agree; and everything that sign_json returns is a JSON serialization of RFC 7515 section 7.2: the payload as unpadded base64url, one entry for each pair of headers, the protected header with the algorithm and the members asked for, the unprotected header as given, and a signature by RFC 7518 under one of the keys. Departure: RFC 7515 lets the algorithm be in the unprotected header; such an entry is never accepted, whatever the keys and arguments.","every text, object, key list, header list, message and random choice","Interoperability: the tests verify with the library what the library signed.",S+":JWS.sign_json",S+":JWS.verify_json")
p("C139","The width of the numbers in EC JWKs","A JWK of an EC key by RFC 7518 sections 6.2.1.2, 6.2.1.3 and 6.2.2.1 (coordinates and private number in the full octet width of the curve), leading zero octets included, loads to the key with these coordinates (the private number stays an undecoded text, C34). Departure: the library writes these numbers in their shortest form, so that the JWK it exports is as the RFC asks exactly if none of the numbers in it starts with a zero octet; a JWK that is loaded and written again changes its x (or y) exactly if that coordinate starts with a zero octet.","every key, JWK and curve; every coordinate that fits the curve","Of random keys only about one in 128 shows the difference.",K+":ECKey.serialize",K+":ECKey.deserialize")
p("C140","The members of RSA JWKs","The JWK written for an RSA key has the numbers of the key as Base64urlUInt of RFC 7518; the public JWK is always as section 6.3 asks, the private one exactly if the key has all of p, q, dp, dq and qi together with d, or none of them. Departure: a key made from a private RSA object of the library writes d, p and q but never dp, dq and qi, so that its private JWK is never as the RFC asks. In the other direction an RSA JWK by the RFC loads to the key built from n, e, d, p and q alone and is written again with the same members: dp, dq and qi are not compared with the others, however wrong.","every key, JWK, label and number","Consistency of members nobody uses, and what the RFC demands of the producer; the tests only read back what the library wrote.",K+":RSAKey.serialize",K+":RSAKey.deserialize",K+":RSAKey._split")
p("C141","A JWS object shared between threads","If several threads call verify_compact_verbose on one JWS object, then in every interleaving a call that returns has checked its own token, under its own keys, algorithm and allow_none, with the key it returns; and the message it returns is that of a token which some call on the object has checked. Undisturbed, a call returns what it returns on the object alone. Defect: the message is written to self.msg and read back for the return value, so whenever two calls succeed one after the other there is an interleaving in which the first returns the message of the second token beside its own key; in particular a caller that forbids unsigned tokens can be handed the payload of an unsigned token another thread allows, as if its key had signed it.","every number of threads, every calls and object, every interleaving","Interleavings are not enumerable by running threads, and the window is two statements wide.",S+":JWS.verify_compact_verbose")
p("C142","A JWE object shared between threads","If several threads call encrypt and decrypt on one JWE object, then in every interleaving a decryption returns or raises what it does alone, and an encryption with RSA, AES key wrap or direct agreement makes the token it makes alone from the same random choices; the object changes in the entry cek alone. Departure: an encryption with ECDH-ES and key wrap takes over the content key another thread's call has left in the object, so that a token to one party may be sealed with the content key of a token from another.","every number of threads, every calls and object, every interleaving","Interleavings are not enumerable by running threads; nothing visible goes wrong in the departing case.",W+":JWE.encrypt",W+":JWE.decrypt")
p("C143","The class JWE_SYM used by itself","JWE_SYM used directly with a SYMKey object wraps the content key under the secret itself as RFC 7518 has it, and every SYMKey with this secret, as bytes or as text, opens the token; it works exactly for secrets of 16, 24 and 32 bytes, and does not hold the length against alg. It opens tokens of exactly five segments; a content key given by the caller is used and makes the key object irrelevant. Departure: JWE.encrypt and JWE.decrypt use the first bytes of the SHA-256 digest of the secret instead, so the two ways do not open each other's tokens for one key, except for a coincidence of two wraps; they do if the directly used key has that digest for its secret. A key of another class encrypts and opens nothing.","every secret, message, alg, enc, content key, iv, random values","Tests use one of the two ways on both sides.",W+":JWE_SYM.encrypt",W+":JWE_SYM.decrypt",W+":JWE.encrypt",K+":SYMKey.encryption_key")
p("C144","The class JWE_RSA used by itself, and with_digest","Every message encrypted by a JWE_RSA object is returned by a JWE_RSA object with the same with_digest and the private key, with all three paddings and with compression. with_digest matters only for RSA1_5: the SHA-1 digest of the content key is encrypted along with it; a token without it is refused with DecryptionFailed, and one with it is opened by no object without it if the content encryption is one of the CBC ones. A wrong RSA padding is DecryptionFailed either way. Departure: JWE(with_digest=True) is silently the same as without, so only the class JWE_RSA offers this.","every message, key pair, content encryption, random values, sentinel","Tests use with_digest nowhere; the claims are about all keys and sentinels.",W+":JWE_RSA.encrypt",W+":JWE_RSA.decrypt",W+":RSAEncrypter.encrypt",W+":RSAEncrypter.decrypt")
p("C145","The class JWE_EC used by itself: dec_setup, then decrypt","What JWE.encrypt makes for a public point is opened by a JWE_EC object with the private number: dec_setup(token, key), then decrypt(token), whatever was called on the object before. In general, after any sequence of calls, decrypt(token) uses the content key of the last dec_setup that returned, and enc, iv, ciphertext and tag of the last dec_setup at all; it returns m exactly if that tag belongs to the header segment of the token, that iv and that ciphertext under that key and m is the content. Before any dec_setup has returned it raises AttributeError, and after one that returned an empty key (which a second segment of eight bytes A6 brings about without knowledge of any key) an exception. Departures: of the token handed to decrypt only the header segment counts, so a token with another ciphertext and the same header gives the message of the earlier one; a dec_setup that raises leaves the earlier content key in force, so a token without an ephemeral key, which dec_setup refuses, is opened by decrypt for whoever knows the earlier content key.","every sequence of calls on the object, message, curve, key pair, algorithm, random values","Tests make one call of each on a fresh object; the claims are about all histories of an object.",W+":JWE_EC.dec_setup",W+":JWE_EC.decrypt")
p("C146","Encrypting with the class JWE_EC itself","enc_setup(msg, auth_data, key=k, **kw) on a JWE_EC object, followed by encrypt with the cek, iv, params and encrypted_key that it returned, makes a token that JWE.decrypt and a JWE_EC object (dec_setup, decrypt) open to msg with the private number, on every curve, with generated or supplied ephemeral key, content key, iv and party data; both steps do succeed. The message is the one handed to enc_setup, not the one of the constructor. Departures: encrypt accepts calls that leave something out and makes tokens nobody can open: without encrypted_key the token has four segments and dec_setup raises IndexError for every key; without params the header has no epk and dec_setup raises for every key; without iv the third segment is empty, since the random iv used is dropped, and with a CBC content encryption decrypt never returns.","every message, key pair, curve, algorithm, keyword arguments, random values, history of the decrypting object","Tests hand over everything on one curve; the claims are about all arguments.",W+":JWE_EC.enc_setup",W+":JWE_EC.encrypt")
p("C75","A token without alg poisons the object","Giving a JWS object a three-part token whose header has no alg, with no expected algorithm, raises, but afterwards the object accepts no signed token ever again, whatever sequence of calls follows.","every object, token without alg, and later sequence of calls","History property over unbounded call sequences.",S+":JWS.verify_compact_verbose")
with open("/verif/properties.jsonl","w") as f:
    for d in P: f.write(json.dumps(d,ensure_ascii=False)+"\n")
print(len(P))
