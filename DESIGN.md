# Formal model of pyjwkest (rohe/pyjwkest 1.4.1) in Lean 4

Contents: 1 approach · 2 how Python is read · 3 what is modelled · 4 library parameters and their laws ·
5 plan and proof per property · 6 trusted base · 7 defects found · 8 mutation testing.
Generated companions: `COVERAGE.md` (every Python function and the Lean definitions for it),
`AXIOMS.md` (axioms and assumed laws of every theorem), `MANIFEST.json`, `properties.jsonl`.

## 1. Approach

The model is a set of small, total Lean functions that mirror the Python functions of
`/repo/src/jwkest` branch by branch (Python 3 semantics; the code is read, never run).  Each
definition cites the lines it models.  Exceptions are values: `PyM α := Except Exc α`, with `Exc` an
enumeration of the exception classes that occur; the subclass relation used by `except` clauses is
modelled where a clause depends on it.  Methods that change an object return the outcome together with
the object afterwards, also when they raise.  Loops are folds, structural or well-founded recursion.
Where the Python loop need not end there is a value `Exc.nonTermination`, which no `except` clause
catches, and theorems that say when it occurs.

Layout (`/verif/lean/Verif`):
* `Py/`     – Python built-ins and interfaces of libraries (nothing of the repository)
* `Model/`  – the model, one file per source file of the repository
* `Spec/`   – small independent specifications (RFC 4648 bit strings, RFC 3394 index form, SP 800-38D
              GCM, ECDSA over Mathlib's group, key-selection predicate, acceptance of a JWS, ...)
* `Proofs/` – helper lemmas
* `Props/`  – the property theorems `Cnn_...`, with `example`s beside them that meet the hypotheses

A property that the code violates is kept: its statement says what the code does, including the
defect, and the theorems prove this exact behaviour together with a reachable witness of the violation.

## 2. How Python is read

* `bytes` is `List UInt8`; `int` is `Int`/`Nat`, unbounded; `str` is Lean's `String` (Unicode scalar
  values).  Lone surrogates, which a Python `str` can hold, are outside the model.
* `PyVal` has None, bool, int, float, str, bytes, list, dict.  Dictionaries are insertion-ordered
  association lists with text keys.  `True == 1` and order-insensitive dictionary equality are
  modelled (`PyVal.pyEq`).  Floats are kept as source text: `1.0 == 1` and the conversion of float
  text are not modelled.  No modelled function computes with floats.
* `json.loads`/`json.dumps` are modelled concretely on text (`Py/Json.lean`: a complete parser and
  printer, including escapes, surrogate pairs, `NaN`/`Infinity`, duplicate members, white space) and
  proved to be inverse to each other on values without floats (`Proofs/Json.lean`).  Simplified: floats
  keep their text; a `\ud800` escape without partner is a parse error; no recursion limit and no 4300
  digit limit.  `json.loads` of bytes that are not UTF-8 is a parameter (`Env.jsonBytes`).
* `base64`, `binascii` (with the leniency of `a2b_base64`), `struct`, slicing, `str.lower` for ASCII,
  UTF-8 coding, the regular expression `_b64_re` (including `$` before a final newline) are concrete.
* Which of the members `n`, `e` comes first in a serialized RSA key depends on the iteration order of a
  Python set; the model puts `n` first.  Nothing that is proved depends on it except through equality of
  dictionaries, which ignores order.
* Truth values, `in`, attribute access and calls on values of the wrong type raise what Python raises
  (`AttributeError`, `TypeError`, `KeyError`, ...).
* Randomness is an argument, so theorems hold for every value drawn.  Only C115 says where the numbers of
  `ecc.py` come from: `Py/Random.lean` is MT19937 and `getrandbits` as CPython has them (compared with
  CPython's own output for one state).
* Memory and time limits do not exist.  Timing is not modelled: C07 is about the result of the
  constant-time comparison, not about its time.  Logging is not modelled.

## 3. What is modelled

`COVERAGE.md` lists every function, method and module-level table of `/repo/src/jwkest` with the Lean
definitions citing it, or the reason why there is none.  In short:

* `__init__.py`, `jwt.py`, `elliptic.py`, `ecc.py`, `curves.py`, `aes_key_wrap.py`, `aes_gcm.py`,
  `extra.py`: everything except self-tests.
* `jwk.py`: all key classes and `KEYS`.  `der2rsa`, `pem_cert2rsa`, `der_cert2rsa`, `load_x509_cert` are in `Model/Cert.lean`; the
  key classes call `RsaLib.fromCert`, which C126 connects with `der2rsa`.  Outside: opening files, `RSA.importKey` (a parameter),
  HTTP (`Env.httpGet`), the attribute `inactive_since`.  `Crypto.Util.asn1` is modelled from its published source in `Py/Der.lean`
  (part of the trusted base for C126-C127).
* `jws.py`: signers, `JWx`, `JWS` compact and JSON, `factory`.  All methods are run to the end in one go, except in
  `Model/Threads.lean`, where `verify_compact_verbose` is cut into moves that several threads alternate (C141).
* `jwe.py`: encrypters, `JWe`, the three algorithm classes, `JWE`, `factory`.
  `Model/JweDirect.lean` has the classes `JWE_SYM`, `JWE_RSA` and `JWE_EC` as a program uses them without `JWE` (C143-C146).
* `PBKDF2.py`: `_setup`, the constructor and `crypt` up to the point every call has raised (C67).
* Of `/repo/script`: `jwkutil.py`, `jwenc.py`, `jwdecrypt.py`, `gen_symkey.py`, `peek.py` as functions of the parsed options
  and the contents of the files they name (`Model/Script.lean`, which lists what is left out).  Not modelled:
  `jwk_create.py`, `jwk_export.py` (under Python 3 both stop with an error before writing a key) and the tests.

Simplifications in the JOSE layer, beyond section 2:
* Arguments `None`, `""`, `b""` and `[]` that the code only tests for truth are identified (`keys`,
  `cek`, `iv`, `token`).
* A `str` token is given by its UTF-8 bytes, which is the first thing `unpack` makes of it.
* The entry `jwk` of `JWx._dict` is a separate field since it holds a key object, not a plain value.
* An attribute of a key that other code might assign from outside is not tracked; keys are the records
  the constructors, `load_key`, `deserialize`, hashing and `make_public_copy` produce, and most theorems
  hold for arbitrary records.
* `encrypt` takes the keyword arguments `cek`, `iv`, `kid` only.

## 4. Library parameters and their laws

`Env` bundles what the package imports: `C : BlockCipher` (raw AES), `H : Hashes` (SHA-1/2, HMAC),
`R : RsaLib` (PyCryptodome RSA: key construction, PKCS#1 v1.5 and PSS signatures, PKCS#1 v1.5 and OAEP
encryption), `Z : Zlib`, `jsonBytes`, `httpGet`.  Most theorems hold for every `Env`, lawful or not, i.e.
whatever these libraries do.  Where a law is needed it is a hypothesis:

| Law | Content | Why it holds of the library |
|---|---|---|
| `BlockCipher.Lawful` | for 16/24/32-byte keys `enc`, `dec` are inverse permutations of 16-byte blocks | FIPS 197 |
| `Hashes.Lawful` | digest and HMAC lengths are 20/32/48/64 | FIPS 180-4, RFC 2104 |
| `RsaLib.Lawful` | the public half accepts what the private key signed; the private key decrypts what was encrypted to the public half; `construct` keeps its arguments or raises `ValueError` | RFC 8017; the decryption law needs a `Consistent` key (n = p·q with distinct primes, e·d ≡ 1), which every private key from `construct` is (C97) |
| `Zlib.Lawful` | `decompress (compress b) = b` | RFC 1950 |
| `JsonBytesLawful` | `json.loads` of non-UTF-8 bytes raises only `ValueError`s | CPython `json.detect_encoding` |
| `Spec.LibQuiet` | RSA decryption and decompression raise none of the exceptions `JWE.decrypt` passes over (`KeyError`, `DecryptionFailed`) | PyCryptodome raises `ValueError`/`TypeError`, zlib `zlib.error` |

The first three laws are also proved of the standard algorithms themselves (`Real/`, C97): AES by FIPS 197, SHA by
FIPS 180-4, HMAC by RFC 2104, RSA by RFC 8017, each checked in the kernel against the vectors of its standard.
That PyCryptodome computes these functions remains an assumption; that they obey the laws does not.

Every law is satisfiable: `toyCipher`, `toyHashes`, `toyRsa`, `toyZlib` are concrete lawful instances,
used only in `example`s.  Unforgeability, collision resistance and secrecy are never assumed.  Where a
user would rely on them the theorem exhibits the collision (C17, C40, C60) or counts the bad keys (C74).

Nothing is assumed about elliptic curves: the field and order primes of P-256, P-384 and P-521 are
proved prime in the kernel (Pocklington and Lucas certificates generated by `tools/mkprimes.py`), the
group is Mathlib's `WeierstrassCurve.Affine.Point`, and orders are computed in it.

## 5. Plan and proof per property

| Id | Modelled | Proof |
|----|----------|-------|
| C01–C04 | b64e, b64d, add_padding, regex, lenient `a2b_base64` automaton | induction on 3-byte/4-char groups; the specification is a bit string; exact accept set and witness of the newline hole |
| C05–C06 | long2intarr, intarr2long, long_to_base64, base64_to_long, hex helpers | strong induction on n; negative numbers: the loop state never reaches 0 |
| C07 | comparison folds | induction; `or`/`xor` of naturals is zero iff both/equal |
| C08–C10 | JWT.pack/unpack/payload, split_token, b64encode_item, b2s_conv | split/join inverse, C01, JSON printer/parser inverse |
| C11 | sign_compact then verify_compact | C22 header, C13 conditions, per-signer round trip (C52 for ES) |
| C12–C15, C18, C20 | verify_compact_verbose | inversion of the executable model into `Spec` acceptance; first-success search lemma |
| C16, C25, C75 | object state over call lists | invariant of the `alg` entry, induction over the list of calls |
| C17 | HMAC verifier | C07 and injectivity of the signed text |
| C19 | pick_keys | equality with `List.filter` of an independent predicate |
| C21, C22, C76 | alg_keys, sign_compact | case analysis on the determined algorithm |
| C23, C24 | sign_json, verify_json | induction over signatures; independent acceptance predicate |
| C26, C27 | constructor, is_jws, is_jwe, factories | case analysis |
| C28–C34 | key classes, serialize/deserialize, thumbprint, eq/hash, KEYS | C05 lifted to records; non-interference by congruence; invariants over operation lists |
| C35–C37 | RFC 3394 wrap/unwrap loops | loop inverse step by step in both directions; index form as specification |
| C38–C40 | PKCS5, CBC chain, HMAC input | induction over blocks; injectivity of the MAC input |
| C41–C42 | concat KDF, ecdh_derive_key | fuel-free loop = prefix of block stream; length-prefix injectivity |
| C43, C74 | gf_2_128_mul, tables, ghash | GF(2)[x] polynomials, linearity; irreducibility by Rabin's test in the kernel; root counting |
| C44–C47 | GCM object | CTR stream and GHASH against a separate specification; invariants over call histories |
| C48–C51 | elliptic.py | Mathlib group as specification; Jacobian representation relation; double-and-add invariant |
| C52–C56, C69–C73 | ecc.py, curves.py | algebra in the prime-order group; explicit off-curve points |
| C57–C65, C78, C79 | jwe.py | composition of C35–C47, C54 with token packing |
| C80–C84 | key loading: certificates, key_from_jwk_dict, to_dict, jwk_wrap, KEYS dump/load | inversion of the constructors; C28 lifted to lists by induction |
| C85–C88 | state of the JWS object and of the caller's dictionary | inversion; invariant over lists of sign and verify calls |
| C89–C91 | header and segments of JWE tokens, against the RFC forms in `Spec/JweForm` | inversion of the three encrypters |
| C92 | JWE object across calls | induction over lists of calls; congruence in the entry `cek` |
| C93 | what `decrypt` returns | inversion of `decrypt`; uniqueness of CBC plaintexts |
| C94 | key objects from library objects, loaded, deserialized again | case analysis of the constructor; frame of `_split`; idempotence of the number conversion |
| C95 | thumbprints with members, `get_hash`, `add_kid` | induction over the sorted member list; uniqueness of sorted permutations; independence of labels |
| C96 | unused helpers | direct, for all arguments |
| C97 | round trips with the standard algorithms | AES, SHA-1/2, HMAC, RSA built from their standards in `Real/`; every law proved of them (inverse of each AES round step; Fermat and the Chinese remainder theorem for RSA; padding decoders invert encoders) |
| C98 | publish and verify | C84 gives the imported keys; the signature made by a key is accepted by its published half (law of the library for RSA, C52 for ECDSA, same secret for HMAC); with distinct kids only that key is tried, otherwise (standard algorithms) every other key only answers "no" |
| C99 | what can be put into a token | inductive relation `TextOf` between a value and what the receiver gets, shown equivalent to `b2s_conv`; signing depends on the message only through its packed form, so C11 carries over |
| C100 | signing succeeds | the picked key is computed from `AlgFor`, `SignKid`, `FirstSigner`; then every step of `sign_compact` returns: header and payload encode (C09), RSA encodings are smaller than the modulus by their length, and the private operation is inverted by the public one (C97); ECDSA: by C72 a nonce fails iff r or s is 0, which fixes the first coordinate up to N, and at most two multiples of G share a coordinate (order N, C55) |
| C101 | nested tokens | `Delivers` (every text arrives) for each family from C97, composed with C100 and C11 |
| C102 | jwkutil.py | tool as a function of its options (`Model/Script.lean`); the key list option by option; signing succeeds by C100, refusal by C12, nested by C101; `-d` by case analysis |
| C103 | jwenc.py, jwdecrypt.py | C101_rsa on the key objects the tools build; tokens contain no newline (C02, C90), so `strip` restores them |
| C104 | own tokens are recognised | a compact token starts with the encoding of a JSON object and contains a dot, so it is no JSON; then C27 and the header theorems C22, C89 |
| C105 | gen_symkey.py | printed text = `dump_jwks` of the key (C84), then C100 |
| C106 | JSON form ⇔ compact form | from the two exact characterisations (C23_exact, verifyVerbose_iff) |
| C107 | malleability of the signature | congruence of `verifyVerbose` in the signature bytes; C04, C17, C71 |
| C108 | length of the signature segment | form of the result of `sign_compact` (C21), lengths of the primitives |
| C109 | publish, then receive encrypted messages | exported keys (C84) pick the same key; round trips C57/C58 with the publisher's key; C65 for ECDH |
| C110 | encryption succeeds | invariant of the header dictionary (few entries, short names, writable values), step by step through the three classes |
| C111 | encrypted tokens of other implementations | content encryption of RFC 7518 as an inductive predicate; `_decrypt` characterised exactly; composition with the key management of C93 and C71 |
| C112 | named curve of an EC key | relation between keys that differ in curve, private number and curve object only; transport of the exact characterisation of verification and of `sign_accepts` |
| C113 | header members given twice | induction over the list of members: the parser folds `set`, the last one wins |
| C114 | which ECDH-ES tokens are opened | inversion of decryption (C93) for the negative part; computation of `dec_setup` from the specification of agreement, then C111 for the content |
| C115 | ECDSA nonces and EC keys come from a predictable generator | inversion of the output function by iteration to the fixed point (agreement of one more bit per step); state after 624 outputs is their inversion; signature equation of C52 solved for the private number; C90 for the ephemeral key |
| C116 | RSA1_5 decryption is a padding oracle | block decomposition of the PKCS #1 decoder; quietness lemmas: no later step of decryption raises DecryptionFailed; (x s)^e = ek s^e mod n; leading bytes 00 02 as an interval |
| C117 | Two signatures from the same state of the generator reveal the private key | the two signature equations of C52 subtracted; private numbers equal modulo the order give equal reduced numbers |
| C118 | Verification and RSA encryption use nothing but the public half of a key | two runs compared step by step (relation "same exception or related values" preserved by bind), key lists related pairwise; C84 for the exported set |
| C119 | Points off the curve reveal the whole private key of an ECDH-ES recipient | `mulp` is scalar multiplication for points of odd order on any curve (also singular ones); same first coordinate means equal up to sign; Chinese remainders of the squares; orders checked in the kernel with `mul`; two runs of decrypt compared step by step |
| C120 | What checking an untrusted compact token can raise | set of exceptions tracked through unpack, headerAlg, pickKeys, the verifiers and payload (`Raises S`); explicit tokens for every member |
| C121 | Accessors of tokens and objects | from the exact characterisation of `unpack` (C09); induction over the parameter names for `dump_header` |
| C122 | Distribution of EC private numbers and nonces | counting residues below 2^bits (`count_mod`); injectivity of `k ↦ k • G` below the order of G |
| C123 | The type of kid in EC keys is checked only for keys made from numbers | `Key.verify` returns at the first text (`verifyLongs_text`), its result is ignored |
| C124 | A refused JSON serialization rewrites the object | the object after `__init__(**headers)` (`reinit_params`), then C85 for the failing verification and `signCompact_ok` for the next token |
| C125 | Exceptions of JWE.decrypt on untrusted tokens | a calculus of exception sets (`Raises S x`) run over every function of the decryption, with the facts that the JSON reader makes no bytes and segments are short; then tokens that raise each |
| C126 | The key of a certificate (der2rsa, x5c) | a grammar of DER (`Spec/Der.lean`: `Tlv`, `DerSeq`, `Certificate`); the reader of the library is shown to accept exactly it, by induction over the items |
| C127 | Certificates as text (der_cert2rsa, pem_cert2rsa) | a grammar of PEM (`Spec/Pem.lean`); induction over lines for `split`, over groups of four letters for base64 |
| C128 | load_x509_cert and its dictionary | invariant: every key in the dictionary was read from its text; induction over the calls |
| C129 | Which half of a key is handed out | from the round trips C28 by computation of the accessors; two keys with the same point side by side |
| C130 | Exceptions of reading an untrusted JWK or JWK set | exception calculus over keyrep per key type (values of JSON text hold no bytes, so the encoded members decode); one JWK per exception |
| C131 | Exceptions of verify_json on untrusted text | C120 for the token of each entry, C130 for the jwk of the merged header, induction over the entries; one text per exception |
| C132 | Retrying a verification, and keys that do not concern a token | verify writes only attributes it computes from the token before the keys are looked at; pick_keys as a filter; C20 |
| C133 | The kid of an encrypted token | wanted kid of the object as a filter on the keys; encryption keys do not depend on the label; C57-C59, C89, C104 |
| C134 | Keys that do not concern an encrypted token | picking as a filter (C61, C62); the loop over the keys returns at the first success, by induction on the list |
| C135 | Signed tokens made by other implementations | C20 for the loop; EMSA-PKCS1-v1_5 and EMSA-PSS verification inverted (accepted blocks are encodings); C53 and C70 for ECDSA |
| C136 | Signed tokens of the library for other implementations | C02 for the segments; the signers unfolded, RSA inversion gives the opened block; C51 and C135 for ECDSA |
| C137 | RSA-encrypted content keys by RFC 8017 | a byte-by-byte specification of the blocks; the encoder and decoder of OAEP are inverse relations; C111 and C90 lift it to tokens |
| C138 | JSON serializations and other implementations | C23 for the entries, C135 for the signatures; outbound: create_signature unfolded, C136 for each token |
| C139 | The width of the numbers in EC JWKs | C28 for the exported dictionary; the shortest base64url text of n has width w iff 256^(w-1) <= n < 256^w |
| C140 | The members of RSA JWKs | C28 for the written dictionary and the loading, C94 for keys made from library objects; the numbers in a JWK are determined |
| C141 | A JWS object shared between threads | small-step model of the call, invariant over the reachable states for safety, refinement of the sequential model for a thread alone, an explicit schedule for the defect |
| C142 | A JWE object shared between threads | two moves per call over the sequential model, invariant by C92 |
| C143 | The class JWE_SYM used by itself | second segment by inversion of encrypt, RFC 3394 by C37, opened by C35 and C36; both ways compared through the digest |
| C144 | The class JWE_RSA used by itself, and with_digest | the inversion lemmas of C58 for either value of with_digest; length of the content key for the mixed case |
| C145 | The class JWE_EC used by itself: dec_setup, then decrypt | the object as a state machine, induction over the calls; round trip through C59; C111 for what is accepted |
| C146 | Encrypting with the class JWE_EC itself | inversion of enc_setup and encrypt as for C59, without the object JWE around; segments of the token for what is left out |
| C66–C68 | left_hash, PBKDF2, SYMKey.encryption_key | direct |
| C77 | keyrep, ECDSA at infinity | explicit forged signature for every message |

Statements and quantifiers are in `properties.jsonl`, theorem names in `MANIFEST.json`.

## 6. Trusted base

1. The Lean 4.33.0 kernel (and Lean's elaboration of the statements).
2. The axioms `propext`, `Classical.choice`, `Quot.sound`, as listed per theorem in `AXIOMS.md`.  There
   are no axioms of our own, no `sorry`, no `native_decide`, no `bv_decide`.
3. The definitions of Mathlib that occur in statements (`Nat.Prime`, `ZMod`, `Polynomial`,
   `WeierstrassCurve.Affine.Point`, `addOrderOf`).
4. That the model is the code: sections 2 and 3.  This is checked by reading; `tools/citecheck.py`
   prints every citation with the cited lines.  In addition `Vectors.lean` (generated by
   `tools/mkvectors.py` from the literals in /repo/tests and the examples of RFC 7515, 7516 and 7518) evaluates the
   model with the standard algorithms: thirty-three recorded values agree, twenty-nine of them in the kernel.  These
   are tests and count for no property.
5. The laws of section 4 for the theorems that assume them.

## 7. Defects found

Each is a theorem: b64d accepts a newline before `=` (C03); zero cannot be a JWK integer, negative ones
hang (C05); `JWS(msg).sign_compact(keys)` with two keys returns an unsigned token (C21); verify_json accepts an
empty signature list (C23) and without keys trusts a key inside the token (C25); `crit` is ignored (C26);
public copies of symmetric keys keep the secret (C30); EC thumbprints are not RFC 7638 (C31); hashing changes
equality, different secrets compare equal (C32); private EC keys loaded by keyrep cannot sign (C34); key wrap truncates
(C35); padding bytes are unchecked (C38); iv reuse goes undetected (C45); A192GCM uses AES-256 with a zero-extended key (C47);
JWE accepts unknown `A…KW` names (C61), gives up after the first key (C62), ignores extra segments (C63), needs a private
EC key to encrypt (C65); PBKDF2 never works (C67); invalid-curve points leak the key (C69); ECDSA hash shortening is off by one bit and
signatures are malleable (C70, C71); sign may hang (C72); uncompress loses y (C73); a token without
alg disables the object (C75); keyword arguments without alg mean none (C76); `kty: "ec"` accepts forged
signatures (C77); a JWE that every shared key decrypts (C78); certificates are not checked when n and e are given, and with a
thumbprint never load through keyrep (C80); to_dict is not JSON after loading an unknown text member (C82);
dump_jwks exports symmetric secrets (C84); a refused token fixes the object's algorithm and an unsigned one leaves the old key (C85);
an unsigned token makes the object unsigned for ever (C86); the caller's protected dictionary is overwritten (C88); the header shows `crit` as `x5c` (C89); GCM keys and tags lose their
length (C90); the KDF of key agreement is not that of RFC 7518 (C91); a stored content key is used again (C92);
load_key keeps old private numbers and n, e beside an instance are unchecked (C94); get_hash changes the hash of a key (C95); mp2bin does not undo
mpint and key_eq fails on RSA keys (C96); key wrap uses a digest of the shared key, so the token of RFC 7516 A.3 does
not decrypt (C68, `Vectors.lean`).

## 8. Mutation testing

`tools/mutate.py seeded/mutants_N.py` applies each mutant to a scratch copy of the model, rebuilds, and
appends to `seeded/LOG.jsonl` the definition edited, the edit, the claim it breaks, the theorems that
failed, and those tightened afterwards.  A mutant counts as killed only when a theorem of the claim it breaks
(or a lemma that theorem uses) stops proving.
