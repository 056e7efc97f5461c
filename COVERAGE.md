# Which parts of the code are modelled

Generated by `tools/coverage.py` from the citations in the comments of the Lean definitions.
A function without a definition has the reason why it is not modelled.

211 of 262 functions, methods and tables are modelled.

## PBKDF2.py

| Python | lines | Lean definitions |
|---|---|---|
| `strxor` | 92-93 | — not modelled: only reachable with a constructed object, and construction always raises (C67) |
| `b64encode` | 95-97 | `pbkdf2Makesalt` |
| `PBKDF2.__init__` | 119-123 | `Pbkdf2.new` |
| `PBKDF2._pseudorandom` | 125-128 | — not modelled: only reachable with a constructed object, and construction always raises (C67) |
| `PBKDF2.read` | 130-150 | — not modelled: only reachable with a constructed object, and construction always raises (C67) |
| `PBKDF2.__f` | 152-160 | — not modelled: only reachable with a constructed object, and construction always raises (C67) |
| `PBKDF2.hexread` | 162-167 | — not modelled: only reachable with a constructed object, and construction always raises (C67) |
| `PBKDF2._setup` | 169-199 | `encodeUtf8Step`, `Pbkdf2`, `Pbkdf2.setup` |
| `PBKDF2.close` | 201-210 | — not modelled: only reachable with a constructed object, and construction always raises (C67) |
| `crypt` | 212-262 | `encodeUtf8Step`, `encodeAsciiStep`, `pbkdf2Crypt` |
| `_makesalt` | 269-275 | `pbkdf2Makesalt` |
| `test_pbkdf2` | 277-354 | — not modelled: test code |

## __init__.py

| Python | lines | Lean definitions |
|---|---|---|
| `JWT_TYPES (table)` | 21-21 | — not modelled: not used by any function |
| `JWT_CLAIMS (table)` | 23-24 | — not modelled: not used by any function |
| `JWT_HEADERS (table)` | 26-26 | — not modelled: not used by any function |
| `intarr2bin` | 82-83 | `intarr2bin` |
| `long2hexseq` | 86-90 | `long2hexseq` |
| `intarr2long` | 93-94 | `intarr2long` |
| `long2intarr` | 97-102 | `long2intarrLoop`, `long2intarr` |
| `long_to_base64` | 105-111 | `longToBase64Core`, `longToBase64`, `longToBase64Val` |
| `base64_to_long` | 114-120 | `base64ToLongBytes`, `base64ToLong` |
| `base64url_to_long` | 123-136 | `base64urlToLongBytes`, `base64urlToLongStr` |
| `b64e` | 141-145 | `b64e` |
| `add_padding` | 151-162 | `addPadding` |
| `b64d` | 165-183 | `b64d` |
| `b64e_enc_dec` | 186-187 | `b64eEncDec` |
| `b64d_enc_dec` | 190-191 | `b64dEncDec` |
| `safe_str_cmp` | 195-202 | `safeStrCmp` |
| `constant_time_compare` | 205-212 | `constantTimeCompare` |
| `as_bytes` | 215-225 | `asBytes` |
| `as_unicode` | 228-238 | `asUnicode` |

## aes_gcm.py

| Python | lines | Lean definitions |
|---|---|---|
| `gf_2_128_mul` | 44-52 | `gfR`, `gfStep`, `gfMul` |
| `AES_GCM.__init__` | 70-76 | `Gcm`, `Gcm.new` |
| `AES_GCM.change_key` | 78-96 | `Gcm.new` |
| `AES_GCM.__times_auth_key` | 98-103 | `Gcm.timesAuthKey` |
| `AES_GCM.__ghash` | 105-128 | `pad16`, `Gcm.ghash` |
| `AES_GCM.encrypt` | 130-166 | `Gcm.tagMask`, `Gcm.crypt`, `Gcm.encrypt` |
| `AES_GCM.decrypt` | 168-199 | `Gcm.decrypt` |

## aes_key_wrap.py

| Python | lines | Lean definitions |
|---|---|---|
| `aes_unwrap_key_and_iv` | 33-45 | `unwrapStep`, `unwrapOrder`, `aesUnwrapKeyAndIV` |
| `aes_unwrap_key` | 48-54 | `aesUnwrapKey` |
| `aes_unwrap_key_withpad` | 57-64 | `aesUnwrapKeyWithpad` |
| `aes_wrap_key` | 67-77 | `wrapStep`, `wrapOrder`, `aesWrapKey` |
| `aes_wrap_key_withpad` | 80-83 | `aesWrapKeyWithpad` |
| `test` | 86-95 | — not modelled: test code |

## curves.py

| Python | lines | Lean definitions |
|---|---|---|
| `DOMAINS (table)` | 20-53 | `domains` |
| `get_curve` | 76-83 | `getCurve` |
| `implemented_keys` | 86-87 | — not modelled: not called by anything in the package |

## ecc.py

| Python | lines | Lean definitions |
|---|---|---|
| `NISTEllipticCurve.__init__` | 27-30 | `NistCurve`, `nistCurve` |
| `NISTEllipticCurve.by_name` | 33-41 | `curveByName`, `curveByNameB`, `curveByVal` |
| `NISTEllipticCurve.name` | 45-46 | `name` |
| `NISTEllipticCurve.int2bytes` | 49-50 | `int2bytes` |
| `NISTEllipticCurve.bytes2int` | 53-54 | `bytes2int` |
| `NISTEllipticCurve.compress` | 58-59 | `compress` |
| `NISTEllipticCurve.uncompress` | 61-62 | `uncompress` |
| `NISTEllipticCurve.key_pair` | 65-68 | `keyPair` |
| `NISTEllipticCurve.public_key_for` | 70-71 | `publicKeyFor` |
| `NISTEllipticCurve.dh_z` | 75-76 | `dhZ` |
| `NISTEllipticCurve._sign_loop` | 78-88 | `signLoop` |
| `NISTEllipticCurve.sign` | 91-99 | `shrink`, `sign` |
| `NISTEllipticCurve.verify` | 101-112 | `verify`, `NistCurve.sigInRange` |

## elliptic.py

| Python | lines | Lean definitions |
|---|---|---|
| `euclid` | 85-95 | `euclidLoop`, `euclid` |
| `inv` | 98-104 | `addUntilNonneg`, `inv` |
| `curve_q` | 107-109 | `curveQ` |
| `element` | 112-118 | `element` |
| `to_projective` | 121-126 | `toProjective`, `esPub` |
| `from_projective` | 129-134 | `fromProjective` |
| `neg` | 137-139 | `negA`, `negJ` |
| `add` | 145-162 | `addA` |
| `addf` | 167-203 | `addf` |
| `doublef` | 206-220 | `doublef` |
| `mul` | 226-234 | `mulLoop`, `mulA` |
| `_gbd` | 240-246 | `gbdLoop`, `gbd`, `dhScalar` |
| `_signed_bin` | 256-273 | `signedBinLoop`, `signedBin` |
| `mulf` | 279-289 | `mulf` |
| `mulp` | 293-295 | `mulp` |
| `muladdf` | 299-321 | `precomp`, `muladdf` |
| `muladdp` | 325-329 | `muladdp` |
| `sign_bit` | 338-340 | `signBit` |
| `y_from_x` | 344-348 | `yFromX` |

## extra.py

| Python | lines | Lean definitions |
|---|---|---|
| `LENMET (table)` | 19-23 | `lenmet` |
| `pkcs5pad` | 32-43 | `pkcs5pad` |
| `pkcs5trim` | 46-58 | `pkcs5trim` |
| `get_keys_seclen_dgst` | 61-76 | `getKeysSeclenDgst` |
| `aes_cbc_hmac_encrypt` | 79-103 | `cbcHmacTag`, `aesCbcHmacEncrypt` |
| `aes_cbc_hmac_decrypt` | 106-137 | `cbcHmacTag`, `aesCbcHmacDecrypt` |
| `concat_sha256` | 140-159 | `concatLoop`, `dkBytesOf`, `concatSha256` |
| `ecdh_derive_key` | 162-183 | `ecdhOtherInfo`, `ecdhDeriveFromZ`, `ecdhDeriveKey`, `ecdhDerive` |

## jwe.py

| Python | lines | Lean definitions |
|---|---|---|
| `KEYLEN (table)` | 90-97 | `keylenTable` |
| `Encrypter.__init__` | 103-104 | — inlined: the flag is the argument `withDigest` |
| `Encrypter.encrypt` | 106-108 | — not modelled: abstract |
| `Encrypter.decrypt` | 110-112 | — not modelled: abstract |
| `RSAEncrypter.encrypt` | 116-128 | `RsaPad`, `rsaEncrypterEncrypt` |
| `RSAEncrypter.decrypt` | 130-159 | `(field) sentinel`, `rsaCheckText`, `rsaEncrypterDecrypt`, `jweRsaDecrypt` |
| `int2bigendian` | 165-166 | `int2bigendian` |
| `party_value` | 169-176 | `partyValue` |
| `_hash_input` | 179-188 | `hashInput` |
| `cipher_filter` | 193-200 | — not modelled: not called by anything in the package |
| `aes_enc` | 203-209 | — not modelled: not called by anything in the package |
| `aes_dec` | 212-218 | — not modelled: not called by anything in the package |
| `keysize` | 221-228 | — not modelled: not called by anything in the package |
| `ENC2ALG (table)` | 231-232 | — not modelled: not called by anything in the package |
| `SUPPORTED (table)` | 234-239 | `jweSupportedAlg`, `jweSupportedEnc`, `supportedEnc` |
| `alg2keytype` | 242-250 | `jweAlg2keytype` |
| `ENCALGLEN1 (table)` | 255-259 | `encAlgLen` |
| `ENCALGLEN2 (table)` | 261-265 | `encAlgLen` |
| `JWEnc.b64_protected_header` | 269-270 | `Jwt.b64ProtectedHeader` |
| `JWEnc.b64_encrypted_key` | 272-273 | `Jwt.b64At` |
| `JWEnc.b64_initialization_vector` | 275-276 | `Jwt.b64At` |
| `JWEnc.b64_ciphertext` | 278-279 | `Jwt.b64At` |
| `JWEnc.b64_authentication_tag` | 281-282 | `Jwt.b64At` |
| `JWEnc.protected_header` | 284-285 | `Jwt.protectedHeader` |
| `JWEnc.encrypted_key` | 287-288 | — inlined: `Jwt.partAt` with the index |
| `JWEnc.initialization_vector` | 290-291 | — inlined: `Jwt.partAt` with the index |
| `JWEnc.ciphertext` | 293-294 | — inlined: `Jwt.partAt` with the index |
| `JWEnc.authentication_tag` | 296-297 | — inlined: `Jwt.partAt` with the index |
| `JWEnc.b64_encode_header` | 299-300 | `Jwt.b64EncodeHeader` |
| `JWEnc.is_jwe` | 302-318 | `Jwt.isJwe` |
| `JWEnc.__len__` | 320-321 | — inlined: `j.part.length` |
| `JWe._generate_key_and_iv` | 326-344 | `(field) key`, `(field) iv`, `generateKeyAndIv` |
| `JWe.alg2keytype` | 346-347 | — inlined: `jweAlg2keytype` is passed to `pickKeys` |
| `JWe.enc_setup` | 349-371 | `isGcmEnc`, `encSetup` |
| `JWe._decrypt` | 374-396 | `isGcmEnc`, `jweDecrypt` |
| `JWE_SYM.encrypt` | 403-443 | `withKid`, `symKek`, `Jwe.symEncrypt`, `symSecret`, `jweSymEncrypt` |
| `JWE_SYM.decrypt` | 445-476 | `symKek`, `symDecrypt`, `symSecret`, `jweSymDecrypt` |
| `JWE_RSA.encrypt` | 483-528 | `rsaPadOf`, `Jwe.zipMsg`, `Jwe.rsaEncrypt`, `jweRsaEncrypt` |
| `JWE_RSA.decrypt` | 530-574 | `rsaPadOf`, `rsaDecrypt`, `jweRsaDecrypt` |
| `JWE_EC.enc_setup` | 581-641 | `(field) apu`, `(field) eph`, `keylen`, `Jwe.symEncrypter`, `partyParam`, `ecKwAlg`, `storedBytes`, `Jwe.ephemeral`, `Jwe.ecEncSetup`, `jweEcEncSetup` |
| `JWE_EC.dec_setup` | 643-682 | `keylen`, `ecKwAlg`, `headerEpk`, `ecKeyOfHeader`, `headerParty`, `headerKeylen`, `ecDecSetup`, `EcObj`, `EcObj.decSetup` |
| `JWE_EC.encrypt` | 684-707 | `withKid`, `Jwe.ecEncrypt`, `jweEcEncrypt` |
| `JWE_EC.decrypt` | 709-725 | `ecDecrypt`, `EcObj.decrypt` |
| `JWE.encrypt` | 762-839 | `Jwe.rsaEncrypter`, `Jwe.symEncrypter`, `jweKind`, `Jwe.setKid`, `Jwe.encryptWith`, `Jwe.encrypt` |
| `JWE.decrypt` | 841-900 | `jweKind`, `decryptBy`, `decryptLoop`, `decryptTry`, `Jwe.decryptJwt`, `Jwe.tokenOf`, `Jwe.decrypt` |
| `factory` | 903-910 | `jweFactory` |

## jwk.py

| Python | lines | Lean definitions |
|---|---|---|
| `dicthash` | 64-65 | — not modelled: not called by anything in the package |
| `intarr2str` | 68-69 | — not modelled: only called for a key that is neither a `SYMKey` nor bytes, which `JWE.encrypt` never passes |
| `sha256_digest` | 72-73 | `keyBytes` — library: `Hashes.hash` |
| `sha384_digest` | 76-77 | `keyBytes` — library: `Hashes.hash` |
| `sha512_digest` | 80-81 | `keyBytes` — library: `Hashes.hash` |
| `DIGEST_HASH (table)` | 84-88 | `digestHash` |
| `import_rsa_key_from_file` | 94-99 | — not modelled: reads a file or PEM text through the RSA library; the result enters the model as an `RsaKey` |
| `import_rsa_key` | 102-109 | `x509RsaLoad` |
| `der2rsa` | 112-121 | `der2rsa`, `(field) fromCert` |
| `pem_cert2rsa` | 124-132 | `pemCert2rsa` |
| `der_cert2rsa` | 135-143 | `derCert2rsa` |
| `load_x509_cert` | 146-168 | `loadX509Cert`, `KeyOpt.keys` |
| `rsa_load` | 171-176 | `x509RsaLoad` |
| `rsa_eq` | 179-184 | `rsaEq` |
| `key_eq` | 187-194 | `keyEq` |
| `x509_rsa_load` | 197-202 | `x509RsaLoad` |
| `key_from_jwk_dict` | 205-235 | `keyFromJwkDict` |
| `Key.__init__` | 247-277 | `Key`, `strAttr`, `keyCommon`, `plainKeyNew` |
| `Key.to_dict` | 279-287 | `Key.toDict` |
| `Key.common` | 289-297 | `Key.common` |
| `Key.__str__` | 299-300 | — not modelled: text of `to_dict` |
| `Key.deserialize` | 302-307 | — not modelled: does nothing |
| `Key.serialize` | 309-314 | `Key.serialize`, `Key.serializeDflt` |
| `Key.get_key` | 316-317 | `Key.getKey` |
| `Key.verify` | 319-347 | `verifyLongs`, `verifyKid` |
| `Key.__eq__` | 349-359 | `Key.pyEq` |
| `Key.keys` | 361-362 | — the keys of `Key.toDict` |
| `Key.thumbprint` | 364-380 | `tpElem`, `Key.thumbInput`, `Key.thumbprint`, `sortNames`, `Key.thumbInputOf`, `Key.thumbprintOf` |
| `Key.get_hash` | 382-386 | `Key.pyHash`, `Key.getHash` |
| `Key.add_kid` | 388-391 | `Key.pyHash`, `Key.addKid` |
| `Key.__hash__` | 393-399 | `Key.pyHash` |
| `deser` | 402-408 | `deser` |
| `RSAKey.__init__` | 422-442 | `RsaMat`, `rsaKeyNew` |
| `RSAKey.deserialize` | 444-486 | `rsaLong`, `x5cFirst`, `rsaParts`, `rsaDeserialize`, `Key.deserialize` |
| `RSAKey.serialize` | 488-508 | `rsaSerialize`, `Key.serializeDflt` |
| `RSAKey._split` | 510-528 | `rsaSplit` |
| `RSAKey.load` | 530-538 | — not modelled: reads a file or PEM text through the RSA library; the result enters the model as an `RsaKey` |
| `RSAKey.load_key` | 540-548 | `rsaLoadKey` — `rsaLoadKey`; inlined in `jwkWrap` (`rsaSplit` with the key set) |
| `RSAKey.encryption_key` | 550-558 | `Key.encryptionKey` |
| `ECKey.__init__` | 570-586 | `ecKeyNew` |
| `ECKey.deserialize` | 588-612 | `ecCoord`, `ecDeserialize` |
| `ECKey.get_key` | 614-624 | — `Key.getKey` |
| `ECKey.serialize` | 626-640 | `ecSerialize`, `Key.serializeDflt` |
| `ECKey.load_key` | 642-645 | `ecLoadKey` |
| `ECKey.decryption_key` | 647-648 | — `Key.getKey` |
| `ECKey.encryption_key` | 650-652 | `Key.encryptionKey` |
| `ALG2KEYLEN (table)` | 655-662 | `alg2keylen` |
| `SYMKey.__init__` | 670-678 | `symKeyNew` |
| `SYMKey.deserialize` | 680-684 | `symDeserialize` |
| `SYMKey.serialize` | 686-689 | `symSerialize`, `Key.serializeDflt` |
| `SYMKey.encryption_key` | 691-721 | `symEncryptionKey`, `Key.encryptionKey` |
| `keyitems2keyreps` | 727-738 | `itemKey`, `keyitems2keyreps` |
| `keyrep` | 741-768 | `keyrep` |
| `jwk_wrap` | 771-790 | `jwkWrap` |
| `KEYS.__init__` | 794-795 | `Keys` |
| `KEYS.load_dict` | 797-799 | `Keys.loadDict` |
| `KEYS.load_jwks` | 801-827 | `Keys.loadJwks` |
| `KEYS.dump_jwks` | 829-837 | `Keys.dumpJwks` |
| `KEYS.load_from_url` | 839-854 | `(field) httpGet` |
| `KEYS.__getitem__` | 856-864 | `Keys.getItem` |
| `KEYS.__iter__` | 866-868 | — inlined: the field `KEYS.keys` |
| `KEYS.__len__` | 870-871 | — inlined: the field `KEYS.keys` |
| `KEYS.keys` | 873-874 | — inlined: the field `KEYS.keys` |
| `KEYS.key_types` | 876-881 | `Keys.keyTypes` |
| `KEYS.__repr__` | 883-884 | — not modelled: text of `dump_jwks` |
| `KEYS.__str__` | 886-887 | — not modelled: text of `dump_jwks` |
| `KEYS.kids` | 889-890 | `Keys.kids` |
| `KEYS.by_kid` | 892-893 | `Keys.byKid` |
| `KEYS.wrap_add` | 895-896 | `Keys.wrapAdd` |
| `KEYS.as_dict` | 898-911 | `asDictKty`, `Keys.asDict` |
| `KEYS.add` | 913-914 | `Keys.add` |
| `KEYS.append` | 916-917 | `Keys.append` |
| `load_jwks_from_url` | 920-921 | — `Keys.loadJwks` on the empty container |
| `load_jwks` | 924-925 | — `Keys.loadJwks` on the empty container |
| `make_public_copy` | 928-941 | `makePublicCopy` |

## jws.py

| Python | lines | Lean definitions |
|---|---|---|
| `KDESC (table)` | 55-55 | — not modelled: not used by any function |
| `left_hash` | 81-88 | `leftHash` |
| `mpint` | 91-93 | `mpint` |
| `mp2bin` | 96-101 | `mp2bin` |
| `Signer.sign` | 107-109 | — not modelled: abstract |
| `Signer.verify` | 111-113 | — not modelled: abstract |
| `HMACSigner.__init__` | 117-118 | `SigAlg` |
| `HMACSigner.sign` | 120-122 | `SigAlg`, `SigAlg.sign` |
| `HMACSigner.verify` | 125-131 | `SigAlg`, `SigAlg.verify` |
| `RSASigner.__init__` | 135-136 | `SigAlg` |
| `RSASigner.sign` | 138-141 | `SigAlg`, `SigAlg.sign` |
| `RSASigner.verify` | 143-152 | `SigAlg`, `SigAlg.verify` |
| `DSASigner.__init__` | 156-158 | `SigAlg` |
| `DSASigner.sign` | 160-163 | `SigAlg`, `SigAlg.sign` |
| `DSASigner.verify` | 165-170 | `SigAlg`, `SigAlg.verify` |
| `PSSSigner.__init__` | 174-175 | `SigAlg` |
| `PSSSigner.sign` | 177-180 | `SigAlg`, `SigAlg.sign` |
| `PSSSigner.verify` | 182-189 | `SigAlg`, `SigAlg.verify` |
| `SIGNER_ALGS (table)` | 192-210 | `signerAlgs`, `esCurve`, `signerOf` |
| `alg2keytype` | 213-223 | `alg2keytype` |
| `JWSig.sign_input` | 227-228 | `Jwt.signInput` |
| `JWSig.signature` | 230-231 | — inlined: `j.part[2]?` |
| `JWSig.__len__` | 233-234 | — inlined: `j.part.length` |
| `JWSig.valid` | 236-240 | `Jwt.valid` |
| `JWx.__init__` | 271-297 | `Jwe.new`, `Jwe.newWithKey`, `jweSymNew`, `initStep`, `jwkParam`, `Jwx.initBody`, `Jws.newWithKey` |
| `JWx.__contains__` | 299-300 | — inlined: operations on the field `dict` |
| `JWx.__getitem__` | 302-303 | — inlined: operations on the field `dict` |
| `JWx.__setitem__` | 305-306 | — inlined: operations on the field `dict` |
| `JWx.__getattr__` | 308-312 | `attrOf`, `EcObj.decrypt`, `Jwx.algAttr` |
| `JWx.keys` | 314-315 | `Jwx.keyNames` |
| `JWx.headers` | 317-341 | `trueParams`, `jwkHeader`, `kidIsText`, `Jwe.headers` |
| `JWx._get_keys` | 343-360 | `Jwx.getKeys` |
| `JWx.alg2keytype` | 362-363 | — inlined: the key-type function is an argument of `pickKeys` |
| `JWx.pick_keys` | 365-420 | `ktyMatches`, `keysOfType`, `keyPasses`, `Jwx.wantedKid`, `Jwx.pickKeys` |
| `JWx._pick_alg` | 422-436 | `Jwx.pickAlg` |
| `JWx._decode` | 438-443 | `Jwx.decode` |
| `JWx.dump_header` | 445-446 | `Jwx.dumpHeader` |
| `JWS.alg_keys` | 450-475 | `Jwx.keySource`, `Jwx.algKeys`, `Jwx.protectedAfter` |
| `JWS.sign_compact` | 477-505 | `Jwx.signCompact`, `Jwx.protectedAfter` |
| `JWS.verify_compact` | 507-517 | `Jwx.verifyCompact` |
| `JWS.verify_compact_verbose` | 519-588 | `Jwx.keySource`, `verifyLoop`, `Jwt.headerAlg`, `Jwx.algConflict`, `Jwx.verifyVerbose`, `TCall`, `TPc`, `(field) `, `TCall.step`, `TSys`, `TSys.move` |
| `JWS.sign_json` | 590-631 | `split3`, `Jwx.createSignature`, `Jwx.headerList`, `Jwx.createAll`, `Jwx.signJson` |
| `JWS.verify_json` | 633-676 | `Jwx.reinit`, `pyUpdate`, `entryParts`, `Jwx.verifyEntry`, `Jwx.verifyEntries`, `signEntries`, `jsonParts`, `Jwx.verifyJson` |
| `JWS.is_jws` | 678-695 | `Jwx.isJws` |
| `JWS._is_json_serialized_jws` | 697-704 | `Jwx.isJws` |
| `JWS._is_compact_jws` | 706-727 | `Jwx.isCompactJws` |
| `factory` | 730-735 | `jwsFactory` |

## jwt.py

| Python | lines | Lean definitions |
|---|---|---|
| `split_token` | 14-18 | `splitToken`, `utilVerifyMsg` |
| `b2s_conv` | 21-31 | `jwencNew`, `b2sConv` |
| `b64encode_item` | 34-43 | `b64encodeItem` |
| `JWT.__init__` | 47-52 | `Jwt`, `Jwt.init` |
| `JWT.unpack` | 54-71 | `Jwt.unpack` |
| `JWT.pack` | 73-94 | `Jwt.pack` |
| `JWT.payload` | 96-108 | `Jwt.payload` |
