def note(py, text, *names):
    for n in names: notes[(py, n)] = text
UN = "not modelled: not called by anything in the package"
note("PBKDF2.py", "not modelled: only reachable with a constructed object, and construction always raises (C67)",
     "strxor", "PBKDF2._pseudorandom", "PBKDF2.read", "PBKDF2.__f", "PBKDF2.hexread", "PBKDF2.close")
note("PBKDF2.py", "not modelled: test code", "test_pbkdf2")
note("__init__.py", "not modelled: not used by any function", "JWT_TYPES (table)", "JWT_CLAIMS (table)", "JWT_HEADERS (table)")
note("aes_key_wrap.py", "not modelled: test code", "test")
note("curves.py", UN, "implemented_keys")
note("jwe.py", "inlined: the flag is the argument `withDigest`", "Encrypter.__init__")
note("jwe.py", "not modelled: abstract", "Encrypter.encrypt", "Encrypter.decrypt")
note("jwe.py", UN, "cipher_filter", "aes_enc", "aes_dec", "keysize", "ENC2ALG (table)",
     "JWEnc.b64_encrypted_key", "JWEnc.b64_initialization_vector", "JWEnc.b64_ciphertext", "JWEnc.b64_authentication_tag", "JWEnc.protected_header")
note("jwe.py", "inlined: `Jwt.partAt` with the index", "JWEnc.encrypted_key", "JWEnc.initialization_vector", "JWEnc.ciphertext", "JWEnc.authentication_tag")
note("jwe.py", "inlined: `j.part.length`", "JWEnc.__len__")
note("jwe.py", "inlined: `jweAlg2keytype` is passed to `pickKeys`", "JWe.alg2keytype")
note("jwk.py", UN, "dicthash", "rsa_eq")
note("jwk.py", "library: `Hashes.hash`", "sha256_digest", "sha384_digest", "sha512_digest")
note("jwk.py", "not modelled: reads a file or PEM text through the RSA library; the result enters the model as an `RsaKey`",
     "import_rsa_key_from_file", "import_rsa_key", "rsa_load", "RSAKey.load")
note("jwk.py", "not modelled: text of `to_dict`", "Key.__str__")
note("jwk.py", "not modelled: does nothing", "Key.deserialize")
note("jws.py", "not modelled: not used by any function", "KDESC (table)")
note("jws.py", UN, "JWSig.valid", "JWx._decode", "JWx.dump_header", "JWx.keys")
note("jws.py", "not modelled: abstract", "Signer.sign", "Signer.verify")
note("jws.py", "inlined: `j.part[2]?`", "JWSig.signature")
note("jws.py", "inlined: `j.part.length`", "JWSig.__len__")
note("jws.py", "inlined: operations on the field `dict`", "JWx.__contains__", "JWx.__getitem__", "JWx.__setitem__")
note("jws.py", "inlined: the key-type function is an argument of `pickKeys`", "JWx.alg2keytype")
note("jwk.py", "inlined: the field `KEYS.keys`", "KEYS.__iter__", "KEYS.__len__", "KEYS.keys")
note("jwk.py", "not modelled: text of `dump_jwks`", "KEYS.__repr__", "KEYS.__str__")
note("jwk.py", "not modelled: only called for a key that is neither a `SYMKey` nor bytes, which `JWE.encrypt` never passes", "intarr2str")
note("jwk.py", "the keys of `Key.toDict`", "Key.keys")
note("jwk.py", "`rsaLoadKey`; inlined in `jwkWrap` (`rsaSplit` with the key set)", "RSAKey.load_key")
note("jwk.py", "`Key.getKey`", "ECKey.get_key", "ECKey.decryption_key")
note("jwk.py", "`Keys.loadJwks` on the empty container", "load_jwks", "load_jwks_from_url")
