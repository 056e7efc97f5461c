import Verif.Py.Crypto
/-
Specifications for the content-encryption and key-derivation helpers.
-/

namespace Verif.Spec

/-- RFC 7518 section 5.2.2.1: the MAC input `A || IV || E || AL`, `AL` the bit length of `A` as a
64-bit big-endian integer. -/
def macInput (aad iv ct : Bytes) : Bytes := aad ++ iv ++ ct ++ natToBytesW 8 (8 * aad.length)

/-- RFC 7518 section 5.2: (key length, MAC key length = tag length, hash). -/
def cbcHmacParams : List (Nat × Nat × HashAlg) :=
  [(32, 16, .sha256), (48, 24, .sha384), (64, 32, .sha512)]

/-- NIST SP 800-56A concatenation KDF: the first `m` hash blocks, counters from 1. -/
def kdfStream (h : Bytes → Bytes) (secret info : Bytes) (m : Nat) : Bytes :=
  (List.range m).flatMap fun i => h (natToBytesW 4 (i + 1) ++ secret ++ info)

/-- The algorithm names the library passes to `ecdh_derive_key`: the `enc` names (`jwe.py:90-97`,
direct agreement) and the key-wrap names (`jwe.py:634-641`). -/
def kdfNames : List Bytes :=
  ["A128GCM", "A192GCM", "A256GCM", "A128CBC-HS256", "A192CBC-HS384", "A256CBC-HS512",
   "A128KW", "A192KW", "A256KW"].map ascii

end Verif.Spec
