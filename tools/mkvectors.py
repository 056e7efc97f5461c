"""Write lean/Verif/Vectors.lean: the literals of /repo/tests, read as text, as kernel-checked examples.
With --eval, write all of them, including those too large for the kernel, as #eval lines to standard output."""
import ast
import sys

SRC = {}


def mod(f):
    if f not in SRC:
        SRC[f] = ast.parse(open(f"/repo/tests/{f}.py").read())
    return SRC[f]


def const(f, name, fn=None, nth=0):
    body = mod(f).body
    if fn:
        body = next(n for n in body if isinstance(n, ast.FunctionDef) and n.name == fn).body
    hits = [n for n in body if isinstance(n, ast.Assign) and ast.unparse(n.targets[0]) == name]
    env = {n.targets[0].id: n.value for n in mod(f).body if isinstance(n, ast.Assign)
           and isinstance(n.targets[0], ast.Name)}

    class Sub(ast.NodeTransformer):
        def visit_Name(self, n):
            return env[n.id]
    v = hits[nth].value
    if isinstance(v, ast.Call):      # intarr2long([...]) and the like
        v = v.args[0]
    return ast.literal_eval(Sub().visit(v))


def call(f, fn, func, nth=0):
    """Keyword arguments of the nth call of `func` in the test `fn`."""
    b = next(n for n in mod(f).body if isinstance(n, ast.FunctionDef) and n.name == fn)
    c = [n for n in ast.walk(b) if isinstance(n, ast.Call) and ast.unparse(n.func) == func][nth]
    return {k.arg: ast.literal_eval(k.value) for k in c.keywords}


def asserted(f, fn, nth):
    """The literal on the right of the nth `assert a == literal` in the test `fn`."""
    b = next(n for n in mod(f).body if isinstance(n, ast.FunctionDef) and n.name == fn)
    c = [n for n in ast.walk(b) if isinstance(n, ast.Assert) and isinstance(n.test, ast.Compare)]
    return ast.literal_eval(c[nth].test.comparators[0])


def s(x):
    return '"' + x.replace("\\", "\\\\").replace('"', '\\"').replace("\n", "\\n").replace("\r", "\\r") + '"'


def b(x):
    """Bytes as a list of numbers (the kernel converts string literals in quadratic time)."""
    return "[" + ", ".join(map(str, x)) + "]"


def v(x):
    if x is None:
        return ".none"
    if isinstance(x, bool):
        return f".bool {str(x).lower()}"
    if isinstance(x, int):
        return f".int {x}"
    if isinstance(x, str):
        return f".str {s(x)}"
    if isinstance(x, bytes):
        return f".bytes ({b(x)})"
    if isinstance(x, list):
        return ".list [" + ", ".join(v(y) for y in x) + "]"
    return f".dict {d(x)}"


def d(x):
    return "[" + ", ".join(f"({s(k)}, {v(y)})" for k, y in x.items()) + "]"


out = []


HEAVY = ("`test_thumbprint", "`test_jwe_09_a1`", "AES-GCM spec")


def ex(doc, prop):
    """An example; those in HEAVY cost the kernel minutes or gigabytes and are left to --eval."""
    out.append((doc, prop))


J2, J3, J4, EC = "test_2_jwk", "test_3_jws", "test_4_jwe", "test_ecc"
defs = []


def df(name, typ, val):
    defs.append(f"def {name} : {typ} :=\n  {val}")


# ---- encodings
ex("`test_a_1_1a`", f"b64e ({b(const(J3,'header','test_a_1_1a'))}) = {b(asserted(J3,'test_a_1_1a',0))}")
ex("`test_a_1_1b`", f"b64e ({b(const(J3,'payload','test_a_1_1b'))}) = {b(asserted(J3,'test_a_1_1b',0))}")
x64 = const("test_0_jwkest", "x64", "test_base64_long_base64")
ex("`test_base64_long_base64`", f"(base64ToLongBytes {b(x64.encode())}).bind (fun l => longToBase64 l) = .ok {s(x64)}")

# ---- signatures
df("rfcKey", "Bytes", b(const(J3, "HMAC_KEY")))
tok = const(J3, "_jwt", "test_a_1_3b")
claims = const(J3, "msg", "test_jws_1")
ex("`test_a_1_1c`: RFC 7515 A.1", f"Real.sha.hmac .sha256 rfcKey (b64e ({b(const(J3,'header','test_a_1_1c'))}) ++ [46] ++ b64e ({b(const(J3,'payload','test_a_1_1c'))})) = b64val {b(asserted(J3,'test_a_1_1c',0))}")
ex("`test_a_1_3b`: RFC 7515 A.1 is accepted with the key of the standard, and the claims are those of the standard.",
   f"(symKeyNew [] (.bytes rfcKey)).bind (fun k => (({{}} : Jwx).verifyCompact stdEnv {b(tok.encode())} [k] false .none).1) = .ok ({v(claims)})")
ex("The same token with the last character of the signature changed is refused.",
   f"(symKeyNew [] (.bytes rfcKey)).bind (fun k => (({{}} : Jwx).verifyCompact stdEnv {b((tok[:-1]+'g').encode())} [k] false .none).1) = .error .badSignature")
ex("`test_left_hash_hs256`", f"leftHash stdEnv.H \"Please take a moment to register today\" \"HS256\" = some ({v(asserted(J3,'test_left_hash_hs256',0))})")
ex("`test_left_hash_hs512`", f"leftHash stdEnv.H \"Please take a moment to register today\" \"HS512\" = some ({v(asserted(J3,'test_left_hash_hs512',0))})")

# ---- keys
df("jwks", "PyVal", v(const(J3, "JWKS")))
exp = const(J2, "EXPECTED")
ex("`test_keys`", "(Keys.loadDict stdEnv [] jwks).2.map Key.kty = [.str \"RSA\", .str \"oct\", .str \"EC\"]")
ex("`test_thumbprint`", "(Keys.loadDict stdEnv [] jwks).2.mapM (fun k => (k.thumbprint stdEnv \"SHA-256\").map b64e) = .ok [" + ", ".join(b(e) for e in exp) + "]")
kw = call(J2, "test_thumbprint_7638_example", "RSAKey")
ex("`test_thumbprint_7638_example`: RFC 7638 section 3.1",
   f"(rsaKeyNew stdEnv {d(kw)} (.val .none)).bind (fun k => (k.thumbprint stdEnv \"SHA-256\").map b64e) = .ok ({b(asserted(J2,'test_thumbprint_7638_example',0))})")
for i, alg in enumerate(["A128KW", "A192KW", "A256KW"]):
    kw = call(J2, "test_encryption_key", "SYMKey", i)
    ex(f"`test_encryption_key`, {alg}",
       f"(symKeyNew [] ({v(kw['key'])})).bind (fun k => k.encryptionKey stdEnv (.str {s(alg)}) true) = .ok (.obj (.val (.bytes (b64val {b(asserted(J2,'test_encryption_key',i).encode())}))))")
kw = call(J2, "test_encryption_key", "SYMKey", 3)
ex("`test_encryption_key`, a longer secret",
   f"(symKeyNew [] ({v(kw['key'])})).bind (fun k => k.encryptionKey stdEnv (.str \"A128KW\") true) = .ok (.obj (.val (.bytes (b64val {b(asserted(J2,'test_encryption_key',3).encode())}))))")
fn = "test_rsa_pubkey_verify_x509_thumbprint"
cert = const(J2, "cert", fn)
ex("`test_rsa_pubkey_verify_x509_thumbprint`: the thumbprint given there is that of the certificate",
   f"(a2bBase64 ({b(cert.encode())})).map (Real.sha.hash .sha1) = .ok (b64val {b(b'KvHXVspLmjWC6cPDIIVMHlJjN-c')})")

# ---- content encryption
fn = "test_jwe_09_a1"
cek, iv = const(J4, "cek", fn), const(J4, "iv", fn)
ba = ast.literal_eval(ast.unparse([n for n in ast.walk(next(n for n in mod(J4).body if getattr(n, 'name', '') == fn)) if isinstance(n, ast.Assign) and ast.unparse(n.targets[0]) == 'b64_ejek'][0].value))
ex("`test_jwe_09_a1`: AES-GCM", f"(Gcm.new stdEnv.C (bytesToNat {b(cek)})).bind (fun g => (g.encrypt stdEnv.C (bytesToNat {b(iv)}) ({b(const(J4,'msg',fn))}) (b64e ({b(const(J4,'header',fn))}) ++ [46] ++ {b(ba)})).1) = .ok ({b(asserted(J4,fn,1))}, bytesToNat {b(asserted(J4,fn,2))})")
fn = "test_jwe_09_a3"
cek, iv = const(J4, "cek", fn), const(J4, "iv", fn)
ex("`test_jwe_09_a3`: AES key wrap", f"aesWrapKey stdEnv.C {b(const(J4,'shared_key',fn))} {b(cek)} = .ok {b(asserted(J4,fn,1))}")
ex("`test_jwe_09_a3`: A128CBC-HS256", f"encSetup stdEnv exRnd (.str \"A128CBC-HS256\") (.bytes ({b(const(J4,'msg',fn))})) (b64e ({b(const(J4,'header',fn))})) {b(cek)} {b(iv)} = .ok ({b(asserted(J4,fn,5))}, {b(asserted(J4,fn,6))})")
hdr, jek, iv6, ct, tag = (asserted(J4, fn, i).decode() for i in (0, 2, 3, 7, 8))
tok = ".".join([hdr, jek, iv6, ct, tag])
ex("RFC 7516 A.3, put together from the segments in `test_jwe_09_a3`, with the key of the standard: the token is not\ndecrypted.  The library wraps with a digest of the secret (C68), not with the secret.",
   f"(symKeyNew [] (.bytes {b(const(J4,'shared_key',fn))})).bind (fun k => (Jwe.decrypt stdEnv {{}} exRnd {b(tok.encode())} [k]).1) = .error .valueError")
kerck = b"A cipher system must not be required to be secret, and it must be able to fall into the hands of the enemy without inconvenience"
kiv, kaad = list(bytes.fromhex("1af38c2dc2b96ffdd86694092341bc04")), b"The second principle of Auguste Kerckhoffs"
for n, nm, t in ((32, "A128CBC-HS256", "652c3fa36b0a7c5b3219fab3a30bc1c4"),
                 (48, "A192CBC-HS384", "8490ac0e58949bfe51875d733f93ac2075168039ccc733d7"),
                 (64, "A256CBC-HS512", "4dd3b4c088a7f45c216839645b2012bf2e6269a8c56a816dbc1b267761955bc5")):
    ex(f"RFC 7518 appendix B, {nm}: the tag",
       f"(encSetup stdEnv exRnd (.str \"{nm}\") (.bytes ({b(kerck)})) ({b(kaad)}) {b(list(range(n)))} {b(kiv)}).map Prod.snd = .ok {b(list(bytes.fromhex(t)))}")
ex("AES-GCM specification, test case 2",
   f"(Gcm.new stdEnv.C 0).bind (fun g => (g.encrypt stdEnv.C 0 {b([0]*16)} []).1) = .ok ({b(list(bytes.fromhex('0388dace60b6a392f328c2b971b2fe78')))}, 0xab6e47d42cec13bdf53a67b21257bddf)")

# ---- elliptic curves
def ecv(fn, bits, h, good):
    msg = None
    for nm in ("_sg", "_msg"):
        try:
            msg = bytes.fromhex(const(EC, nm, fn))
        except IndexError:
            pass
    if msg is None:
        msg = const(EC, "msg", fn)
    q = [const(EC, n, fn) for n in ("Qx", "Qy", "R", "S")]
    ex(f"`{fn}`", f"(nistCurve {bits}).bind (fun C => C.verify (bytesToNat (Real.sha.hash .{h} {b(list(msg))})) (C.int2bytes {q[2]} ++ C.int2bytes {q[3]}) (some ({q[0]}, {q[1]}))) = .ok {good}")


ecv("test_P256_verify_with_suite_B", 256, "sha256", "true")
ecv("test_P384_verify_with_suite_B", 384, "sha384", "true")
ecv("test_P521_verify_with_nist", 521, "sha512", "true")
ecv("test_P521_negative_verify_with_nist", 521, "sha512", "false")

import base64 as _b


def num(t):
    return int.from_bytes(_b.urlsafe_b64decode(t + "=="), "big")


# ---- standards
pay = "eyJpc3MiOiJqb2UiLA0KICJleHAiOjEzMDA4MTkzODAsDQogImh0dHA6Ly9leGFtcGxlLmNvbS9pc19yb290Ijp0cnVlfQ"
n2 = "ofgWCuLjybRlzo0tZWJjNiuSfb4p4fAkd_wWJcyQoTbji9k0l8W26mPddxHmfHQp-Vaw-4qPCJrcS2mJPMEzP1Pt0Bm4d4QlL-yRT-SFd2lZS-pCgNMsD1W_YpRPEwOWvG6b32690r2jZ47soMZo9wGzjb_7OMg0LOL-bSf63kpaSHSXndS5z5rexMdbBYUsLA9e-KXBdQOS-UTo7WTBEMa2R2CapHg665xsmtdVMTBQY4uDZlxvb3qCo5ZwKh9kG4LT6_I5IhlJH7aGhyxXFvUK-DWNmoudF8NAco9_h9iaGNj8q2ethFkMLs91kzk2PAcDTW9gb54h4FRWyuXpoQ"
s2 = "cC4hiUPoj9Eetdgtv3hF80EGrhuB__dzERat0XF9g2VtQgr9PJbu3XOiZj5RZmh7AAuHIm4Bh-0Qc_lF5YKt_O8W2Fp5jujGbds9uJdbF9CUAr7t1dnZcAcQjbKBYNX4BAynRFdiuB--f_nZLgrnbyTyWzO75vRK5h6xBArLIARNPvkSjtQBMHlb1L07Qe7K0GarZRmB_eSN9383LcOLn6_dO--xi12jzDwusC-eOkHWEsqtFZESc6BfI7noOPqvhJ1phCnvWh6IeYI2w9QOYEUipUTI8np6LbgGY9Fs98rqVt5AXLIhWkWywlVmtVrBp0igcN_IoypGlUPQGe77Rw"
jwk2 = {"kty": "RSA", "n": n2.encode(), "e": b"AQAB"}
ex("RFC 7515 A.2 (RS256): the token is accepted with the public key of the standard.",
   f"(keyrep stdEnv {d(jwk2)}).bind (fun k => (({{}} : Jwx).verifyCompact stdEnv {b(('eyJhbGciOiJSUzI1NiJ9.'+pay+'.'+s2).encode())} [k] false .none).1) = .ok ({v(claims)})")
jwk3 = {"kty": "EC", "crv": "P-256", "x": "f83OJ3D2xF1Bg8vub9tLe1gHMzV76e8Tus9uPHvRVEU", "y": "x_FEzRu9m36HLN_tue659LNpXW6pCyStikYjKIWI5a0"}
s3 = "DtEhU3ljbEg8L38VWAfUAqOyKAM6-Xx-F4GawxaepmXFCgfTjDxw5djxLa8ISlSApmWQxfKTUJqPP3-Kg6NU1Q"
ex("RFC 7515 A.3 (ES256): the token is accepted with the public key of the standard.",
   f"(keyrep stdEnv {d(jwk3)}).bind (fun k => (({{}} : Jwx).verifyCompact stdEnv {b(('eyJhbGciOiJFUzI1NiJ9.'+pay+'.'+s3).encode())} [k] false .none).1) = .ok ({v(claims)})")
z = [158, 86, 217, 29, 129, 113, 53, 211, 114, 131, 66, 131, 191, 132, 38, 156, 251, 49, 110, 163, 218, 128, 106, 72, 246, 218, 167, 121, 140, 254, 144, 196]
bob = (num("weNJy2HscCSM6AEDTDg04biOvhFhyyWvOHQfeF_PxMQ"), num("e8lnCO-AlStT-NJVX-crhB7QRYhiix03illJOVAOyck"))
da = num("0_NxaRPUMQoAJt50Gz8YiTr8gRTwyEaCumd-MToTmIo")
ex("RFC 7518 appendix C: the Diffie-Hellman secret",
   f"(nistCurve 256).bind (fun C => C.dhZ {da} (some {bob})) = .ok {b(z)}")
ex("RFC 7518 appendix C: the derived key is not that of the standard (C91).",
   f"(ecdhDeriveFromZ stdEnv.H {b(z)} (utf8Encode \"Alice\") (utf8Encode \"Bob\") (utf8Encode \"A128GCM\") 128).map b64e ≠ .ok (utf8Encode \"VqqN6vgjbSBcIijNcacQGg\")")
# the other info of the standard: AlgorithmID, PartyUInfo, PartyVInfo, SuppPubInfo
oi = b"".join(len(x).to_bytes(4, "big") + x for x in (b"A128GCM", b"Alice", b"Bob")) + (128).to_bytes(4, "big")
ex("RFC 7518 appendix C: with the other info of the standard, counting from 1, SHA-256 gives the key of the standard.",
   f"(b64e ((Real.sha.hash .sha256 ([0, 0, 0, 1] ++ {b(z)} ++ {b(list(oi))})).take 16)) = utf8Encode \"VqqN6vgjbSBcIijNcacQGg\"")

HEAD = """import Verif.Props.Real
import Verif.Props.JweSym
/-
Generated by tools/mkvectors.py.  The literal inputs and outputs of /repo/tests, evaluated by the kernel on the
model with the standard algorithms.  These are tests, not proofs: they compare the model with what the
authors of the code recorded of it.  `tools/mkvectors.py --eval` has four more, too large for the kernel.
-/

namespace Verif.Vectors
open Verif

/-- The bytes of a base64url text without padding. -/
def b64val (t : Bytes) : Bytes := ((b64d t).toOption).getD []
"""
if "--eval" in sys.argv:
    print(HEAD)
    for x in defs:
        print(x + "\n")
    for doc, p in out:
        print(f"/- {doc} -/\n#eval decide ({p})\n")
else:
    with open("/verif/lean/Verif/Vectors.lean", "w") as f:
        f.write(HEAD + "\n")
        for x in defs:
            f.write(x + "\n\n")
        for doc, p in out:
            if doc.startswith(HEAVY):
                continue
            f.write(f"/-- {doc} -/\nexample : {p} := by\n  decide +kernel\n\n")
        f.write("end Verif.Vectors\n")
