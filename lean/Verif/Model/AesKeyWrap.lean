import Verif.Py.Crypto
/-
Model of /repo/src/jwkest/aes_key_wrap.py.
-/

namespace Verif

/-- Body of the inner loop of `aes_wrap_key`, `aes_key_wrap.py:74-76`.  `st = (a, r[1:])`,
`ji = (j, i)` with `i` counted from 1 as in the code. -/
def wrapStep (C : BlockCipher) (kek : Bytes) (n : Nat) (st : Nat × List Bytes) (ji : Nat × Nat) :
    PyM (Nat × List Bytes) := do
  let q ← packQ st.1
  let b := C.enc kek (q ++ st.2.getD (ji.2 - 1) [])
  let m ← unpackQ (b.take 8)
  .ok (m ^^^ (n * ji.1 + ji.2), st.2.set (ji.2 - 1) (b.drop 8))

/-- Body of the inner loop of `aes_unwrap_key_and_iv`, `aes_key_wrap.py:41-44`. -/
def unwrapStep (C : BlockCipher) (kek : Bytes) (n : Nat) (st : Nat × List Bytes) (ji : Nat × Nat) :
    PyM (Nat × List Bytes) := do
  let q ← packQ (st.1 ^^^ (n * ji.1 + ji.2))
  let b := C.dec kek (q ++ st.2.getD (ji.2 - 1) [])
  let m ← unpackQ (b.take 8)
  .ok (m, st.2.set (ji.2 - 1) (b.drop 8))

/-- Iteration order of `aes_wrap_key`: `for j in range(6): for i in range(1, n + 1)`,
`aes_key_wrap.py:72-73`. -/
def wrapOrder (n : Nat) : List (Nat × Nat) :=
  [0, 1, 2, 3, 4, 5].flatMap fun j => (List.range n).map fun i => (j, i + 1)

/-- Iteration order of `aes_unwrap_key_and_iv`: `for j in range(5, -1, -1):
for i in range(n, 0, -1)`, `aes_key_wrap.py:39-40`. -/
def unwrapOrder (n : Nat) : List (Nat × Nat) :=
  [5, 4, 3, 2, 1, 0].flatMap fun j => (List.range n).reverse.map fun i => (j, i + 1)

/-- `0xa6a6a6a6a6a6a6a6`. -/
def defaultIV : Nat := 0xa6a6a6a6a6a6a6a6

/-- `aes_wrap_key(kek, plaintext, iv)`, `aes_key_wrap.py:67-77`. -/
def aesWrapKey (C : BlockCipher) (kek plaintext : Bytes) (iv : Nat := defaultIV) : PyM Bytes := do
  let n := plaintext.length / 8
  let r := (List.range n).map fun i => (plaintext.drop (i * 8)).take 8
  aesNew kek
  let st ← (wrapOrder n).foldlM (wrapStep C kek n) (iv, r)
  let q ← packQ st.1
  .ok (q ++ st.2.flatten)

/-- `aes_unwrap_key_and_iv(kek, wrapped)`, `aes_key_wrap.py:33-45`.  For fewer than 8 bytes the
slice `wrapped[:8]` is too short and `unpack` raises (`n` is then `-1` in the code, `0` here;
nothing observes the difference before the exception). -/
def aesUnwrapKeyAndIV (C : BlockCipher) (kek wrapped : Bytes) : PyM (Bytes × Nat) := do
  let n := wrapped.length / 8 - 1
  let r := (List.range n).map fun i => (wrapped.drop ((i + 1) * 8)).take 8
  let a ← unpackQ (wrapped.take 8)
  aesNew kek
  let st ← (unwrapOrder n).foldlM (unwrapStep C kek n) (a, r)
  .ok (st.2.flatten, st.1)

/-- `aes_unwrap_key(kek, wrapped, iv)`, `aes_key_wrap.py:48-54`. -/
def aesUnwrapKey (C : BlockCipher) (kek wrapped : Bytes) (iv : Nat := defaultIV) : PyM Bytes := do
  let (key, keyIV) ← aesUnwrapKeyAndIV C kek wrapped
  if keyIV ≠ iv then .error .valueError else .ok key

/-- `a + b` for texts and byte strings of Python 3. -/
def pyConcat : Bytes ⊕ String → Bytes ⊕ String → PyM (Bytes ⊕ String)
  | .inl a, .inl b => .ok (.inl (a ++ b))
  | .inr a, .inr b => .ok (.inr (a ++ b))
  | _, _ => .error .typeError

/-- `aes_wrap_key_withpad`, `aes_key_wrap.py:80-83`; the padding is a text. -/
def aesWrapKeyWithpad (C : BlockCipher) (kek plaintext : Bytes) : PyM Bytes := do
  let iv := 0xA65959A600000000 + plaintext.length
  let p ← pyConcat (.inl plaintext)
    (.inr (String.ofList (List.replicate (8 - plaintext.length % 8) (Char.ofNat 0))))
  match p with
  | .inl p => aesWrapKey C kek p iv
  | .inr _ => .error .typeError

/-- `"{0:016X}".format(v)` for a 64-bit `v`, as 16 hexadecimal digit values. -/
def hex16 (v : Nat) : List Nat := (List.range 16).map fun i => v / 16 ^ (15 - i) % 16

/-- `aes_unwrap_key_withpad`, `aes_key_wrap.py:57-64`. -/
def aesUnwrapKeyWithpad (C : BlockCipher) (kek wrapped : Bytes) : PyM Bytes := do
  let (key, keyIV) ← aesUnwrapKeyAndIV C kek wrapped
  if (hex16 keyIV).take 8 ≠ [10, 6, 5, 9, 5, 9, 10, 6] then .error .valueError
  else .ok (key.take (((hex16 keyIV).drop 8).foldl (fun acc d => acc * 16 + d) 0))

end Verif
