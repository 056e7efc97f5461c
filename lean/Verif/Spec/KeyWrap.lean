import Verif.Py.Crypto
/-
RFC 3394 section 2.2.1, the shift-register formulation (first form in the RFC), written from the
RFC and independent of the index-based code:

  For t = 1 to s, where s = 6n
      A[t] = MSB(64, AES(K, A[t-1] | R[t-1][1])) ^ t
      For i = 1 to n-1   R[t][i] = R[t-1][i+1]
      R[t][n] = LSB(64, AES(K, A[t-1] | R[t-1][1]))
-/

namespace Verif.Spec

/-- One step of the shift register; `A` is the 64-bit integer, `R` the registers. -/
def kwStep (C : BlockCipher) (kek : Bytes) : Nat × List Bytes → Nat → Nat × List Bytes
  | (a, []), _ => (a, [])
  | (a, r1 :: rest), t =>
      let b := C.enc kek (natToBytesW 8 a ++ r1)
      (bytesToNat (b.take 8) ^^^ t, rest ++ [b.drop 8])

/-- Split into 64-bit blocks. -/
def blocks8 (b : Bytes) : List Bytes :=
  if b.length < 8 then [] else b.take 8 :: blocks8 (b.drop 8)
termination_by b.length
decreasing_by simp; omega

/-- RFC 3394 key wrap of complete 64-bit blocks `P[1..n]` with initial value `iv`. -/
def rfc3394Wrap (C : BlockCipher) (kek : Bytes) (iv : Nat) (p : List Bytes) : Bytes :=
  let s := ((List.range (6 * p.length)).map (· + 1)).foldl (kwStep C kek) (iv, p)
  natToBytesW 8 s.1 ++ s.2.flatten

end Verif.Spec
