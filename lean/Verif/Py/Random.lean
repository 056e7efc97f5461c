import Verif.Py.Basic
/-
The module-level generator of Python's `random` (MT19937), which `ecc.py:17` imports `getrandbits` from.
Nothing here is repository code; it is the reading of CPython's `_randommodule.c`.
-/

namespace Verif

/-- The state: the last 624 words before tempering, oldest first.  (CPython computes 624 words at a time; the
words are the same.) -/
abbrev Mt := List (BitVec 32)

/-- The part of the recurrence that mixes two old words. -/
def mtTwist (u v : BitVec 32) : BitVec 32 :=
  let y := (u &&& 0x80000000#32) ||| (v &&& 0x7fffffff#32)
  (y >>> 1) ^^^ (if y.getLsbD 0 then 0x9908b0df#32 else 0#32)

/-- The output function. -/
def mtTemper (y : BitVec 32) : BitVec 32 :=
  let y := y ^^^ (y >>> 11)
  let y := y ^^^ ((y <<< 7) &&& 0x9d2c5680#32)
  let y := y ^^^ ((y <<< 15) &&& 0xefc60000#32)
  y ^^^ (y >>> 18)

/-- `genrand_uint32`. -/
def Mt.next (s : Mt) : BitVec 32 × Mt :=
  let w := s.getD 397 0 ^^^ mtTwist (s.getD 0 0) (s.getD 1 0)
  (mtTemper w, s.tail ++ [w])

/-- `random.getrandbits(k)` for `k > 0`: words from the least significant one. -/
def Mt.getrandbits (k : Nat) (s : Mt) : Nat × Mt :=
  if k ≤ 32 then (s.next.1.toNat >>> (32 - k), s.next.2)
  else
    let r := Mt.getrandbits (k - 32) s.next.2
    (s.next.1.toNat + 2 ^ 32 * r.1, r.2)
termination_by k

/-- The next `n` numbers `random.getrandbits(32)` returns, and the state afterwards. -/
def Mt.outputs : Nat → Mt → List Nat × Mt
  | 0, s => ([], s)
  | n + 1, s =>
    let r := s.getrandbits 32
    let l := Mt.outputs n r.2
    (r.1 :: l.1, l.2)

/-- The state after `init_genrand(seed)`. -/
def Mt.ofSeed (seed : BitVec 32) : Mt :=
  go 623 seed 1
where
  go : Nat → BitVec 32 → Nat → Mt
    | 0, x, _ => [x]
    | f + 1, x, i => x :: go f (1812433253#32 * (x ^^^ (x >>> 30)) + BitVec.ofNat 32 i) (i + 1)

end Verif
