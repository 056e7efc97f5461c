import Verif.Real.Rsa
import Mathlib.FieldTheory.Finite.Basic
/-
The laws assumed of the RSA library hold of RSA as RFC 8017 defines it.
-/

namespace Verif.Real

/-! ### Numbers -/

theorem powModGo_eq (n : Nat) : ∀ (f b e acc : Nat), e < 2 ^ f → powModGo n f b e acc % n = acc * b ^ e % n
  | 0, b, e, acc, h => by
    have : e = 0 := by simpa using h
    simp [powModGo, this]
  | f + 1, b, e, acc, h => by
    have he : e / 2 < 2 ^ f := by rw [Nat.pow_succ] at h; omega
    simp only [powModGo, strictNat_eq]
    rw [powModGo_eq n f _ _ _ he, ← Nat.mul_mod_mod, ← Nat.pow_mod, Nat.mul_mod_mod]
    have hb : (b * b) ^ (e / 2) = b ^ (2 * (e / 2)) := by rw [pow_mul, pow_two]
    split
    · rename_i h1
      rw [Nat.mod_mul_mod, hb]
      congr 1
      conv_rhs => rw [show e = 2 * (e / 2) + 1 by omega]
      rw [pow_succ]
      ring
    · rename_i h1
      rw [hb]
      congr 2
      congr 1
      omega

/-- Square and multiply computes the power. -/
theorem powMod_eq (b e n : Nat) : powMod b e n = b ^ e % n := by
  unfold powMod
  rw [powModGo_eq n _ _ _ _ Nat.lt_log2_self, one_mul]

theorem lt_bitLen (n : Nat) : n < 2 ^ bitLen n := by
  unfold bitLen
  split
  · omega
  · exact Nat.lt_log2_self

theorem bitLen_le {n : Nat} (h : n ≠ 0) : 2 ^ (bitLen n - 1) ≤ n := by
  unfold bitLen
  rw [if_neg h]
  exact Nat.log2_self_le h

theorem lt_modLen {k : RsaKey} {x : Nat} (h : x < modulus k) : x < 256 ^ modLen k := by
  have h1 := lt_bitLen (modulus k)
  have h2 : 2 ^ bitLen (modulus k) ≤ 256 ^ modLen k := by
    rw [show (256 : Nat) = 2 ^ 8 by norm_num, ← pow_mul]
    apply Nat.pow_le_pow_right (by norm_num)
    unfold modLen
    omega
  omega

/-- Numbers one byte shorter than the modulus are below it. -/
theorem lt_modulus {k : RsaKey} {x : Nat} (hk : 0 < modLen k) (h : x < 256 ^ (modLen k - 1)) :
    x < modulus k := by
  have h0 : modulus k ≠ 0 := by
    intro h0
    unfold modLen at hk
    rw [h0] at hk
    simp [bitLen] at hk
  have h1 := bitLen_le h0
  have h2 : 256 ^ (modLen k - 1) ≤ 2 ^ (bitLen (modulus k) - 1) := by
    rw [show (256 : Nat) = 2 ^ 8 by norm_num, ← pow_mul]
    apply Nat.pow_le_pow_right (by norm_num)
    unfold modLen
    omega
  omega

theorem powMod_lt {b e n : Nat} (h : 0 < n) : powMod b e n < n := by
  rw [powMod_eq]; exact Nat.mod_lt _ h

/-- The integer and the octet string of the same length. -/
theorem os2ip_i2osp {k : RsaKey} {x : Nat} (h : x < modulus k) :
    bytesToNat (natToBytesW (modLen k) x) = x := by
  rw [bytesToNat_natToBytesW, Nat.mod_eq_of_lt (lt_modLen h)]

theorem pow_modEq_prime {p x t : Nat} (hp : p.Prime) (ht : 0 < t) (h : t % (p - 1) = 1 % (p - 1)) :
    x ^ t ≡ x [MOD p] := by
  have := Fact.mk hp
  rw [← ZMod.natCast_eq_natCast_iff]
  push_cast
  by_cases hx : (x : ZMod p) = 0
  · rw [hx, zero_pow (by omega)]
  · obtain ⟨s, hs⟩ : ∃ s, t = 1 + (p - 1) * s := by
      obtain ⟨s, hs⟩ := (Nat.modEq_iff_dvd' ht).mp (show 1 ≡ t [MOD p - 1] from h.symm)
      exact ⟨s, by omega⟩
    rw [hs, pow_add, pow_mul, ZMod.pow_card_sub_one_eq_one hx, one_pow, pow_one, mul_one]

/-- The RSA theorem: the private operation inverts the public one. -/
theorem rsa_inverse {e d p q x : Nat} (hp : p.Prime) (hq : q.Prime) (hne : p ≠ q)
    (h1 : e * d % (p - 1) = 1 % (p - 1)) (h2 : e * d % (q - 1) = 1 % (q - 1)) (hx : x < p * q) :
    (x ^ e % (p * q)) ^ d % (p * q) = x := by
  have hpos : 0 < e * d := by
    rcases Nat.eq_zero_or_pos (e * d) with h0 | h0
    · rw [h0] at h1 h2
      have hp2 := hp.two_le
      have hq2 := hq.two_le
      have : ∀ r, 2 ≤ r → 0 % (r - 1) = 1 % (r - 1) → r = 2 := by
        intro r hr h
        by_contra hne
        rw [Nat.zero_mod, Nat.mod_eq_of_lt (by omega)] at h
        omega
      exact absurd ((this p hp2 h1).trans (this q hq2 h2).symm) hne
    · exact h0
  rw [← Nat.pow_mod, ← pow_mul]
  have : x ^ (e * d) ≡ x [MOD p * q] :=
    (Nat.modEq_and_modEq_iff_modEq_mul ((Nat.coprime_primes hp hq).mpr hne)).mp
      ⟨pow_modEq_prime hp hpos h1, pow_modEq_prime hq hpos h2⟩
  rw [this, Nat.mod_eq_of_lt hx]

theorem rsaPriv_ok {k : RsaKey} {c m : Nat} (h : rsaPriv k c = .ok m) :
    c < modulus k ∧ m < modulus k ∧ powMod m k.e.toNat (modulus k) = c := by
  unfold rsaPriv at h
  split at h
  · rename_i hc
    split at h
    · simp at h
    · simp only at h
      split at h
      · rename_i hm
        obtain rfl := Except.ok.inj h
        exact ⟨hc, powMod_lt (by omega), hm⟩
      · simp at h
  · simp at h

theorem rsaPub_priv {k k' : RsaKey} {c m : Nat} (hs : k.SamePublic k') (h : rsaPriv k c = .ok m) :
    rsaPub k' m = .ok c := by
  obtain ⟨-, hm, hc⟩ := rsaPriv_ok h
  have hmod : modulus k' = modulus k := by unfold modulus; rw [hs.1]
  unfold rsaPub
  rw [hmod, hs.2, if_pos hm, hc]

theorem rsaPriv_pub {k k' : RsaKey} {c m : Nat} (ho : k.Owns k') (h : rsaPub k' m = .ok c) :
    rsaPriv k c = .ok m ∧ c < modulus k' := by
  obtain ⟨⟨e, d, p, q, he, hn, hpriv, hp, hq, hne, h1, h2⟩, hn', he'⟩ := ho
  have hmk : modulus k = p * q := by unfold modulus; rw [hn]; rfl
  have hmk' : modulus k' = p * q := by unfold modulus; rw [hn', hn]; rfl
  have hpq : 0 < p * q := Nat.mul_pos hp.pos hq.pos
  unfold rsaPub at h
  rw [hmk', he', he, Int.toNat_natCast] at h
  split at h
  · rename_i hm
    have hc := Except.ok.inj h
    rw [powMod_eq] at hc
    have hlt : c < p * q := by rw [← hc]; exact Nat.mod_lt _ hpq
    have hinv := rsa_inverse hp hq hne h1 h2 hm
    rw [hc] at hinv
    refine ⟨?_, by rw [hmk']; exact hlt⟩
    unfold rsaPriv
    rw [hmk, if_pos hlt, hpriv, he]
    simp only [Int.toNat_natCast, powMod_eq, hinv, hc, if_true]
  · simp at h

theorem modLen_same {k k' : RsaKey} (h : k.SamePublic k') : modLen k' = modLen k ∧ modulus k' = modulus k := by
  unfold modLen modulus
  rw [h.1]
  exact ⟨rfl, rfl⟩

/-! ### Signatures -/

theorem emsa15_length {len : Nat} {info em : Bytes} (h : emsa15 len info = .ok em) : em.length = len := by
  unfold emsa15 at h
  split at h
  · simp at h
  · obtain rfl := Except.ok.inj h
    simp only [List.length_cons, List.length_append, List.length_replicate]
    omega

theorem verify15_sign15 {a : HashAlg} {k k' : RsaKey} {m s : Bytes} (hs : k.SamePublic k')
    (h : sign15 a k m = .ok s) : verify15 a k' m s = true := by
  unfold sign15 at h
  simp only [Bind.bind] at h
  obtain ⟨em, h1, h2⟩ := bind_ok_iff.mp h
  obtain ⟨x, h3, h4⟩ := bind_ok_iff.mp h2
  obtain rfl := Except.ok.inj h4
  obtain ⟨hl, -⟩ := modLen_same hs
  unfold verify15
  rw [hl, os2ip_i2osp (rsaPriv_ok h3).2.1, rsaPub_priv hs h3]
  simp only [natToBytesW_length, natToBytesW_bytesToNat' (emsa15_length h1), h1, decide_true, Bool.true_or,
    Bool.and_true]

theorem mgf1_length (a : HashAlg) (seed : Bytes) (len : Nat) : (mgf1 a seed len).length = len := by
  have hpos : 0 < a.size := by cases a <;> decide
  have : ∀ (l : List Nat), (l.flatMap fun c => shaHash a (seed ++ natToBytesW 4 c)).length = l.length * a.size := by
    intro l
    induction l with
    | nil => simp
    | cons x l ih => rw [List.flatMap_cons, List.length_append, ih, shaHash_length, List.length_cons]; ring
  unfold mgf1
  rw [List.length_take, this, List.length_range]
  have h1 := Nat.div_add_mod len a.size
  have h2 := Nat.mod_lt len hpos
  have h3 : (len / a.size + 1) * a.size = a.size * (len / a.size) + a.size := by ring
  omega

theorem maskFirst_length (b : UInt8) (l : Bytes) : (maskFirst b l).length = l.length := by
  cases l <;> rfl

theorem maskFirst_twice (b : UInt8) (l : Bytes) : maskFirst b (maskFirst b l) = maskFirst b l := by
  cases l with
  | nil => rfl
  | cons x l => simp only [maskFirst, UInt8.and_assoc, UInt8.and_self]

theorem maskFirst_xor (b : UInt8) (l r : Bytes) (h : l.length ≤ r.length) (hl : maskFirst b l = l) :
    maskFirst b (xorBytes (maskFirst b (xorBytes l r)) r) = l := by
  cases l with
  | nil => rfl
  | cons x l =>
    cases r with
    | nil => simp at h
    | cons y r =>
      simp only [maskFirst, List.cons.injEq, and_true] at hl
      have hx : ((x ^^^ y) &&& b ^^^ y) &&& b = x := by
        conv_rhs => rw [← hl]
        apply UInt8.toBitVec_inj.mp
        simp only [UInt8.toBitVec_and, UInt8.toBitVec_xor]
        ext i hi
        simp only [BitVec.getElem_and, BitVec.getElem_xor]
        cases x.toBitVec[i] <;> cases y.toBitVec[i] <;> cases b.toBitVec[i] <;> rfl
      have ht := zipWith_xor_twice l r (by simpa using h)
      simp only [xorBytes, List.zipWith_cons_cons, maskFirst, List.cons.injEq]
      exact ⟨hx, ht⟩

theorem pssMask_odd (emBits : Nat) : 1 &&& pssMask emBits ((emBits + 7) / 8) = 1 := by
  unfold pssMask
  generalize hj : 8 - (8 * ((emBits + 7) / 8) - emBits) = j
  have h1 : 1 ≤ j := by omega
  have h2 : j ≤ 8 := by omega
  interval_cases j <;> decide

theorem pss_db_mask {emBits z : Nat} {salt : Bytes} :
    maskFirst (pssMask emBits ((emBits + 7) / 8)) (List.replicate z 0 ++ 1 :: salt) =
      List.replicate z 0 ++ 1 :: salt := by
  cases z with
  | zero => simp only [List.replicate_zero, List.nil_append, maskFirst, pssMask_odd]
  | succ z => simp only [List.replicate_succ, List.cons_append, maskFirst, UInt8.zero_and]

theorem emsaPss_length {a : HashAlg} {emBits rnd : Nat} {m em : Bytes} (h : emsaPss a emBits rnd m = .ok em) :
    em.length = (emBits + 7) / 8 := by
  unfold emsaPss at h
  simp only at h
  split at h
  · simp at h
  · obtain rfl := Except.ok.inj h
    simp only [List.length_append, maskFirst_length, xorBytes, List.length_zipWith, List.length_replicate,
      List.length_cons, mgf1_length, shaHash_length, rndBytes, natToBytesW_length, List.length_nil]
    omega

theorem emsaPssOk_encode {a : HashAlg} {emBits rnd : Nat} {m em : Bytes}
    (h : emsaPss a emBits rnd m = .ok em) : emsaPssOk a emBits m em = true := by
  unfold emsaPss at h
  simp only at h
  split at h
  · simp at h
  · rename_i hlen
    have hem := (Except.ok.inj h).symm
    clear h
    generalize hsalt : rndBytes a.size rnd = salt at hem
    have hsl : salt.length = a.size := by rw [← hsalt]; exact natToBytesW_length ..
    generalize hh : shaHash a (List.replicate 8 0 ++ shaHash a m ++ salt) = hv at hem
    have hhl : hv.length = a.size := by rw [← hh]; exact shaHash_length ..
    generalize hL : (emBits + 7) / 8 = L at *
    generalize hz : L - a.size - a.size - 2 = z at hem
    have hdbl : (List.replicate z 0 ++ 1 :: salt : Bytes).length = L - a.size - 1 := by
      simp only [List.length_append, List.length_replicate, List.length_cons, hsl]; omega
    have hmask : maskFirst (pssMask emBits L) (List.replicate z 0 ++ 1 :: salt) =
        List.replicate z 0 ++ 1 :: salt := by rw [← hL]; exact pss_db_mask
    have hml : (maskFirst (pssMask emBits L) (xorBytes (List.replicate z 0 ++ 1 :: salt)
        (mgf1 a hv (L - a.size - 1)))).length = L - a.size - 1 := by
      rw [maskFirst_length, xorBytes, List.length_zipWith, hdbl, mgf1_length, Nat.min_self]
    have htake : em.take (L - a.size - 1) = maskFirst (pssMask emBits L)
        (xorBytes (List.replicate z 0 ++ 1 :: salt) (mgf1 a hv (L - a.size - 1))) := by
      rw [hem, List.take_left' hml]
    have hdrop : (em.drop (L - a.size - 1)).take a.size = hv := by
      rw [hem, List.drop_left' hml, List.take_left' hhl]
    have hlast : em.getLast? = some 0xbc := by
      rw [hem, ← List.append_assoc, List.getLast?_concat]
    have hx := maskFirst_xor (pssMask emBits L) (List.replicate z 0 ++ 1 :: salt)
      (mgf1 a hv (L - a.size - 1)) (by rw [hdbl, mgf1_length]) hmask
    unfold emsaPssOk
    simp only [hL, htake, hdrop, hlast, hz, hx, maskFirst_twice]
    have ht : (List.replicate z 0 ++ 1 :: salt : Bytes).take (z + 1) = List.replicate z 0 ++ [1] := by
      rw [List.append_cons]
      exact List.take_left' (by simp)
    have hd : (List.replicate z 0 ++ 1 :: salt : Bytes).drop (z + 1) = salt := by
      rw [List.append_cons]
      exact List.drop_left' (by simp)
    rw [ht, hd, hh]
    simp only [decide_true, Bool.and_true, decide_eq_true_eq]
    omega

theorem verifyPss_signPss {a : HashAlg} {k k' : RsaKey} {rnd : Nat} {m s : Bytes} (hs : k.SamePublic k')
    (h : signPss a k rnd m = .ok s) : verifyPss a k' m s = true := by
  unfold signPss at h
  simp only [Bind.bind] at h
  obtain ⟨em, h1, h2⟩ := bind_ok_iff.mp h
  obtain ⟨x, h3, h4⟩ := bind_ok_iff.mp h2
  obtain rfl := Except.ok.inj h4
  obtain ⟨hl, hmod⟩ := modLen_same hs
  unfold verifyPss
  rw [hl, os2ip_i2osp (rsaPriv_ok h3).2.1, rsaPub_priv hs h3]
  have hlen := emsaPss_length h1
  have hlt := bytesToNat_lt em
  rw [hlen] at hlt
  simp only [natToBytesW_length, hmod, natToBytesW_bytesToNat' hlen, emsaPssOk_encode h1, hlt, decide_true,
    Bool.and_true]

/-! ### Encryption -/

theorem nonzeroBytes_length : ∀ (n r : Nat), (nonzeroBytes n r).length = n
  | 0, _ => rfl
  | n + 1, r => by rw [nonzeroBytes, List.length_cons, nonzeroBytes_length n]

theorem splitZero_nonzero (m : Bytes) : ∀ (n r : Nat), splitZero (nonzeroBytes n r ++ 0 :: m) = some (n, m)
  | 0, _ => rfl
  | n + 1, r => by
    have h0 : UInt8.ofNat (r % 255 + 1) ≠ 0 := by
      intro h
      have h1 := congrArg UInt8.toNat h
      rw [UInt8.toNat_ofNat'] at h1
      have h2 := Nat.mod_lt r (show 0 < 255 by norm_num)
      have h3 : (0 : UInt8).toNat = 0 := rfl
      rw [h3, Nat.mod_eq_of_lt (by omega)] at h1
      omega
    rw [nonzeroBytes, List.cons_append, splitZero, if_neg h0, splitZero_nonzero m n]
    rfl

theorem dec15_enc15 {k k' : RsaKey} {rnd : Nat} {m c : Bytes} (ho : k.Owns k')
    (h : enc15 k' rnd m = .ok c) : dec15 k c = .ok (some m) := by
  unfold enc15 at h
  split at h
  · simp at h
  · rename_i hl
    simp only [Bind.bind] at h
    obtain ⟨x, h1, h2⟩ := bind_ok_iff.mp h
    obtain rfl := Except.ok.inj h2
    obtain ⟨hp, hx⟩ := rsaPriv_pub ho h1
    obtain ⟨hm, -⟩ := modLen_same ho.2
    have hemlen : (0 :: 2 :: (nonzeroBytes (modLen k' - m.length - 3) rnd ++ 0 :: m) : Bytes).length = modLen k := by
      simp only [List.length_cons, List.length_append, nonzeroBytes_length]
      omega
    unfold dec15
    rw [if_neg (by rw [natToBytesW_length]; omega), os2ip_i2osp hx, hp]
    simp only [Bind.bind, Except.bind, natToBytesW_bytesToNat' hemlen, splitZero_nonzero]
    rw [if_pos (by omega)]

theorem afterOne_zeros (m : Bytes) : ∀ n, afterOne (List.replicate n 0 ++ 1 :: m) = some m
  | 0 => rfl
  | n + 1 => by
    rw [List.replicate_succ, List.cons_append, afterOne, if_neg (by decide), if_pos rfl, afterOne_zeros m n]

theorem emeOaep_ok {a : HashAlg} {len rnd : Nat} {m em : Bytes} (h : emeOaep a len rnd m = .ok em) :
    em.length = len ∧ a.size + 2 ≤ len ∧ oaepDecode a len em = .ok m := by
  unfold emeOaep at h
  split at h
  · simp at h
  · rename_i hl
    simp only at h
    generalize hseed : rndBytes a.size rnd = seed at h
    have hsl : seed.length = a.size := by rw [← hseed]; exact natToBytesW_length ..
    generalize hz : len - m.length - 2 * a.size - 2 = z at h
    generalize hdb : shaHash a [] ++ (List.replicate z 0 ++ 1 :: m) = db at h
    have hdl : db.length = len - a.size - 1 := by
      rw [← hdb]
      simp only [List.length_append, List.length_cons, List.length_replicate, shaHash_length]
      omega
    generalize hmd : xorBytes db (mgf1 a seed (len - a.size - 1)) = md at h
    have hmdl : md.length = len - a.size - 1 := by
      rw [← hmd, xorBytes, List.length_zipWith, hdl, mgf1_length, Nat.min_self]
    have hmsl : (xorBytes seed (mgf1 a md a.size)).length = a.size := by
      rw [xorBytes, List.length_zipWith, hsl, mgf1_length, Nat.min_self]
    obtain rfl := Except.ok.inj h
    refine ⟨?_, by omega, ?_⟩
    · rw [List.length_cons, List.length_append, hmsl, hmdl]; omega
    · have h1 : xorBytes (xorBytes seed (mgf1 a md a.size)) (mgf1 a md a.size) = seed :=
        zipWith_xor_twice _ _ (by rw [hsl, mgf1_length])
      have h2 : xorBytes md (mgf1 a seed (len - a.size - 1)) = db := by
        rw [← hmd]
        exact zipWith_xor_twice _ _ (by rw [hdl, mgf1_length])
      simp only [oaepDecode, List.take_left' hmsl, List.drop_left' hmsl, h1, h2]
      rw [← hdb, List.take_left' (shaHash_length a []), if_pos rfl, List.drop_left' (shaHash_length a []),
        afterOne_zeros]

theorem decOaep_encOaep {a : HashAlg} {k k' : RsaKey} {rnd : Nat} {m c : Bytes} (ho : k.Owns k')
    (h : encOaep a k' rnd m = .ok c) : decOaep a k c = .ok m := by
  unfold encOaep at h
  simp only [Bind.bind] at h
  obtain ⟨em, h1, h2⟩ := bind_ok_iff.mp h
  obtain ⟨x, h3, h4⟩ := bind_ok_iff.mp h2
  obtain rfl := Except.ok.inj h4
  obtain ⟨hp, hx⟩ := rsaPriv_pub ho h3
  obtain ⟨hm, -⟩ := modLen_same ho.2
  obtain ⟨hlen, h5, h6⟩ := emeOaep_ok h1
  rw [hm] at hlen h5 h6
  unfold decOaep
  rw [if_neg (by rw [natToBytesW_length]; omega), os2ip_i2osp hx, hp]
  simp only [Bind.bind, Except.bind, natToBytesW_bytesToNat' hlen, h6]

/-! ### Encryption succeeds with a key that is long enough -/

theorem bytesToNat_zero_cons (l : Bytes) : bytesToNat (0 :: l) < 256 ^ l.length := by
  have h : bytesToNat (0 :: l) = bytesToNat l := by
    rw [show (0 :: l : Bytes) = [0] ++ l from rfl, bytesToNat_append]
    have : bytesToNat [0] = 0 := rfl
    rw [this, Nat.zero_mul, Nat.zero_add]
  rw [h]
  exact bytesToNat_lt l

theorem rsaPub_short {k : RsaKey} {l : Bytes} (h : l.length + 1 = modLen k) :
    ∃ c, rsaPub k (bytesToNat (0 :: l)) = .ok c := by
  have h1 := bytesToNat_zero_cons l
  have h2 : bytesToNat (0 :: l) < modulus k :=
    lt_modulus (by omega) (by rwa [← h, Nat.add_sub_cancel])
  exact ⟨_, if_pos h2⟩

theorem enc15_total {k : RsaKey} {m : Bytes} (h : m.length + 11 ≤ modLen k) (rnd : Nat) :
    ∃ c, enc15 k rnd m = .ok c := by
  obtain ⟨c, hc⟩ := rsaPub_short (k := k) (l := 2 :: (nonzeroBytes (modLen k - m.length - 3) rnd ++ 0 :: m)) (by
    simp only [List.length_cons, List.length_append, nonzeroBytes_length]
    omega)
  refine ⟨natToBytesW (modLen k) c, ?_⟩
  unfold enc15
  rw [if_neg (by omega)]
  simp only [Bind.bind, Except.bind, hc]

theorem encOaep_total {a : HashAlg} {k : RsaKey} {m : Bytes} (h : m.length + 2 * a.size + 2 ≤ modLen k)
    (rnd : Nat) : ∃ c, encOaep a k rnd m = .ok c := by
  have hem : ∃ l, emeOaep a (modLen k) rnd m = .ok (0 :: l) := by
    unfold emeOaep
    rw [if_neg (by omega)]
    exact ⟨_, rfl⟩
  obtain ⟨l, hl⟩ := hem
  obtain ⟨hlen, -⟩ := emeOaep_ok hl
  obtain ⟨c, hc⟩ := rsaPub_short (k := k) (l := l) hlen
  refine ⟨natToBytesW (modLen k) c, ?_⟩
  unfold encOaep
  simp only [Bind.bind, Except.bind, hl, hc]

/-! ### Key construction -/

/-- What `RSA.construct` makes of five numbers is a consistent key. -/
theorem privateOk_consistent {n e d p q : Int} (h : privateOk n e d p q = true) :
    RsaKey.Consistent ⟨n, e, some (d, p, q)⟩ := by
  simp only [privateOk, publicOk, Bool.and_eq_true, decide_eq_true_eq] at h
  obtain ⟨⟨⟨⟨⟨⟨⟨⟨⟨⟨⟨⟨⟨he, -⟩, -⟩, -⟩, hd⟩, -⟩, -⟩, hp0⟩, hq0⟩, hn⟩, hp⟩, hq⟩, hne⟩, hl⟩ := h
  obtain ⟨e, rfl⟩ := Int.eq_ofNat_of_zero_le (show 0 ≤ e by omega)
  obtain ⟨d, rfl⟩ := Int.eq_ofNat_of_zero_le (show 0 ≤ d by omega)
  obtain ⟨p, rfl⟩ := Int.eq_ofNat_of_zero_le (show 0 ≤ p by omega)
  obtain ⟨q, rfl⟩ := Int.eq_ofNat_of_zero_le (show 0 ≤ q by omega)
  simp only [Int.toNat_natCast] at hp hq
  have hone : ∀ r : Nat, 0 < r → ((r : Int) - 1) ∣ (Int.lcm ((p : Int) - 1) ((q : Int) - 1) : Int) →
      e * d % (r - 1) = 1 % (r - 1) := by
    intro r hr hdvd
    have h1 : (1 : Int) ≡ (e : Int) * d [ZMOD (Int.lcm ((p : Int) - 1) ((q : Int) - 1) : Int)] := by
      have := Int.mod_modEq ((e : Int) * d) (Int.lcm ((p : Int) - 1) ((q : Int) - 1) : Int)
      rwa [hl] at this
    have h2 := h1.of_dvd hdvd
    have h3 : ((r : Int) - 1) = ((r - 1 : Nat) : Int) := by omega
    rw [h3] at h2
    have h4 : 1 ≡ e * d [MOD r - 1] := by
      rw [← Int.natCast_modEq_iff]
      push_cast
      exact h2
    exact h4.symm
  refine ⟨e, d, p, q, rfl, ?_, rfl, hp, hq, ?_, hone p hp.pos (Int.dvd_lcm_left ..),
    hone q hq.pos (Int.dvd_lcm_right ..)⟩
  · simp only [← hn, Nat.cast_mul]
  · rintro rfl; exact hne rfl

theorem construct_cases {l : List Int} {k : RsaKey} (h : construct l = .ok k) :
    (∃ n e, l = [n, e] ∧ publicOk n e = true ∧ k = ⟨n, e, none⟩) ∨
    ∃ n e d p q, (∃ r, l = n :: e :: d :: r) ∧ privateOk n e d p q = true ∧ k = ⟨n, e, some (d, p, q)⟩ := by
  unfold construct at h
  split at h
  · split at h
    · rename_i n e hp
      exact .inl ⟨_, _, rfl, hp, (Except.ok.inj h).symm⟩
    · simp at h
  · split at h
    · rename_i n e d p q hp
      exact .inr ⟨_, _, _, _, _, ⟨_, rfl⟩, hp, (Except.ok.inj h).symm⟩
    · simp at h
  · simp only at h
    split at h
    · rename_i hp
      exact .inr ⟨_, _, _, _, _, ⟨_, rfl⟩, hp, (Except.ok.inj h).symm⟩
    · simp at h
  · simp at h

theorem ite_valueError {b : Bool} {k : RsaKey} {e : Exc}
    (h : (if b = true then Except.ok k else .error .valueError) = .error e) : e = .valueError := by
  cases b
  · exact (Except.error.inj h).symm
  · simp at h

theorem construct_valueError {l : List Int} {e : Exc} (h : construct l = .error e) : e = .valueError := by
  unfold construct at h
  split at h
  · exact ite_valueError h
  · exact ite_valueError h
  · exact ite_valueError h
  · exact (Except.error.inj h).symm

/-- RSA satisfies the laws assumed of the library. -/
theorem rsa_lawful (fromCert : Bytes → PyM RsaKey) : (rsa fromCert).Lawful where
  pkcs1_sig a k k' m s hs h := congrArg Except.ok (verify15_sign15 (k := k) (k' := k') hs h)
  pss_sig a k k' r m s hs h := congrArg Except.ok (verifyPss_signPss (k := k) (k' := k') hs h)
  pkcs1_enc k k' r m c ho h := dec15_enc15 ho h
  oaep_enc a k k' r m c ho h := decOaep_encOaep ho h
  construct_ne n e k h := by
    have h' : construct [n, e] = .ok k := h
    rcases construct_cases h' with ⟨n', e', hl, -, rfl⟩ | ⟨n', e', d, p, q, ⟨r, hl⟩, -, rfl⟩
    · simp only [List.cons.injEq, and_true] at hl
      exact ⟨hl.1.symm, hl.2.symm, rfl⟩
    · simp at hl
  construct_nedpq n e d p q k h := by
    have h' : (if privateOk n e d p q = true then Except.ok (⟨n, e, some (d, p, q)⟩ : RsaKey)
      else Except.error Exc.valueError) = .ok k := h
    split at h'
    · rw [← Except.ok.inj h']; exact ⟨rfl, rfl, rfl⟩
    · simp at h'
  construct_error l e h := construct_valueError h

end Verif.Real
