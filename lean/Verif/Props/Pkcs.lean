import Verif.Props.JwsOutbound
import Verif.Spec.Der
/-
C135, C136: the encodings of PKCS #1 stated without the definitions that compute them.
-/

namespace Verif

namespace Spec

/-- The object identifier of a digest (RFC 8017, appendix B.1). -/
def hashOid : HashAlg → List Nat
  | .sha1 => [1, 3, 14, 3, 2, 26]
  | .sha256 => [2, 16, 840, 1, 101, 3, 4, 2, 1]
  | .sha384 => [2, 16, 840, 1, 101, 3, 4, 2, 2]
  | .sha512 => [2, 16, 840, 1, 101, 3, 4, 2, 3]

/-- One arc of an object identifier, below 16384 (X.690, 8.19.2). -/
def oidArc (n : Nat) : Bytes := if n < 128 then [UInt8.ofNat n] else [UInt8.ofNat (128 + n / 128), UInt8.ofNat (n % 128)]

/-- The content octets of an object identifier (X.690, 8.19.4). -/
def oidBytes : List Nat → Bytes
  | a :: b :: l => (oidArc (40 * a + b)) ++ l.flatMap oidArc
  | _ => []

/-- DigestInfo (RFC 8017 section 9.2) with the parameters `par` of the algorithm. -/
def DigestInfo (h : HashAlg) (par : List Bytes) (digest info : Bytes) : Prop :=
  ∃ oid alg oct, Tlv 0x06 (oidBytes (hashOid h)) oid ∧ DerSeq (oid :: par) alg ∧ Tlv 0x04 digest oct ∧ DerSeq [alg, oct] info

/-- Byte `i` of MGF1 (RFC 8017, appendix B.2.1). -/
def mgfByte (h : HashAlg) (seed : Bytes) (i : Nat) : UInt8 :=
  (Real.shaHash h (seed ++ natToBytesW 4 (i / h.size))).getD (i % h.size) 0

/-- Byte `i` of the data block of EMSA-PSS: zeros, a one, the salt; `z` zeros. -/
def pssDb (z : Nat) (salt : Bytes) (i : Nat) : UInt8 := if i < z then 0 else if i = z then 1 else salt.getD (i - z - 1) 0

/-- EMSA-PSS (RFC 8017 section 9.1.1) byte by byte, the salt as long as the digest. -/
def PssBlock (h : HashAlg) (emBits : Nat) (input em : Bytes) : Prop :=
  em.length = (emBits + 7) / 8 ∧ 2 * h.size + 2 ≤ em.length ∧
  ∃ salt H : Bytes, salt.length = h.size ∧ H = Real.shaHash h (List.replicate 8 0 ++ Real.shaHash h input ++ salt) ∧
    em.drop (em.length - h.size - 1) = H ++ [0xbc] ∧
    ∀ i < em.length - h.size - 1, (em.getD i 0).toNat = (pssDb (em.length - 2 * h.size - 2) salt i ^^^ mgfByte h H i).toNat %
      (if i = 0 then 2 ^ (8 - (8 * em.length - emBits)) else 256)

end Spec

open Spec

theorem derShort {n : Nat} (h : n < 128) : DerLength n [UInt8.ofNat n] := by
  have hn : (UInt8.ofNat n).toNat = n := by
    rw [UInt8.toNat_ofNat']
    omega
  have := DerLength.short (c := UInt8.ofNat n) (by rw [hn]; exact h)
  rwa [hn] at this

theorem tlvShort (t : UInt8) {c : Bytes} (h : c.length < 128) : Tlv t c (t :: UInt8.ofNat c.length :: c) :=
  ⟨_, derShort h, rfl⟩

theorem seqShort {items : List Bytes} {c : Bytes} (hc : items.flatten = c) (h : c.length < 128) (hi : ∀ i ∈ items, ∃ t c, Tlv t c i) :
    DerSeq items (0x30 :: UInt8.ofNat c.length :: c) := by
  subst hc
  exact ⟨tlvShort _ h, hi⟩

theorem digestInfo_of {h : HashAlg} {par : List Bytes} {d : Bytes} {n : Nat} (hd : d.length = n) (hn : n < 80) (hp : par = [[5, 0]] ∨ par = [])
    {oid alg : Bytes} (ho : oid = 0x06 :: UInt8.ofNat (oidBytes (hashOid h)).length :: oidBytes (hashOid h))
    (ha : alg = 0x30 :: UInt8.ofNat (oid ++ par.flatten).length :: (oid ++ par.flatten)) :
    DigestInfo h par d (0x30 :: UInt8.ofNat (alg.length + n + 2) :: (alg ++ 0x04 :: UInt8.ofNat n :: d)) := by
  have hol : (oidBytes (hashOid h)).length ≤ 9 := by cases h <;> decide
  have hpl : par.flatten.length ≤ 2 := by rcases hp with rfl | rfl <;> decide
  have h1 : Tlv 0x06 (oidBytes (hashOid h)) oid := by rw [ho]; exact tlvShort 0x06 (by omega)
  have hol' : oid.length ≤ 11 := by rw [ho]; simp only [List.length_cons]; omega
  have h2 : DerSeq (oid :: par) alg := by
    rw [ha]
    refine seqShort List.flatten_cons (by rw [List.length_append]; omega) ?_
    intro i hi
    rcases List.mem_cons.mp hi with rfl | hi
    · exact ⟨_, _, h1⟩
    · rcases hp with rfl | rfl
      · simp only [List.mem_singleton] at hi
        subst hi
        exact ⟨5, [], [0], derShort (n := 0) (by decide), rfl⟩
      · simp at hi
  have hal : alg.length ≤ 15 := by rw [ha]; simp only [List.length_cons, List.length_append]; omega
  have h3 : Tlv 0x04 d (0x04 :: UInt8.ofNat n :: d) := by rw [← hd]; exact tlvShort 0x04 (by omega)
  refine ⟨oid, alg, _, h1, h2, h3, ?_⟩
  have hl : (alg ++ 0x04 :: UInt8.ofNat n :: d).length = alg.length + n + 2 := by
    simp only [List.length_append, List.length_cons]; omega
  rw [← hl]
  refine seqShort (by simp) (by omega) ?_
  intro i hi
  simp only [List.mem_cons, List.not_mem_nil, or_false] at hi
  rcases hi with rfl | rfl
  · exact ⟨_, _, h2.1⟩
  · exact ⟨_, _, h3⟩

/-- **C135.** What is signed with RS* is the DER encoding of the DigestInfo; the verifier also takes the one without parameters. -/
theorem C135_digest_info (h : HashAlg) (input : Bytes) :
    DigestInfo h [[5, 0]] (Real.shaHash h input) (Real.digestPrefix h ++ Real.shaHash h input) ∧
    DigestInfo h [] (Real.shaHash h input) (Real.digestPrefixBare h ++ Real.shaHash h input) := by
  have hl := Real.shaHash_length h input
  generalize Real.shaHash h input = d at *
  have h1 := digestInfo_of (h := h) (par := [[5, 0]]) hl (by cases h <;> decide) (.inl rfl) rfl rfl
  have h2 := digestInfo_of (h := h) (par := []) hl (by cases h <;> decide) (.inr rfl) rfl rfl
  cases h <;> exact ⟨h1, h2⟩

/-! ### EMSA-PSS -/

theorem flatMap_blocks {α : Type} {f : α → Bytes} {s : Nat} (hf : ∀ a, (f a).length = s) (hs : 0 < s) (l : List α) (i : Nat)
    (hi : i < l.length * s) : (l.flatMap f)[i]? = (l[i / s]?).bind fun a => (f a)[i % s]? := by
  induction l generalizing i with
  | nil => simp at hi
  | cons a l ih =>
    rw [List.flatMap_cons]
    by_cases h : i < s
    · rw [List.getElem?_append_left (by rw [hf]; exact h), Nat.div_eq_of_lt h, Nat.mod_eq_of_lt h]
      rfl
    · have h := Nat.le_of_not_lt h
      rw [List.getElem?_append_right (by rw [hf]; exact h), hf, ih (i - s) (by
        rw [List.length_cons, Nat.add_mul] at hi; omega)]
      obtain ⟨j, rfl⟩ := Nat.exists_eq_add_of_le h
      rw [Nat.add_sub_cancel_left, Nat.add_div_left _ hs, Nat.add_mod_left]
      rfl

theorem mgf1_getD (h : HashAlg) (seed : Bytes) {len i : Nat} (hi : i < len) : (Real.mgf1 h seed len).getD i 0 = mgfByte h seed i := by
  have hpos : 0 < h.size := by cases h <;> decide
  have hd : i / h.size < len / h.size + 1 := Nat.lt_succ_of_le (Nat.div_le_div_right (by omega))
  unfold Real.mgf1 mgfByte
  rw [List.getD_eq_getElem?_getD, List.getElem?_take_of_lt hi, flatMap_blocks (fun c => Real.shaHash_length h _) hpos _ _ ?_]
  · rw [List.getElem?_range hd, List.getD_eq_getElem?_getD]
    rfl
  · rw [List.length_range]
    have := Nat.div_add_mod i h.size
    have hm := Nat.mod_lt i hpos
    calc i = h.size * (i / h.size) + i % h.size := this.symm
      _ < h.size * (i / h.size) + h.size := by omega
      _ = (i / h.size + 1) * h.size := by ring
      _ ≤ (len / h.size + 1) * h.size := Nat.mul_le_mul_right _ (by omega)

theorem pssDb_getD (z : Nat) (salt : Bytes) (i : Nat) : (List.replicate z 0 ++ 1 :: salt).getD i 0 = pssDb z salt i := by
  unfold pssDb
  rw [List.getD_eq_getElem?_getD]
  split
  · rename_i h
    rw [List.getElem?_append_left (by simpa using h)]
    simp [h]
  · rename_i h
    rw [List.getElem?_append_right (by simpa using Nat.le_of_not_lt h), List.length_replicate]
    split
    · rename_i h2
      subst h2
      simp
    · rename_i h2
      obtain ⟨j, rfl⟩ := Nat.exists_eq_add_of_lt (show z < i by omega)
      rw [show z + j + 1 - z = j + 1 by omega, show j + 1 - 1 = j by omega, List.getElem?_cons_succ, List.getD_eq_getElem?_getD]

theorem xor_getD {a b : Bytes} {i : Nat} (ha : i < a.length) (hb : i < b.length) : (xorBytes a b).getD i 0 = a.getD i 0 ^^^ b.getD i 0 := by
  unfold xorBytes
  simp [List.getD_eq_getElem?_getD, ha, hb]

theorem mask_mod (x : UInt8) {k : Nat} (hk : k ≤ 8) : (x &&& UInt8.ofNat (2 ^ k - 1)).toNat = x.toNat % 2 ^ k := by
  rw [UInt8.toNat_and, UInt8.toNat_ofNat', Nat.mod_eq_of_lt, Nat.and_two_pow_sub_one_eq_mod]
  calc 2 ^ k - 1 < 2 ^ k := Nat.sub_lt (Nat.two_pow_pos k) (by decide)
    _ ≤ 2 ^ 8 := Nat.pow_le_pow_right (by decide) hk

theorem maskFirst_getD {l : Bytes} {emBits L i : Nat} (hi : i < l.length) :
    ((Real.maskFirst (Real.pssMask emBits L) l).getD i 0).toNat =
      (l.getD i 0).toNat % (if i = 0 then 2 ^ (8 - (8 * L - emBits)) else 256) := by
  cases l with
  | nil => simp at hi
  | cons x l =>
    cases i with
    | zero => exact mask_mod x (Nat.sub_le _ _)
    | succ i =>
      rw [if_neg (by omega)]
      simp only [Real.maskFirst, List.getD_cons_succ]
      exact (Nat.mod_eq_of_lt (UInt8.toNat_lt _)).symm

theorem emsaPss_block (h : HashAlg) (emBits : Nat) (input em : Bytes) :
    (∃ rnd, Real.emsaPss h emBits rnd input = .ok em) ↔ PssBlock h emBits input em := by
  have hval : ∀ (salt : Bytes) (L : Nat), salt.length = h.size → 2 * h.size + 2 ≤ L → ∀ i < L - h.size - 1,
      ((Real.maskFirst (Real.pssMask emBits L) (xorBytes (List.replicate (L - h.size - h.size - 2) 0 ++ 1 :: salt)
        (Real.mgf1 h (Real.shaHash h (List.replicate 8 0 ++ Real.shaHash h input ++ salt)) (L - h.size - 1)))).getD i 0).toNat =
      (pssDb (L - 2 * h.size - 2) salt i ^^^ mgfByte h (Real.shaHash h (List.replicate 8 0 ++ Real.shaHash h input ++ salt)) i).toNat %
        (if i = 0 then 2 ^ (8 - (8 * L - emBits)) else 256) := by
    intro salt L hs hL i hi
    have hdl : (List.replicate (L - h.size - h.size - 2) (0 : UInt8) ++ 1 :: salt).length = L - h.size - 1 := by
      rw [List.length_append, List.length_replicate, List.length_cons, hs]; omega
    rw [maskFirst_getD (by rw [xorBytes, List.length_zipWith, hdl, Real.mgf1_length]; omega),
      xor_getD (by rw [hdl]; exact hi) (by rw [Real.mgf1_length]; exact hi), pssDb_getD, mgf1_getD _ _ hi,
      show L - h.size - h.size - 2 = L - 2 * h.size - 2 by omega]
  constructor
  · rintro ⟨rnd, he⟩
    have hlen := Real.emsaPss_length he
    unfold Real.emsaPss at he
    simp only at he
    split at he
    · cases he
    rename_i hge
    have he := (Except.ok.inj he).symm
    refine ⟨hlen, by rw [hlen]; omega, Real.rndBytes h.size rnd, _, natToBytesW_length _ _, rfl, ?_⟩
    rw [hlen]
    generalize (emBits + 7) / 8 = L at *
    have hv := hval (Real.rndBytes h.size rnd) L (natToBytesW_length _ _) (by omega)
    generalize hX : Real.maskFirst (Real.pssMask emBits L) _ = X at he
    rw [hX] at hv
    have hXl : X.length = L - h.size - 1 := by
      have := congrArg List.length he
      rw [hlen, List.length_append, List.length_append, Real.shaHash_length] at this
      simp only [List.length_cons, List.length_nil] at this
      omega
    refine ⟨?_, ?_⟩
    · rw [he, List.drop_left' hXl]
    · intro i hi
      rw [← hv i hi, he]
      simp only [List.getD_eq_getElem?_getD]
      rw [List.getElem?_append_left (by omega)]
  · rintro ⟨hlen, hge, salt, H, hs, rfl, hd, hb⟩
    refine ⟨bytesToNat salt, ?_⟩
    rw [hlen] at hge hd hb
    have hsalt : Real.rndBytes h.size (bytesToNat salt) = salt := natToBytesW_bytesToNat' hs
    unfold Real.emsaPss
    simp only
    rw [if_neg (by omega), hsalt]
    generalize (emBits + 7) / 8 = L at *
    have hv := hval salt L hs hge
    have hXl : (Real.maskFirst (Real.pssMask emBits L) (xorBytes (List.replicate (L - h.size - h.size - 2) 0 ++ 1 :: salt)
        (Real.mgf1 h (Real.shaHash h (List.replicate 8 0 ++ Real.shaHash h input ++ salt)) (L - h.size - 1)))).length = L - h.size - 1 := by
      rw [Real.maskFirst_length, xorBytes, List.length_zipWith, Real.mgf1_length, List.length_append, List.length_replicate,
        List.length_cons, hs]
      omega
    generalize Real.maskFirst (Real.pssMask emBits L) _ = X at hv hXl ⊢
    rw [← hd]
    congr 1
    conv_rhs => rw [← List.take_append_drop (L - h.size - 1) em]
    congr 1
    refine List.ext_getElem (by rw [hXl, List.length_take, hlen]; omega) fun i h1 h2 => ?_
    have e1 := hv i (by omega)
    rw [← hb i (by omega)] at e1
    have e1 := UInt8.toNat_inj.mp e1
    rw [List.getD_eq_getElem?_getD, List.getD_eq_getElem?_getD, List.getElem?_eq_getElem h1,
      List.getElem?_eq_getElem (by rw [hlen]; omega)] at e1
    simpa using e1

/-- **C135.** PS*: the accepted signatures open to a block of EMSA-PSS. -/
theorem C135_pss_block (h : HashAlg) (r : RsaKey) (input sig : Bytes) :
    RfcPss h r input sig ↔ ∃ em, RsaOpensTo r sig em ∧ PssBlock h (Real.bitLen (Real.modulus r) - 1) input em := by
  unfold RfcPss
  constructor
  · rintro ⟨em, rnd, h1, h2⟩
    exact ⟨em, h1, (emsaPss_block _ _ _ _).mp ⟨rnd, h2⟩⟩
  · rintro ⟨em, h1, h2⟩
    obtain ⟨rnd, h2⟩ := (emsaPss_block _ _ _ _).mpr h2
    exact ⟨em, rnd, h1, h2⟩

/-- The prefix of SHA-256 as in RFC 8017. -/
example : oidBytes (hashOid .sha256) = [0x60, 0x86, 0x48, 0x01, 0x65, 0x03, 0x04, 0x02, 0x01] := by decide

/-- A block of 800 bits exists for every message. -/
example (input : Bytes) : ∃ em, PssBlock .sha256 800 input em := by
  have hok : ∃ em, Real.emsaPss .sha256 800 0 input = .ok em := by
    unfold Real.emsaPss
    simp only
    rw [if_neg (by decide)]
    exact ⟨_, rfl⟩
  obtain ⟨em, he⟩ := hok
  exact ⟨em, (emsaPss_block _ _ _ _).mp ⟨0, he⟩⟩

end Verif
