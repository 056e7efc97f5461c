import Verif.Proofs.GcmData
/-
Properties C43 to C47: the GCM field arithmetic, AES-GCM encryption and decryption.
-/

namespace Verif
open Polynomial Spec

/-! ### C43 -/

/-- `gf_2_128_mul` returns, for all 128-bit arguments, the 128-bit number denoting the product of
the two polynomials modulo the GCM polynomial; for a larger argument an assertion fails. -/
theorem C43_gf_mul (x y : ℕ) :
    (x < 2 ^ 128 → y < 2 ^ 128 → ∃ r, gfMul x y = .ok r ∧ r < 2 ^ 128 ∧
      blockPoly r = (blockPoly x * blockPoly y) %ₘ gcmPoly) ∧
    (2 ^ 128 ≤ x ∨ 2 ^ 128 ≤ y → gfMul x y = .error .assertionError) := by
  refine ⟨gfMul_spec x y, ?_⟩
  intro h
  unfold gfMul
  by_cases hx : x < 2 ^ 128
  · rw [if_neg (not_not.mpr hx), if_pos (by omega)]
  · rw [if_pos hx]

/-- The representation is one to one: a 128-bit number is determined by its polynomial. -/
theorem C43_representation (a b : ℕ) (ha : a < 2 ^ 128) (hb : b < 2 ^ 128) :
    blockPoly a = blockPoly b ↔ a = b :=
  ⟨blockPoly_inj ha hb, fun h => by rw [h]⟩

/-- The multiplication is commutative. -/
theorem C43_comm (x y : ℕ) (hx : x < 2 ^ 128) (hy : y < 2 ^ 128) : gfMul x y = gfMul y x := by
  obtain ⟨r, h1, h2, h3⟩ := gfMul_spec x y hx hy
  obtain ⟨s, k1, k2, k3⟩ := gfMul_spec y x hy hx
  rw [h1, k1, blockPoly_inj h2 k2 (by rw [h3, k3, mul_comm])]

/-- The multiplication is associative. -/
theorem C43_assoc (x y z : ℕ) (hx : x < 2 ^ 128) (hy : y < 2 ^ 128) (hz : z < 2 ^ 128) :
    (gfMul x y >>= fun r => gfMul r z) = (gfMul y z >>= fun r => gfMul x r) := by
  obtain ⟨a1, a2, a3⟩ := gfMul_val x y hx hy
  obtain ⟨b1, b2, b3⟩ := gfMul_val y z hy hz
  obtain ⟨c1, c2, c3⟩ := gfMul_val (gfVal x y) z a2 hz
  obtain ⟨d1, d2, d3⟩ := gfMul_val x (gfVal y z) hx b2
  rw [a1, b1]
  show gfMul (gfVal x y) z = gfMul x (gfVal y z)
  rw [c1, d1]
  refine congrArg Except.ok ?_
  apply blockPoly_inj c2 d2
  have e : gfφ (blockPoly (gfVal (gfVal x y) z)) = gfφ (blockPoly (gfVal x (gfVal y z))) := by
    rw [c3, d3, a3, b3, mul_assoc]
  obtain ⟨r, f1, _, f3⟩ := gfMul_spec x (gfVal y z) hx b2
  rw [d1] at f1
  cases f1
  rw [f3, ← gfφ_iff, map_mul, ← d3]
  exact e

/-- The multiplication distributes over xor. -/
theorem C43_distrib (x y z : ℕ) (hx : x < 2 ^ 128) (hy : y < 2 ^ 128) (hz : z < 2 ^ 128) :
    ∃ a b, gfMul x y = .ok a ∧ gfMul x z = .ok b ∧ gfMul x (y ^^^ z) = .ok (a ^^^ b) := by
  obtain ⟨a, a1, a2, a3⟩ := gfMul_spec x y hx hy
  obtain ⟨b, b1, b2, b3⟩ := gfMul_spec x z hx hz
  obtain ⟨c, c1, c2, c3⟩ := gfMul_spec x (y ^^^ z) hx (Nat.xor_lt_two_pow hy hz)
  refine ⟨a, b, a1, b1, ?_⟩
  rw [c1]
  refine congrArg Except.ok ?_
  apply blockPoly_inj c2 (Nat.xor_lt_two_pow a2 b2)
  rw [c3, blockPoly_xor, blockPoly_xor, a3, b3, mul_add, add_modByMonic]

/-- The 8-bit tables compute the multiplication by the authentication key, for every key the
constructor accepts and every value. -/
theorem C43_table {C : BlockCipher} (hC : C.Lawful) (key : ℕ) (g : Gcm) (hg : Gcm.new C key = .ok g)
    (val : ℕ) : gfMul g.authKey (val % 2 ^ 128) = .ok (g.timesAuthKey val) := by
  have hv : g.Valid C := by
    by_cases hk : aesKeyOk (longToBytes key 16) = true
    · obtain ⟨g', h1, h2, _⟩ := (Gcm.new_spec hC key).1 hk
      rw [hg] at h1
      cases h1
      exact h2
    · rw [(Gcm.new_spec hC key).2 (by simpa using hk)] at hg
      cases hg
  obtain ⟨h1, h2⟩ := timesAuthKey_spec hv val
  obtain ⟨r, r1, r2, r3⟩ := gfMul_spec g.authKey (val % 2 ^ 128) hv.auth_lt
    (Nat.mod_lt _ (by norm_num))
  rw [r1]
  refine congrArg Except.ok ?_
  apply blockPoly_inj r2 h1
  rw [r3, eq_comm, ← gfφ_iff, map_mul, h2, blockPoly_mod]

/-- Non-trivial case: the element `x` times `x^127` needs the reduction. -/
example : gfMul (2 ^ 126) 1 = .ok gfR := by decide +kernel
/-- The constructor accepts a key. -/
example : (Gcm.new toyCipher 5).isOk = true := by
  have := (Gcm.new_spec toyCipher_lawful 5).1 (by decide +kernel)
  obtain ⟨g, h, _⟩ := this
  rw [h]; rfl

/-! ### C44, C45 -/

/-- The tag prescribed by the standard. -/
def Spec.IsGcmTag (E : Bytes → Bytes) (iv aad ct : Bytes) (tag : ℕ) : Prop :=
  tag < 2 ^ 128 ∧ blockPoly tag =
    ghashPoly (blockPoly (bytesToNat (E (List.replicate 16 0)))) (gcmBlocks aad ct) +
      blockPoly (bytesToNat (E (iv ++ natToBytesW 4 1)))

/-- Objects made by the constructor and then used: any number of encryptions, with any arguments
and outcomes. -/
inductive Gcm.Reachable (C : BlockCipher) (key : Bytes) : Gcm → Prop
  | new {k g} : Gcm.new C k = .ok g → longToBytes k 16 = key → Reachable C key g
  | enc {g iv pt aad} : Reachable C key g → Reachable C key (g.encrypt C iv pt aad).2

theorem Gcm.Reachable.valid {C : BlockCipher} (hC : C.Lawful) {key : Bytes} {g : Gcm}
    (h : g.Reachable C key) : g.Valid C ∧ g.masterKey = key := by
  induction h with
  | @new k g hg hk =>
    by_cases hok : aesKeyOk (longToBytes k 16) = true
    · obtain ⟨g', h1, h2, h3, _⟩ := (Gcm.new_spec hC k).1 hok
      rw [hg] at h1
      cases h1
      exact ⟨h2, by rw [h3, hk]⟩
    · rw [(Gcm.new_spec hC k).2 (by simpa using hok)] at hg
      cases hg
  | @enc g iv pt aad hr ih =>
    obtain ⟨h1, h2⟩ := ih
    unfold Gcm.encrypt
    split
    · exact ⟨h1, h2⟩
    · split
      · exact ⟨h1, h2⟩
      · exact ⟨⟨h1.key_ok, h1.auth_eq, h1.auth_lt, h1.table⟩, h2⟩

theorem tagMask_spec {C : BlockCipher} (hC : C.Lawful) {g : Gcm} (hg : g.Valid C) (iv : ℕ)
    (hiv : iv < 2 ^ 96) :
    g.tagMask C iv = bytesToNat (C.enc g.masterKey (natToBytesW 12 iv ++ natToBytesW 4 1)) ∧
      g.tagMask C iv < 2 ^ 128 := by
  have hlt : (iv <<< 32) ||| 1 < 256 ^ 16 := by
    rw [← Nat.shiftLeft_add_eq_or_of_lt (by norm_num), Nat.shiftLeft_eq]
    calc iv * 2 ^ 32 + 1 < 2 ^ 96 * 2 ^ 32 := by omega
      _ = 256 ^ 16 := by norm_num
  have e : longToBytes ((iv <<< 32) ||| 1) 16 = natToBytesW 12 iv ++ natToBytesW 4 1 := by
    apply bytesToNat_inj
    · rw [longToBytes_length _ 16 (by norm_num) hlt, List.length_append, natToBytesW_length,
        natToBytesW_length]
    · rw [bytesToNat_longToBytes, bytesToNat_append, bytesToNat_natToBytesW, bytesToNat_natToBytesW,
        natToBytesW_length, ← Nat.shiftLeft_add_eq_or_of_lt (by norm_num), Nat.shiftLeft_eq,
        Nat.mod_eq_of_lt (lt_of_lt_of_eq hiv (by norm_num))]
  unfold Gcm.tagMask
  rw [e]
  exact ⟨rfl, block_lt hC hg.key_ok (by rw [List.length_append, natToBytesW_length, natToBytesW_length])⟩

theorem tag_spec {C : BlockCipher} (hC : C.Lawful) {g : Gcm} (hg : g.Valid C) (iv : ℕ)
    (hiv : iv < 2 ^ 96) (aad ct : Bytes) (hl : 8 * ct.length < 2 ^ 64) :
    IsGcmTag (C.enc g.masterKey) (natToBytesW 12 iv) aad ct (g.ghash aad ct ^^^ g.tagMask C iv) := by
  obtain ⟨h1, h2⟩ := ghash_spec hg aad ct hl
  obtain ⟨h3, h4⟩ := tagMask_spec hC hg iv hiv
  refine ⟨Nat.xor_lt_two_pow h1 h4, ?_⟩
  rw [blockPoly_xor, h2, h3, hg.auth_eq]

/-- The tag is determined by key, iv, additional data and ciphertext. -/
theorem C45_tag_unique {E : Bytes → Bytes} {iv aad ct : Bytes} {t t' : ℕ}
    (h : IsGcmTag E iv aad ct t) (h' : IsGcmTag E iv aad ct t') : t = t' :=
  blockPoly_inj h.1 h'.1 (h.2.trans h'.2.symm)

theorem encrypt_eq {C : BlockCipher} (hC : C.Lawful) {g : Gcm} (hg : g.Valid C) (iv : ℕ)
    (hiv : iv < 2 ^ 96) (hp : g.prevInit ≠ some iv) (pt aad : Bytes)
    (hl : pt.length ≤ 16 * 2 ^ 32) :
    ∃ tag, g.encrypt C iv pt aad =
      (.ok ((List.range pt.length).map (fun i =>
        pt.getD i 0 ^^^ keyStream (C.enc g.masterKey) (natToBytesW 12 iv) i), tag),
        { g with prevInit := some iv }) ∧
      tag = g.ghash aad ((List.range pt.length).map (fun i =>
        pt.getD i 0 ^^^ keyStream (C.enc g.masterKey) (natToBytesW 12 iv) i)) ^^^ g.tagMask C iv ∧
      IsGcmTag (C.enc g.masterKey) (natToBytesW 12 iv) aad ((List.range pt.length).map (fun i =>
        pt.getD i 0 ^^^ keyStream (C.enc g.masterKey) (natToBytesW 12 iv) i)) tag := by
  have hc := crypt_spec hC hg iv hiv pt hl
  rw [longToBytes_eq iv 12 (by norm_num) (lt_of_lt_of_eq hiv (by norm_num))] at hc
  generalize hct : (List.range pt.length).map (fun i =>
        pt.getD i 0 ^^^ keyStream (C.enc g.masterKey) (natToBytesW 12 iv) i) = ct at *
  have hctl : ct.length = pt.length := by rw [← hct]; simp
  have ht := tag_spec hC hg iv hiv aad ct (by rw [hctl]; omega)
  refine ⟨_, ?_, rfl, ht⟩
  unfold Gcm.encrypt
  rw [if_neg (by omega), if_neg (Ne.symm hp)]
  simp only
  have hc' : ({ g with prevInit := some iv } : Gcm).crypt C iv pt = .ok ct := hc
  rw [hc']
  show ((if ¬ g.ghash aad ct ^^^ g.tagMask C iv < 2 ^ 128 then _ else _ : PyM (Bytes × ℕ)), _) = _
  rw [if_neg (not_not.mpr ht.1)]
  rfl

/-- Encryption conforms to the standard: for an object made with AES key `key`, in any state, an iv
below 2^96 that is not the last one used, and a plaintext of at most 2^32 blocks, the ciphertext is
the plaintext xor the key stream and the tag is the GHASH tag. -/
theorem C44_encrypt {C : BlockCipher} (hC : C.Lawful) {key : Bytes} {g : Gcm}
    (hg : g.Reachable C key) (iv : ℕ) (hiv : iv < 2 ^ 96) (hp : g.prevInit ≠ some iv)
    (pt aad : Bytes) (hl : pt.length ≤ 16 * 2 ^ 32) :
    ∃ ct tag, (g.encrypt C iv pt aad).1 = .ok (ct, tag) ∧ ct.length = pt.length ∧
      (∀ i < pt.length, ct[i]? = some (pt.getD i 0 ^^^ keyStream (C.enc key) (natToBytesW 12 iv) i)) ∧
      IsGcmTag (C.enc key) (natToBytesW 12 iv) aad ct tag := by
  obtain ⟨hv, rfl⟩ := hg.valid hC
  obtain ⟨tag, h1, _, h3⟩ := encrypt_eq hC hv iv hiv hp pt aad hl
  refine ⟨_, tag, by rw [h1], by simp, ?_, h3⟩
  intro i hi
  simp [hi]

/-- Decryption undoes encryption: the ciphertext and tag made by one object are accepted by every
object with the same key, and the plaintext comes back. -/
theorem C44_round_trip {C : BlockCipher} (hC : C.Lawful) {key : Bytes} {g g' : Gcm}
    (hg : g.Reachable C key) (hg' : g'.Reachable C key) (iv : ℕ) (hiv : iv < 2 ^ 96)
    (hp : g.prevInit ≠ some iv) (pt aad : Bytes) (hl : pt.length ≤ 16 * 2 ^ 32) :
    ∃ ct tag, (g.encrypt C iv pt aad).1 = .ok (ct, tag) ∧ ct.length = pt.length ∧
      g'.decrypt C iv ct tag aad = .ok pt := by
  obtain ⟨hv, hk⟩ := hg.valid hC
  obtain ⟨hv', hk'⟩ := hg'.valid hC
  obtain ⟨tag, h1, h2, h3⟩ := encrypt_eq hC hv iv hiv hp pt aad hl
  refine ⟨_, tag, by rw [h1], by simp, ?_⟩
  rw [hk, ← hk'] at h3 ⊢
  generalize hct : (List.range pt.length).map (fun i =>
        pt.getD i 0 ^^^ keyStream (C.enc g'.masterKey) (natToBytesW 12 iv) i) = ct at *
  have hctl : ct.length = pt.length := by rw [← hct]; simp
  have ht := C45_tag_unique h3 (tag_spec hC hv' iv hiv aad ct (by rw [hctl]; omega))
  unfold Gcm.decrypt
  rw [if_neg (by omega), if_neg (by have := h3.1; omega), if_neg (not_not.mpr ht),
    crypt_spec hC hv' iv hiv ct (by omega),
    longToBytes_eq iv 12 (by norm_num) (lt_of_lt_of_eq hiv (by norm_num))]
  congr 1
  apply List.ext_getElem
  · simp [hctl]
  · intro i k1 k2
    rw [List.getElem_map, List.getElem_range, ← hct]
    simp [k2, UInt8.xor_assoc]

/-- Beyond 2^32 blocks encryption raises OverflowError instead of repeating the counter. -/
theorem C44_too_long {C : BlockCipher} (hC : C.Lawful) {key : Bytes} {g : Gcm}
    (hg : g.Reachable C key) (iv : ℕ) (hiv : iv < 2 ^ 96) (hp : g.prevInit ≠ some iv)
    (pt aad : Bytes) (hl : 16 * 2 ^ 32 < pt.length) :
    (g.encrypt C iv pt aad).1 = .error .overflowError := by
  obtain ⟨hv, rfl⟩ := hg.valid hC
  have hge : pt.length ≤ (pad16 pt).length := by
    obtain ⟨k, h, _⟩ := pad16_prefix pt
    rw [h]; simp
  unfold Gcm.encrypt
  rw [if_neg (by omega), if_neg (Ne.symm hp)]
  simp only [Gcm.crypt, ctrCrypt, aesNew, hv.key_ok, if_true, Bind.bind, Except.bind,
    if_pos (show pt.length > 0 by omega), if_pos (show (pad16 pt).length > 16 * 2 ^ 32 by omega)]

/-- Decryption: returns exactly for the one valid tag (and then the xor with the key stream);
anything else is rejected without returning data. -/
theorem C45_decrypt {C : BlockCipher} (hC : C.Lawful) {key : Bytes} {g : Gcm}
    (hg : g.Reachable C key) (iv : ℕ) (ct : Bytes) (tag : ℕ) (aad : Bytes)
    (hl : ct.length ≤ 16 * 2 ^ 32) :
    (iv < 2 ^ 96 ∧ IsGcmTag (C.enc key) (natToBytesW 12 iv) aad ct tag →
      g.decrypt C iv ct tag aad = .ok ((List.range ct.length).map fun i =>
        ct.getD i 0 ^^^ keyStream (C.enc key) (natToBytesW 12 iv) i)) ∧
    (iv < 2 ^ 96 → tag < 2 ^ 128 → ¬ IsGcmTag (C.enc key) (natToBytesW 12 iv) aad ct tag →
      g.decrypt C iv ct tag aad = .error .invalidTagException) ∧
    (2 ^ 96 ≤ iv ∨ 2 ^ 128 ≤ tag → g.decrypt C iv ct tag aad = .error .invalidInputException) := by
  obtain ⟨hv, rfl⟩ := hg.valid hC
  refine ⟨?_, ?_, ?_⟩
  · rintro ⟨hiv, ht⟩
    have hu := C45_tag_unique ht (tag_spec hC hv iv hiv aad ct (by omega))
    unfold Gcm.decrypt
    rw [if_neg (by omega), if_neg (by have := ht.1; omega), if_neg (not_not.mpr hu),
      crypt_spec hC hv iv hiv ct hl,
      longToBytes_eq iv 12 (by norm_num) (lt_of_lt_of_eq hiv (by norm_num))]
  · intro hiv ht hn
    unfold Gcm.decrypt
    rw [if_neg (by omega), if_neg (by omega), if_pos]
    intro h
    exact hn (h ▸ tag_spec hC hv iv hiv aad ct (by omega))
  · intro h
    unfold Gcm.decrypt
    by_cases hi : iv ≥ 2 ^ 96
    · rw [if_pos hi]
    · rw [if_neg hi, if_pos (by omega)]

/-- Flipping any bits of a valid tag leads to rejection. -/
theorem C45_tag_bits {C : BlockCipher} (hC : C.Lawful) {key : Bytes} {g : Gcm}
    (hg : g.Reachable C key) (iv : ℕ) (ct aad pt : Bytes) (tag mask : ℕ)
    (hl : ct.length ≤ 16 * 2 ^ 32) (hok : g.decrypt C iv ct tag aad = .ok pt) (hm : mask ≠ 0) :
    ∃ e, g.decrypt C iv ct (tag ^^^ mask) aad = .error e ∧
      (e = .invalidTagException ∨ e = .invalidInputException) := by
  obtain ⟨h1, h2, h3⟩ := C45_decrypt hC hg iv ct tag aad hl
  obtain ⟨k1, k2, k3⟩ := C45_decrypt hC hg iv ct (tag ^^^ mask) aad hl
  have hiv : iv < 2 ^ 96 := by
    by_contra hc
    rw [h3 (.inl (by omega))] at hok; cases hok
  have ht : IsGcmTag (C.enc key) (natToBytesW 12 iv) aad ct tag := by
    by_contra hc
    by_cases hlt : tag < 2 ^ 128
    · rw [h2 hiv hlt hc] at hok; cases hok
    · rw [h3 (.inr (by omega))] at hok; cases hok
  by_cases hlt : tag ^^^ mask < 2 ^ 128
  · refine ⟨_, k2 hiv hlt ?_, .inl rfl⟩
    intro hc
    have := C45_tag_unique ht hc
    apply hm
    have h := congrArg (fun z => tag ^^^ z) this
    simp only [Nat.xor_self, ← Nat.xor_assoc, Nat.zero_xor] at h
    exact h.symm
  · exact ⟨_, k3 (.inr (by omega)), .inr rfl⟩

/-- A sequence of encryption calls on one object. -/
def Gcm.runEnc (C : BlockCipher) (g : Gcm) (calls : List (ℕ × Bytes × Bytes)) : Gcm :=
  calls.foldl (fun g c => (g.encrypt C c.1 c.2.1 c.2.2).2) g

/-- What is remembered after any history of calls on a new object: the last iv below 2^96. -/
theorem C45_history {C : BlockCipher} (g : Gcm) (calls : List (ℕ × Bytes × Bytes)) :
    (g.runEnc C calls).prevInit =
      (((calls.map (·.1)).filter (fun iv => decide (iv < 2 ^ 96))).getLast?.or g.prevInit) := by
  induction calls using List.reverseRecOn with
  | nil => simp [Gcm.runEnc]
  | append_singleton calls c ih =>
    unfold Gcm.runEnc at ih ⊢
    rw [List.foldl_append, List.foldl_cons, List.foldl_nil]
    generalize calls.foldl (fun g c => (g.encrypt C c.1 c.2.1 c.2.2).2) g = g' at ih
    rw [List.map_append, List.filter_append]
    by_cases hc : c.1 < 2 ^ 96
    · have hf : ([c].map (·.1)).filter (fun iv => decide (iv < 2 ^ 96)) = [c.1] := by
        rw [List.map_singleton, List.filter_singleton, decide_eq_true hc]; rfl
      rw [hf, List.getLast?_append]
      simp only [List.getLast?_singleton, Option.some_or]
      unfold Gcm.encrypt
      rw [if_neg (by omega)]
      split
      · rename_i h; exact h.symm
      · rfl
    · have hf : ([c].map (·.1)).filter (fun iv => decide (iv < 2 ^ 96)) = [] := by
        rw [List.map_singleton, List.filter_singleton, decide_eq_false hc]; rfl
      rw [hf, List.append_nil, ← ih]
      unfold Gcm.encrypt
      rw [if_pos (by omega)]

/-- Exactly the iv of the directly preceding (valid) call is refused. -/
theorem C45_reuse_refused {C : BlockCipher} (g : Gcm) (iv : ℕ) (pt aad : Bytes) :
    (g.prevInit = some iv ∨ 2 ^ 96 ≤ iv →
      g.encrypt C iv pt aad = (.error .invalidInputException, g)) ∧
    ((g.encrypt C iv pt aad).1 = .error .invalidInputException →
      g.prevInit = some iv ∨ 2 ^ 96 ≤ iv) := by
  constructor
  · intro h
    unfold Gcm.encrypt
    by_cases hi : iv ≥ 2 ^ 96
    · rw [if_pos hi]
    · rw [if_neg hi, if_pos (by rcases h with h | h; exact h.symm; omega)]
  · intro h
    by_contra hc
    push Not at hc
    unfold Gcm.encrypt at h
    rw [if_neg (by omega), if_neg (Ne.symm hc.1)] at h
    simp only [Gcm.crypt, ctrCrypt, aesNew, Bind.bind, Except.bind] at h
    split at h
    · rename_i e he
      cases h
      revert he
      split
      · split
        · rename_i e' he'
          revert he'
          split
          · rename_i e'' he''
            revert he''
            split
            · intro h; cases h
            · intro h; cases h; intro h; cases h; intro h; cases h
          · split
            · intro h; cases h; intro h; cases h
            · intro h; cases h
        · intro h; cases h
      · intro h; cases h
    · revert h
      split
      · intro h; cases h
      · intro h; cases h

/-- The defence is no more than that: with another iv in between, an iv is accepted again, and the
two ciphertexts reveal the xor of the plaintexts. -/
theorem C45_reuse_undetected {C : BlockCipher} (hC : C.Lawful) {key : Bytes} {g : Gcm}
    (hg : g.Reachable C key) (iv iv' : ℕ) (hiv : iv < 2 ^ 96) (hiv' : iv' < 2 ^ 96) (hne : iv ≠ iv')
    (hp : g.prevInit ≠ some iv) (p1 p2 p3 aad : Bytes) (h1 : p1.length ≤ 16 * 2 ^ 32)
    (h3 : p3.length ≤ 16 * 2 ^ 32) :
    let g1 := (g.encrypt C iv p1 aad).2
    let g2 := (g1.encrypt C iv' p2 aad).2
    ∃ c1 t1 c3 t3, (g.encrypt C iv p1 aad).1 = .ok (c1, t1) ∧
      (g2.encrypt C iv p3 aad).1 = .ok (c3, t3) ∧ xorBytes c1 c3 = xorBytes p1 p3 := by
  intro g1 g2
  have hg1 : g1.Reachable C key := .enc hg
  have hg2 : g2.Reachable C key := .enc hg1
  obtain ⟨hv, hk⟩ := hg.valid hC
  obtain ⟨hv2, hk2⟩ := hg2.valid hC
  have hp1 : g1.prevInit = some iv := by
    obtain ⟨_, e, _⟩ := encrypt_eq hC hv iv hiv hp p1 aad h1
    show ((g.encrypt C iv p1 aad).2).prevInit = _
    rw [e]
  have hp2 : g2.prevInit = some iv' := by
    show ((g1.encrypt C iv' p2 aad).2).prevInit = _
    unfold Gcm.encrypt
    rw [if_neg (by omega), if_neg (by rw [hp1]; simpa using Ne.symm hne)]
  obtain ⟨t1, e1, _⟩ := encrypt_eq hC hv iv hiv hp p1 aad h1
  obtain ⟨t3, e3, _⟩ := encrypt_eq hC hv2 iv hiv (by rw [hp2]; simpa using Ne.symm hne) p3 aad h3
  refine ⟨_, t1, _, t3, by rw [e1], by rw [e3], ?_⟩
  rw [hk, hk2]
  apply List.ext_getElem
  · simp [xorBytes]
  · intro i k1 k2
    simp only [xorBytes, List.length_zipWith] at k2
    simp only [xorBytes, List.getElem_zipWith, List.getElem_map, List.getElem_range]
    rw [List.getD_eq_getElem _ _ (by omega), List.getD_eq_getElem _ _ (by omega)]
    generalize p1[i] = a
    generalize p3[i] = b
    generalize keyStream _ _ i = k
    rw [UInt8.xor_comm b k, UInt8.xor_assoc, ← UInt8.xor_assoc k k b, UInt8.xor_self,
      UInt8.zero_xor]

/-- The hypotheses of the theorems on reachable objects are met. -/
example : ∃ g : Gcm, g.Reachable toyCipher (longToBytes 5 16) ∧ g.prevInit ≠ some 7 := by
  obtain ⟨g, h, _, _, hn⟩ := (Gcm.new_spec toyCipher_lawful 5).1 (by decide +kernel)
  exact ⟨g, .new h rfl, by rw [hn]; simp⟩
/-- A case of the round trip with a plaintext of 25 bytes, on an object used before with another
iv. -/
example : ∃ (g : Gcm) (ct : Bytes) (tag : ℕ),
    (g.encrypt toyCipher 7 (ascii "The quick brown fox jumps") (ascii "hdr")).1 = .ok (ct, tag) ∧
    ct.length = 25 ∧
    g.decrypt toyCipher 7 ct tag (ascii "hdr") = .ok (ascii "The quick brown fox jumps") := by
  obtain ⟨g, h, _, _, hn⟩ := (Gcm.new_spec toyCipher_lawful 5).1 (by decide +kernel)
  have hr : Gcm.Reachable toyCipher (longToBytes 5 16) (g.encrypt toyCipher 8 [1] []).2 :=
    .enc (.new h rfl)
  have hp : (g.encrypt toyCipher 8 [1] []).2.prevInit = some 8 := by
    have := C45_history (C := toyCipher) g [(8, [1], [])]
    exact this.trans (by rw [hn]; decide +kernel)
  obtain ⟨ct, tag, h1, h2, h3⟩ := C44_round_trip toyCipher_lawful hr hr 7 (by norm_num)
    (by rw [hp]; simp) (ascii "The quick brown fox jumps") (ascii "hdr") (by decide +kernel)
  exact ⟨_, ct, tag, h1, h2.trans (by decide +kernel), h3⟩

/-! ### C46 -/

theorem paddedBlocks_length (b : Bytes) : (paddedBlocks b).length = (b.length + 15) / 16 := by
  induction hn : b.length using Nat.strong_induction_on generalizing b with
  | _ n ih =>
    subst hn
    rw [paddedBlocks]
    split
    · rename_i h; rw [h]; rfl
    · rw [List.length_cons, ih (b.drop 16).length (by simp; omega) _ rfl, List.length_drop]
      omega

theorem paddedBlocks_inj (a b : Bytes) (hl : a.length = b.length)
    (h : paddedBlocks a = paddedBlocks b) : a = b := by
  induction hn : a.length using Nat.strong_induction_on generalizing a b with
  | _ n ih =>
    subst hn
    by_cases h0 : a.length = 0
    · rw [List.eq_nil_of_length_eq_zero h0, List.eq_nil_of_length_eq_zero (hl.symm.trans h0)]
    · rw [paddedBlocks, paddedBlocks.eq_1 b, if_neg h0, if_neg (hl ▸ h0)] at h
      have h1 := (List.cons.inj h).1
      have h2 := (List.cons.inj h).2
      have h3 := bytesToNat_inj (by simp [hl]) h1
      rw [hl] at h3
      have h4 := List.append_cancel_right h3
      have h5 := ih (a.drop 16).length (by simp; omega) (a.drop 16) (b.drop 16) (by simp [hl]) h2 rfl
      rw [← List.take_append_drop 16 a, ← List.take_append_drop 16 b, h4, h5]

/-- The sequence of hashed blocks determines the additional data and the ciphertext. -/
theorem C46_blocks_injective (aad ct aad' ct' : Bytes) (hc : ct.length < 2 ^ 61)
    (hc' : ct'.length < 2 ^ 61) (h : gcmBlocks aad ct = gcmBlocks aad' ct') :
    aad = aad' ∧ ct = ct' := by
  unfold gcmBlocks at h
  obtain ⟨h1, h2⟩ := List.append_inj' h (by rw [List.length_singleton, List.length_singleton])
  have h3 : 8 * aad.length * 2 ^ 64 + 8 * ct.length = 8 * aad'.length * 2 ^ 64 + 8 * ct'.length := by
    simpa using h2
  have hla : aad.length = aad'.length := by omega
  have hlc : ct.length = ct'.length := by omega
  obtain ⟨h4, h5⟩ := List.append_inj h1 (by rw [paddedBlocks_length, paddedBlocks_length, hla])
  exact ⟨paddedBlocks_inj _ _ hla h4, paddedBlocks_inj _ _ hlc h5⟩

/-- Consequence: the same tag accepted under one iv for two different pairs is a collision of GHASH
on two different block sequences. -/
theorem C46_collision {C : BlockCipher} (hC : C.Lawful) {key : Bytes} {g g' : Gcm}
    (hg : g.Reachable C key) (hg' : g'.Reachable C key) (iv tag : ℕ) (aad ct aad' ct' pt pt' : Bytes)
    (hl : ct.length ≤ 16 * 2 ^ 32) (hl' : ct'.length ≤ 16 * 2 ^ 32)
    (h : g.decrypt C iv ct tag aad = .ok pt) (h' : g'.decrypt C iv ct' tag aad' = .ok pt')
    (hne : (aad, ct) ≠ (aad', ct')) :
    let H := blockPoly (bytesToNat (C.enc key (List.replicate 16 0)))
    gcmBlocks aad ct ≠ gcmBlocks aad' ct' ∧
      ghashPoly H (gcmBlocks aad ct) = ghashPoly H (gcmBlocks aad' ct') := by
  have hval : ∀ {g : Gcm} {ct aad pt : Bytes}, g.Reachable C key → ct.length ≤ 16 * 2 ^ 32 →
      g.decrypt C iv ct tag aad = .ok pt → IsGcmTag (C.enc key) (natToBytesW 12 iv) aad ct tag := by
    intro g ct aad pt hg hl h
    obtain ⟨_, h2, h3⟩ := C45_decrypt hC hg iv ct tag aad hl
    by_contra hc
    by_cases hiv : iv < 2 ^ 96
    · by_cases ht : tag < 2 ^ 128
      · rw [h2 hiv ht hc] at h; cases h
      · rw [h3 (.inr (by omega))] at h; cases h
    · rw [h3 (.inl (by omega))] at h; cases h
  refine ⟨?_, ?_⟩
  · intro hc
    obtain ⟨e1, e2⟩ := C46_blocks_injective aad ct aad' ct' (by omega) (by omega) hc
    exact hne (by rw [e1, e2])
  · have a := (hval hg hl h).2
    have b := (hval hg' hl' h').2
    exact add_right_cancel (a.symm.trans b)

/-- Different splits of the same bytes give different blocks. -/
example : gcmBlocks (ascii "ab") (ascii "c") ≠ gcmBlocks (ascii "a") (ascii "bc") := by
  decide +kernel

/-! ### C47 -/

theorem longToBytes16_length (x : ℕ) (h : 256 ^ 16 ≤ x) (h' : x < 256 ^ 32) :
    (longToBytes x 16).length = 32 := by
  have h1 : (natToBytes x).length ≤ 32 := natToBytes_length_le 32 x h'
  have h2 : 16 < (natToBytes x).length := by
    by_contra hc
    have := bytesToNat_lt (natToBytes x)
    rw [bytesToNat_natToBytes] at this
    have hle : 256 ^ (natToBytes x).length ≤ 256 ^ 16 :=
      Nat.pow_le_pow_right (by norm_num) (by omega)
    omega
  have hx : x ≠ 0 := by omega
  unfold longToBytes
  simp only [if_neg hx]
  split
  · rw [List.length_append, List.length_replicate]; omega
  · omega

theorem longToBytes16_big (x : ℕ) (h : 256 ^ 32 ≤ x) : 32 < (longToBytes x 16).length := by
  have h2 : 32 < (natToBytes x).length := by
    by_contra hc
    have := bytesToNat_lt (natToBytes x)
    rw [bytesToNat_natToBytes] at this
    have hle : 256 ^ (natToBytes x).length ≤ 256 ^ 32 :=
      Nat.pow_le_pow_right (by norm_num) (by omega)
    omega
  have hx : x ≠ 0 := by omega
  unfold longToBytes
  simp only [if_neg hx]
  split
  · rw [List.length_append]; omega
  · exact h2

/-- The constructor as the JWE code calls it (`AES_GCM(bytes_to_long(key))`): it accepts exactly
the keys denoting a number below 2^256, whatever their length. -/
theorem C47_accepts {C : BlockCipher} (hC : C.Lawful) (key : Bytes) :
    (bytesToNat key < 2 ^ 256 → ∃ g, Gcm.new C (bytesToNat key) = .ok g) ∧
    (2 ^ 256 ≤ bytesToNat key → Gcm.new C (bytesToNat key) = .error .valueError) := by
  obtain ⟨h1, h2⟩ := Gcm.new_spec hC (bytesToNat key)
  constructor
  · intro h
    have hok : aesKeyOk (longToBytes (bytesToNat key) 16) = true := by
      unfold aesKeyOk
      by_cases hb : bytesToNat key < 256 ^ 16
      · rw [longToBytes_length _ 16 (by norm_num) hb]; rfl
      · rw [longToBytes16_length _ (by omega) (lt_of_lt_of_eq h (by norm_num))]; rfl
    obtain ⟨g, h, _⟩ := h1 hok
    exact ⟨g, h⟩
  · intro h
    apply h2
    have := longToBytes16_big (bytesToNat key) (le_of_eq_of_le (by norm_num) h)
    unfold aesKeyOk
    simp only [Bool.or_eq_false_iff, beq_eq_false_iff_ne]
    omega

/-- The AES key really used by an object constructed from the bytes `key`. -/
theorem C47_used_key {C : BlockCipher} (hC : C.Lawful) (key : Bytes) (g : Gcm)
    (h : Gcm.new C (bytesToNat key) = .ok g) :
    (bytesToNat key < 2 ^ 128 → g.masterKey.length = 16) ∧
    (2 ^ 128 ≤ bytesToNat key → g.masterKey.length = 32) ∧
    bytesToNat g.masterKey = bytesToNat key := by
  have hlt : bytesToNat key < 2 ^ 256 := by
    by_contra hc
    rw [(C47_accepts hC key).2 (by omega)] at h
    cases h
  have hm : g.masterKey = longToBytes (bytesToNat key) 16 := by
    have hok : aesKeyOk (longToBytes (bytesToNat key) 16) = true := by
      by_contra hc
      rw [(Gcm.new_spec hC _).2 (by simpa using hc)] at h
      cases h
    obtain ⟨g', e, _, e2, _⟩ := (Gcm.new_spec hC _).1 hok
    rw [h] at e
    cases e
    exact e2
  rw [hm]
  refine ⟨fun hb => longToBytes_length _ 16 (by norm_num) (lt_of_lt_of_eq hb (by norm_num)),
    fun hb => longToBytes16_length _ (le_of_eq_of_le (by norm_num) hb)
      (lt_of_lt_of_eq hlt (by norm_num)), bytesToNat_longToBytes _ _⟩

/-- The key used is the key given exactly for 16-byte keys and for 32-byte keys with a non-zero
byte among the first 16; never for a 24-byte key (A192GCM). -/
theorem C47_same_key {C : BlockCipher} (hC : C.Lawful) (key : Bytes) (g : Gcm)
    (h : Gcm.new C (bytesToNat key) = .ok g) :
    g.masterKey = key ↔ key.length = 16 ∨ (key.length = 32 ∧ 2 ^ 128 ≤ bytesToNat key) := by
  obtain ⟨h1, h2, h3⟩ := C47_used_key hC key g h
  constructor
  · intro e
    rw [e] at h1 h2
    by_cases hb : bytesToNat key < 2 ^ 128
    · exact .inl (h1 hb)
    · exact .inr ⟨h2 (by omega), by omega⟩
  · rintro (hl | ⟨hl, hb⟩)
    · have : bytesToNat key < 2 ^ 128 := by
        have := bytesToNat_lt key
        rw [hl] at this
        exact lt_of_lt_of_eq this (by norm_num)
      exact bytesToNat_inj (by rw [h1 this, hl]) h3
    · exact bytesToNat_inj (by rw [h2 hb, hl]) h3

/-- A 24-byte key with a non-zero byte among its first 8 is used as the AES-256 key obtained by
prefixing 8 zero bytes; otherwise its last 16 bytes are an AES-128 key. -/
theorem C47_192 {C : BlockCipher} (hC : C.Lawful) (key : Bytes) (g : Gcm) (hl : key.length = 24)
    (h : Gcm.new C (bytesToNat key) = .ok g) :
    g.masterKey = if bytesToNat key < 2 ^ 128 then key.drop 8 else List.replicate 8 0 ++ key := by
  obtain ⟨h1, h2, h3⟩ := C47_used_key hC key g h
  split
  · rename_i hb
    apply bytesToNat_inj (by rw [h1 hb, List.length_drop, hl])
    rw [h3]
    have e := bytesToNat_append (key.take 8) (key.drop 8)
    rw [List.take_append_drop, List.length_drop, hl] at e
    have hz : bytesToNat (key.take 8) = 0 := by
      by_contra hc
      have : 1 * 256 ^ (24 - 8) ≤ bytesToNat (key.take 8) * 256 ^ (24 - 8) :=
        Nat.mul_le_mul_right _ (by omega)
      norm_num at this hb e
      omega
    rw [hz] at e
    rw [e]; omega
  · rename_i hb
    apply bytesToNat_inj (by rw [h2 (by omega), List.length_append, hl]; rfl)
    rw [h3, bytesToNat_replicate_zero]

/-- Such a 24-byte key: one whose first byte is 1. -/
example : bytesToNat (List.replicate 24 1) ≥ 2 ^ 128 ∧ (List.replicate 24 (1 : UInt8)).length = 24 := by
  decide +kernel

end Verif
