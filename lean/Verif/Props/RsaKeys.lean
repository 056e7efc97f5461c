import Verif.Props.Pkcs
import Verif.Props.Oracle
import Verif.Props.JweForm
import Verif.Props.Interop
import Verif.Props.JwsTotal
import Verif.Props.PublishEnc
/-
C137: the encrypted keys of RSA tokens, by RFC 8017.
-/

namespace Verif

namespace Spec

/-- Byte `i` of the data block of EME-OAEP with an empty label: the digest of nothing, `z` zeros, a one, the message. -/
def oaepDb (h : HashAlg) (z : Nat) (m : Bytes) (i : Nat) : UInt8 :=
  if i < h.size then (Real.shaHash h []).getD i 0 else pssDb z m (i - h.size)

/-- EME-OAEP (RFC 8017 section 7.1.1 step 2) byte by byte, with an empty label. -/
def OaepBlock (h : HashAlg) (len : Nat) (m em : Bytes) : Prop :=
  em.length = len ∧ m.length + 2 * h.size + 2 ≤ len ∧ em.getD 0 0 = 0 ∧ ∃ seed : Bytes, seed.length = h.size ∧
    (∀ i < h.size, em.getD (1 + i) 0 = seed.getD i 0 ^^^ mgfByte h (em.drop (1 + h.size)) i) ∧
    ∀ i < len - h.size - 1, em.getD (1 + h.size + i) 0 = oaepDb h (len - m.length - 2 * h.size - 2) m i ^^^ mgfByte h seed i

/-- EME-PKCS1-v1_5 (section 7.2.1 step 2). -/
def EncBlock15 (len : Nat) (m em : Bytes) : Prop :=
  em.length = len ∧ ∃ ps : Bytes, 8 ≤ ps.length ∧ 0 ∉ ps ∧ em = [0, 2] ++ ps ++ [0] ++ m

/-- The block of an algorithm: RSA1_5, RSA-OAEP (SHA-1), RSA-OAEP-256. -/
def EncBlock : RsaPad → Nat → Bytes → Bytes → Prop
  | .pkcs1 => EncBlock15
  | .oaep => OaepBlock .sha1
  | .oaep256 => OaepBlock .sha256

/-- `ek` is an encryption of `m` under the public half of `r` (RFC 7518 sections 4.2 and 4.3). -/
def RfcRsaSealed (p : RsaPad) (r : RsaKey) (m ek : Bytes) : Prop :=
  ek.length = Real.modLen r ∧ ∃ em, EncBlock p (Real.modLen r) m em ∧
    bytesToNat em ^ r.e.toNat % Real.modulus r = bytesToNat ek

end Spec

open Spec

theorem afterOne_iff {l m : Bytes} : Real.afterOne l = some m ↔ ∃ z, l = List.replicate z 0 ++ 1 :: m := by
  constructor
  · intro h
    induction l with
    | nil => cases h
    | cons b l ih =>
      rw [Real.afterOne] at h
      split at h
      · rename_i hb
        cases h
        exact ⟨0, by rw [hb]; rfl⟩
      split at h
      · rename_i hb
        obtain ⟨z, rfl⟩ := ih h
        exact ⟨z + 1, by rw [hb, List.replicate_succ]; rfl⟩
      · cases h
  · rintro ⟨z, rfl⟩
    exact Real.afterOne_zeros m z

/-- The decoder of OAEP accepts exactly the encodings. -/
theorem oaepDecode_iff {h : HashAlg} {len : Nat} {m em : Bytes} (hl : em.length = len) :
    Real.oaepDecode h len em = .ok m ↔ ∃ rnd, Real.emeOaep h len rnd m = .ok em := by
  constructor
  swap
  · rintro ⟨rnd, he⟩
    exact (Real.emeOaep_ok he).2.2
  intro he
  match em, hl, he with
  | [], _, he => cases he
  | b :: l, hl, he =>
    unfold Real.oaepDecode at he
    split at he
    swap
    · cases he
    rename_i l' heq
    obtain ⟨rfl, rfl⟩ := List.cons.inj heq
    simp only at he
    rw [List.length_cons] at hl
    generalize hmd : l.drop h.size = md at he
    generalize hsd : xorBytes (l.take h.size) (Real.mgf1 h md h.size) = seed at he
    generalize hdb : xorBytes md (Real.mgf1 h seed (len - h.size - 1)) = db at he
    split at he
    swap
    · cases he
    rename_i htk
    split at he
    swap
    · cases he
    rename_i m' hao
    cases he
    obtain ⟨z, hz⟩ := afterOne_iff.mp hao
    have hdbe : db = Real.shaHash h [] ++ (List.replicate z 0 ++ 1 :: m) := by
      rw [← htk, ← hz, List.take_append_drop]
    have hmdl : md.length = len - h.size - 1 := by rw [← hmd, List.length_drop]; omega
    have hdbl : db.length = len - h.size - 1 := by
      rw [← hdb, xorBytes, List.length_zipWith, hmdl, Real.mgf1_length, Nat.min_self]
    have hlens := hdbl
    rw [hdbe] at hlens
    simp only [List.length_append, List.length_replicate, List.length_cons, Real.shaHash_length] at hlens
    have htl : (l.take h.size).length = h.size := by rw [List.length_take]; omega
    have hsl : seed.length = h.size := by
      rw [← hsd, xorBytes, List.length_zipWith, htl, Real.mgf1_length, Nat.min_self]
    refine ⟨bytesToNat seed, ?_⟩
    have hsalt : Real.rndBytes h.size (bytesToNat seed) = seed := natToBytesW_bytesToNat' hsl
    unfold Real.emeOaep
    rw [if_neg (by omega), hsalt]
    simp only
    rw [show len - m.length - 2 * h.size - 2 = z by omega, ← hdbe, ← hdb,
      show xorBytes (xorBytes md _) _ = md from zipWith_xor_twice _ _ (by rw [hmdl, Real.mgf1_length]), ← hsd,
      show xorBytes (xorBytes _ _) _ = l.take h.size from zipWith_xor_twice _ _ (by rw [htl, Real.mgf1_length]), ← hmd,
      List.take_append_drop]

theorem getD_append_right' {a b : Bytes} {n i : Nat} (h : a.length = n) : (a ++ b).getD (n + i) 0 = b.getD i 0 := by
  subst h
  rw [List.getD_eq_getElem?_getD, List.getElem?_append_right (by omega), List.getD_eq_getElem?_getD]
  congr 2
  omega

theorem getD_append_left' {a b : Bytes} {i : Nat} (h : i < a.length) : (a ++ b).getD i 0 = a.getD i 0 := by
  rw [List.getD_eq_getElem?_getD, List.getElem?_append_left h, List.getD_eq_getElem?_getD]

theorem oaepDb_getD (h : HashAlg) (z : Nat) (m : Bytes) (i : Nat) :
    (Real.shaHash h [] ++ (List.replicate z 0 ++ 1 :: m)).getD i 0 = oaepDb h z m i := by
  have hl := Real.shaHash_length h []
  unfold oaepDb
  split
  · rename_i hi
    exact getD_append_left' (by omega)
  · rename_i hi
    obtain ⟨j, rfl⟩ := Nat.exists_eq_add_of_le (Nat.le_of_not_lt hi)
    rw [getD_append_right' hl, pssDb_getD, Nat.add_sub_cancel_left]

theorem bytes_ext {a b : Bytes} (hl : a.length = b.length) (h : ∀ i < a.length, a.getD i 0 = b.getD i 0) : a = b := by
  refine List.ext_getElem hl fun i h1 h2 => ?_
  have := h i h1
  rwa [List.getD_eq_getElem?_getD, List.getD_eq_getElem?_getD, List.getElem?_eq_getElem h1, List.getElem?_eq_getElem h2] at this

theorem emeOaep_block (h : HashAlg) (len : Nat) (m em : Bytes) :
    (∃ rnd, Real.emeOaep h len rnd m = .ok em) ↔ OaepBlock h len m em := by
  have hdl : m.length + 2 * h.size + 2 ≤ len →
      (Real.shaHash h [] ++ (List.replicate (len - m.length - 2 * h.size - 2) 0 ++ 1 :: m)).length = len - h.size - 1 := by
    intro hge
    simp only [List.length_append, List.length_replicate, List.length_cons, Real.shaHash_length]
    omega
  constructor
  · rintro ⟨rnd, he⟩
    have hlen := (Real.emeOaep_ok he).1
    unfold Real.emeOaep at he
    split at he
    · cases he
    rename_i hge
    have hge : m.length + 2 * h.size + 2 ≤ len := by omega
    simp only at he
    have hsl : (Real.rndBytes h.size rnd).length = h.size := natToBytesW_length _ _
    generalize Real.rndBytes h.size rnd = seed at *
    have hdl := hdl hge
    generalize hdb : Real.shaHash h [] ++ (List.replicate (len - m.length - 2 * h.size - 2) 0 ++ 1 :: m) = db at *
    generalize hmd : xorBytes db (Real.mgf1 h seed (len - h.size - 1)) = md at he
    have hmdl : md.length = len - h.size - 1 := by
      rw [← hmd, xorBytes, List.length_zipWith, hdl, Real.mgf1_length, Nat.min_self]
    have hxl : (xorBytes seed (Real.mgf1 h md h.size)).length = h.size := by
      rw [xorBytes, List.length_zipWith, hsl, Real.mgf1_length, Nat.min_self]
    obtain rfl := Except.ok.inj he
    have hdrop : (0 :: (xorBytes seed (Real.mgf1 h md h.size) ++ md)).drop (1 + h.size) = md := by
      rw [Nat.add_comm, List.drop_succ_cons, List.drop_left' hxl]
    refine ⟨hlen, hge, rfl, seed, hsl, ?_, ?_⟩
    · intro i hi
      rw [hdrop, Nat.add_comm 1 i, List.getD_cons_succ, getD_append_left' (by omega),
        xor_getD (by omega) (by rw [Real.mgf1_length]; exact hi), mgf1_getD _ _ hi]
    · intro i hi
      rw [show 1 + h.size + i = h.size + i + 1 by omega, List.getD_cons_succ, getD_append_right' hxl, ← hmd,
        xor_getD (by omega) (by rw [Real.mgf1_length]; exact hi), mgf1_getD _ _ hi, ← hdb, oaepDb_getD]
  · rintro ⟨hlen, hge, h0, seed, hsl, h1, h2⟩
    refine ⟨bytesToNat seed, ?_⟩
    have hsalt : Real.rndBytes h.size (bytesToNat seed) = seed := natToBytesW_bytesToNat' hsl
    unfold Real.emeOaep
    rw [if_neg (by omega), hsalt]
    simp only
    have hdl := hdl hge
    have hmd : xorBytes (Real.shaHash h [] ++ (List.replicate (len - m.length - 2 * h.size - 2) 0 ++ 1 :: m))
        (Real.mgf1 h seed (len - h.size - 1)) = em.drop (1 + h.size) := by
      refine bytes_ext ?_ ?_
      · rw [xorBytes, List.length_zipWith, hdl, Real.mgf1_length, Nat.min_self, List.length_drop]
        omega
      · intro i hi
        rw [xorBytes, List.length_zipWith, hdl, Real.mgf1_length, Nat.min_self] at hi
        rw [xor_getD (by omega) (by rw [Real.mgf1_length]; exact hi), mgf1_getD _ _ hi, oaepDb_getD, ← h2 i hi]
        simp [List.getD_eq_getElem?_getD]
    rw [hmd]
    congr 1
    match em, hlen with
    | [], hlen => simp at hlen; omega
    | b :: l, hlen =>
      rw [List.length_cons] at hlen
      obtain rfl : b = 0 := h0
      congr 1
      conv_rhs => rw [← List.take_append_drop h.size l]
      rw [Nat.add_comm 1 h.size, List.drop_succ_cons]
      congr 1
      refine bytes_ext ?_ ?_
      · rw [xorBytes, List.length_zipWith, hsl, Real.mgf1_length, Nat.min_self, List.length_take]
        omega
      · intro i hi
        rw [xorBytes, List.length_zipWith, hsl, Real.mgf1_length, Nat.min_self] at hi
        have e := h1 i hi
        rw [Nat.add_comm 1 i, List.getD_cons_succ, Nat.add_comm 1 h.size, List.drop_succ_cons] at e
        rw [xor_getD (by omega) (by rw [Real.mgf1_length]; exact hi), mgf1_getD _ _ hi, ← e]
        simp [List.getD_eq_getElem?_getD, List.getElem?_take_of_lt hi]

/-! ### The RSA operations -/

theorem rsaPriv_iff {r : RsaKey} (hr : r.Consistent) {c x : Nat} :
    Real.rsaPriv r c = .ok x ↔ x < Real.modulus r ∧ x ^ r.e.toNat % Real.modulus r = c := by
  constructor
  · intro h
    obtain ⟨-, h1, h2⟩ := Real.rsaPriv_ok h
    rw [Real.powMod_eq] at h2
    exact ⟨h1, h2⟩
  · rintro ⟨h1, rfl⟩
    exact (Real.rsaPriv_pub ⟨hr, rfl, rfl⟩ (Real.rsaPub_ok.mpr ⟨h1, rfl⟩)).1

theorem encBlock_lt {p : RsaPad} {r : RsaKey} {m em : Bytes} (h : EncBlock p (Real.modLen r) m em) :
    em.length = Real.modLen r ∧ bytesToNat em < Real.modulus r := by
  have key : ∀ l : Bytes, (0 :: l).length = Real.modLen r → bytesToNat (0 :: l) < Real.modulus r := by
    intro l hl
    rw [List.length_cons] at hl
    exact Real.lt_modulus (by omega) (by rw [← hl, Nat.add_sub_cancel]; exact Real.bytesToNat_zero_cons l)
  have oaep : ∀ {h : HashAlg}, OaepBlock h (Real.modLen r) m em → em.length = Real.modLen r ∧ bytesToNat em < Real.modulus r := by
    rintro h ⟨hl, hge, h0, -⟩
    refine ⟨hl, ?_⟩
    match em, hl, h0 with
    | [], hl, _ => simp at hl; omega
    | b :: l, hl, h0 =>
      obtain rfl : b = 0 := h0
      exact key l hl
  cases p with
  | pkcs1 =>
    obtain ⟨hl, ps, -, -, rfl⟩ := h
    exact ⟨hl, key _ hl⟩
  | oaep => exact oaep h
  | oaep256 => exact oaep h

theorem dec15_iff {r : RsaKey} (hr : r.Consistent) {ek m : Bytes} : Real.dec15 r ek = .ok (some m) ↔ RfcRsaSealed .pkcs1 r m ek := by
  constructor
  · intro h
    have hl : ek.length = Real.modLen r := by
      by_contra hc
      unfold Real.dec15 at h
      rw [if_pos hc] at h
      cases h
    have h' := h
    unfold Real.dec15 at h'
    rw [if_neg (by simpa using hl)] at h'
    simp only [Bind.bind] at h'
    obtain ⟨x, hx, -⟩ := bind_ok_iff.mp h'
    obtain ⟨h1, h2⟩ := (rsaPriv_iff hr).mp hx
    obtain ⟨t, ht, hb⟩ := Real.dec15_block hr hl h1 h2
    rw [h] at ht
    obtain ⟨ps, he, h8, h0⟩ := (hb m).mp (Except.ok.inj ht).symm
    refine ⟨hl, natToBytesW (Real.modLen r) x, ⟨natToBytesW_length _ _, ps, h8, h0, by rw [he]; simp⟩, ?_⟩
    rw [Real.os2ip_i2osp h1, h2]
  · rintro ⟨hl, em, hb, he⟩
    obtain ⟨hel, hlt⟩ := encBlock_lt hb
    obtain ⟨t, ht, hb'⟩ := Real.dec15_block hr hl hlt he
    rw [ht, (hb' m).mpr]
    obtain ⟨-, ps, h8, h0, hps⟩ := hb
    exact ⟨ps, by rw [natToBytesW_bytesToNat' hel, hps]; simp, h8, h0⟩

theorem decOaep_iff {r : RsaKey} (hr : r.Consistent) {h : HashAlg} {ek m : Bytes} :
    Real.decOaep h r ek = .ok m ↔ ek.length = Real.modLen r ∧ ∃ em, OaepBlock h (Real.modLen r) m em ∧
      bytesToNat em ^ r.e.toNat % Real.modulus r = bytesToNat ek := by
  unfold Real.decOaep
  constructor
  · intro hd
    split at hd
    · cases hd
    rename_i hc
    simp only [Bind.bind] at hd
    obtain ⟨x, hx, hd⟩ := bind_ok_iff.mp hd
    obtain ⟨h1, h2⟩ := (rsaPriv_iff hr).mp hx
    exact ⟨by_contra fun hn => hc (.inl hn), _, (emeOaep_block _ _ _ _).mp ((oaepDecode_iff (natToBytesW_length _ _)).mp hd),
      by rw [Real.os2ip_i2osp h1, h2]⟩
  · rintro ⟨hl, em, hb, he⟩
    have hlt : bytesToNat em < Real.modulus r := by
      cases h with
      | sha1 => exact (encBlock_lt (p := .oaep) hb).2
      | sha256 => exact (encBlock_lt (p := .oaep256) hb).2
      | sha384 | sha512 =>
        obtain ⟨hl', hge, h0, -⟩ := hb
        match em, hl', h0 with
        | [], hl', _ => simp at hl'; omega
        | b :: l, hl', h0 =>
          obtain rfl : b = 0 := h0
          rw [List.length_cons] at hl'
          exact Real.lt_modulus (by omega) (by rw [← hl', Nat.add_sub_cancel]; exact Real.bytesToNat_zero_cons l)
    rw [if_neg (by have := hb.2.1; omega), (rsaPriv_iff hr).mpr ⟨hlt, he⟩]
    simp only [Bind.bind, Except.bind]
    rw [natToBytesW_bytesToNat' hb.1]
    exact (oaepDecode_iff hb.1).mpr ((emeOaep_block _ _ _ _).mpr hb)

/-- **C137.** An encrypted key opens to `c` exactly if it is an encryption of `c` by RFC 8017 under the public half: RSA1_5 with at
least eight padding bytes, RSA-OAEP with SHA-1, RSA-OAEP-256 with SHA-256 (also for the mask), with an empty label. -/
theorem C137_opens {E : Env} (hE : Standard E) {alg : String} {p : RsaPad} (hm : MgmtName alg (.rsa p)) {r : RsaKey} (hr : r.Consistent)
    (ek c : Bytes) : RsaOpens E.R alg r ek c ↔ RfcRsaSealed p r c ek := by
  obtain ⟨f, hf⟩ := hE.rsa
  unfold RsaOpens
  rw [hf]
  change (_ ∧ Real.dec15 r ek = _) ∨ (_ ∧ Real.decOaep .sha1 r ek = _) ∨ (_ ∧ Real.decOaep .sha256 r ek = _) ↔ _
  rw [dec15_iff hr, decOaep_iff hr, decOaep_iff hr]
  cases hm with
  | rsa15 => simp
  | oaep => simp [RfcRsaSealed, EncBlock]
  | oaep256 => simp [RfcRsaSealed, EncBlock]

theorem nonzeroBytes_ne (n r : Nat) : 0 ∉ Real.nonzeroBytes n r := by
  have h := Real.splitZero_nonzero [] n r
  obtain ⟨ps, h1, h2, h3⟩ := (splitZero_iff _ _ _).mp h
  have := List.append_inj_left h1 (by rw [h2, Real.nonzeroBytes_length])
  rw [this]
  exact h3

/-- **C137.** What the library makes is such an encryption. -/
theorem C137_seals {E : Env} (hE : Standard E) {p : RsaPad} {r : RsaKey} {rnd : Nat} {c ek : Bytes} (h : RsaSealed E p r rnd c ek) :
    RfcRsaSealed p r c ek := by
  obtain ⟨f, hf⟩ := hE.rsa
  have fin : ∀ {em : Bytes} {x : Nat}, Real.rsaPub r (bytesToNat em) = .ok x → ek = natToBytesW (Real.modLen r) x →
      EncBlock p (Real.modLen r) c em → RfcRsaSealed p r c ek := by
    rintro em x hx rfl hb
    obtain ⟨h1, rfl⟩ := Real.rsaPub_ok.mp hx
    exact ⟨natToBytesW_length _ _, em, hb, by rw [Real.os2ip_i2osp (Nat.mod_lt _ (by omega))]⟩
  have oaep : ∀ {a : HashAlg}, Real.encOaep a r rnd c = .ok ek → (∀ em, OaepBlock a (Real.modLen r) c em → EncBlock p (Real.modLen r) c em) →
      RfcRsaSealed p r c ek := by
    intro a he hb
    unfold Real.encOaep at he
    simp only [Bind.bind] at he
    obtain ⟨em, h1, he⟩ := bind_ok_iff.mp he
    obtain ⟨x, h2, he⟩ := bind_ok_iff.mp he
    exact fin h2 (Except.ok.inj he).symm (hb _ ((emeOaep_block _ _ _ _).mp ⟨rnd, h1⟩))
  cases p with
  | pkcs1 =>
    change E.R.enc15 r rnd c = .ok ek at h
    rw [hf] at h
    change Real.enc15 r rnd c = .ok ek at h
    unfold Real.enc15 at h
    split at h
    · cases h
    rename_i hge
    simp only [Bind.bind] at h
    obtain ⟨x, h2, he⟩ := bind_ok_iff.mp h
    refine fin h2 (Except.ok.inj he).symm ⟨?_, Real.nonzeroBytes (Real.modLen r - c.length - 3) rnd, ?_, nonzeroBytes_ne _ _, by simp⟩
    · simp only [List.length_cons, List.length_append, Real.nonzeroBytes_length]
      omega
    · rw [Real.nonzeroBytes_length]
      omega
  | oaep =>
    change E.R.encOaep .sha1 r rnd c = .ok ek at h
    rw [hf] at h
    exact oaep h fun _ h => h
  | oaep256 =>
    change E.R.encOaep .sha256 r rnd c = .ok ek at h
    rw [hf] at h
    exact oaep h fun _ h => h

/-! ### Tokens -/

/-- **C137.** A token of another implementation for an RSA key, with the standard algorithms: the second segment an encryption of the
content key by RFC 8017 under the public half, the content encrypted by RFC 7518. It decrypts to the message. -/
theorem C137_token {E : Env} (hE : Standard E) {token s0 ek iv ct tag : Bytes} {h : PyDict}
    (hp : JweParts token s0 (.dict h) ek iv ct tag) {alg enc : String} {p : RsaPad}
    (halg : PyDict.get? h "alg" = some (.str alg)) (hm : MgmtName alg (.rsa p))
    (henc : PyDict.get? h "enc" = some (.str enc)) {o : Jwe} {rnd : JweRnd} {keys l : List Key} {wk : PyVal}
    {k : Key} {r : RsaKey} (hk : HoldsRsa k r) (hr : r.Consistent) (heff : EffKeys o.toJwx keys l)
    (hsk : SignKid o.toJwx wk) (hf : FirstPicked (.rsa p) alg wk l k) {c pt m : Bytes}
    (hek : RfcRsaSealed p r c ek) (hsent : p = .pkcs1 → rnd.sentinel 0 ≠ c)
    (hct : RfcContent E enc c iv s0 pt ct tag) (hkt : KeyTaken enc c) (hz : Unzipped E h pt m) :
    (o.decrypt E rnd token keys).1 = .ok m :=
  C111_rsa hE.aesLaw hp halg hm henc hk heff hsk hf ((C137_opens hE hm hr ek c).mpr hek) hsent hct hkt hz

/-- **C137.** A token that the library makes for an RSA key, without a supplied content key: the second segment is an encryption of the
content key by RFC 8017, and the content is encrypted under that key. -/
theorem C137_made {E : Env} (hE : Standard E) {o : Jwe} {rnd : JweRnd} (hr : RndLengths rnd) {keys : List Key}
    {iv : Bytes} {kid : Option PyVal} {t : String} {alg : String} {p : RsaPad}
    (halg : PyDict.get? o.dict "alg" = some (.str alg))
    (hm : MgmtName alg (.rsa p)) (hv : RealValues o keys kid)
    (hser : ∀ k v, o.jwk = some (.key k) → k.serializeDflt = .ok v → Distinct v)
    (h : (o.encrypt E rnd keys [] iv kid).1 = .ok t) :
    ∃ l wk k, EffKeys o.toJwx keys l ∧ SignKid o.toJwx wk ∧ FirstPicked (.rsa p) alg wk l k ∧
      ∀ r, HoldsRsa k r → ∃ s0 hdr ek v ct tag c enc m z,
        JweParts (utf8Encode t) s0 hdr ek v ct tag ∧ PyDict.get? o.dict "enc" = some (.str enc) ∧
        MsgBytes o.msg m ∧ Zipped E o.dict m z ∧ RfcRsaSealed p r c ek ∧ Sealed E enc c v s0 z ct tag := by
  obtain ⟨l, wk, k, h1, h2, h3, h4⟩ := C90_rsa hE.aesLaw hr halg hm hv hser h
  refine ⟨l, wk, k, h1, h2, h3, fun r hk => ?_⟩
  obtain ⟨s0, hdr, ek, v, ct, tag, c, enc, m, z, g1, g2, g3, g4, -, -, g5, -, g6⟩ := h4 r hk
  exact ⟨s0, hdr, ek, v, ct, tag, c, enc, m, z, g1, g2, g3, g4, C137_seals hE (g5 rfl), g6⟩

/-! ### A key of 1042 bits -/

theorem rfcOaep256_exists (c : Bytes) (hc : c.length ≤ 64) : ∃ ek, RfcRsaSealed .oaep256 bigRsa c ek := by
  have hl : 130 ≤ Real.modLen bigRsa := by decide +kernel
  have hs : HashAlg.sha256.size = 32 := rfl
  have hok : ∃ em, Real.emeOaep .sha256 (Real.modLen bigRsa) 5 c = .ok em := by
    unfold Real.emeOaep
    simp only
    rw [if_neg (by omega)]
    exact ⟨_, rfl⟩
  obtain ⟨em, he⟩ := hok
  have hb := (emeOaep_block _ _ _ _).mp ⟨5, he⟩
  exact ⟨natToBytesW (Real.modLen bigRsa) (bytesToNat em ^ bigRsa.e.toNat % Real.modulus bigRsa), natToBytesW_length _ _, em, hb,
    (Real.os2ip_i2osp (Nat.mod_lt _ (by have := (encBlock_lt (p := .oaep256) hb).2; omega))).symm⟩

/-- A token with RSA-OAEP-256 and A192CBC-HS384, made by other code. -/
example : ∃ ek iv ct tag, (Jwe.decrypt stdEnv {} exRnd (exForeign "RSA-OAEP-256" "A192CBC-HS384" ek iv ct tag) [bigKey bigRsa]).1 =
    .ok (ascii "hello") := by
  obtain ⟨ct, tag, h⟩ := rfcContent_exists (E := stdEnv) stdEnv_standard.aesLaw .c192 (key := List.replicate 48 7)
    (iv := List.replicate 16 9) rfl rfl (.inr (.inr (.inr (.inl rfl)))) (pt := ascii "hello")
    (aad := b64e (utf8Encode (exForeignHead "RSA-OAEP-256" "A192CBC-HS384"))) (by decide) (by decide +kernel)
  obtain ⟨ek, hek⟩ := rfcOaep256_exists (List.replicate 48 7) (by decide)
  exact ⟨ek, _, ct, tag, C137_token stdEnv_standard (h := exForeignDict "RSA-OAEP-256" "A192CBC-HS384")
    ⟨rfl, exForeignHead "RSA-OAEP-256" "A192CBC-HS384", rfl, by decide +kernel⟩ rfl .oaep256 rfl ⟨⟨_, rfl⟩, rfl⟩ bigRsa_consistent
    (.inl ⟨by simp, rfl⟩) (.inr ⟨rfl, .inl ⟨rfl, rfl⟩⟩)
    ⟨[], [], rfl, ⟨.inr (.inl rfl), by decide, by decide, by decide⟩, by simp⟩
    hek (by decide) h (.inr (.inr (.inr (.inl rfl)))) (.inl ⟨by decide, rfl⟩)⟩

/-- A block with RSA1_5. -/
example : EncBlock .pkcs1 13 [9, 8] [0, 2, 1, 2, 3, 4, 5, 6, 7, 8, 0, 9, 8] := ⟨rfl, [1, 2, 3, 4, 5, 6, 7, 8], by decide, by decide, rfl⟩

/-- A token that the library makes for the key. -/
example (m : String) (hl : (utf8Encode m).length ≤ 16 * 2 ^ 32) : ∃ t s0 hdr ek v ct tag c,
    (({ msg := .str m, dict := [("alg", .str "RSA-OAEP"), ("enc", .str "A128CBC-HS256")] } : Jwe).encrypt stdEnv exRnd [bigKey bigRsa]).1 =
      .ok t ∧
    JweParts (utf8Encode t) s0 hdr ek v ct tag ∧ RfcRsaSealed .oaep bigRsa c ek ∧
    Sealed stdEnv "A128CBC-HS256" c v s0 (utf8Encode m) ct tag := by
  have hb : HoldsRsa (bigKey bigRsa) bigRsa := ⟨⟨_, rfl⟩, rfl⟩
  obtain ⟨t, ht⟩ := C110_rsa (E := stdEnv) stdEnv_standard.aesLaw stdEnv_standard.shaLaw
    (o := { msg := .str m, dict := [("alg", .str "RSA-OAEP"), ("enc", .str "A128CBC-HS256")] })
    exRnd_lengths (keys := [bigKey bigRsa]) (cek := []) (iv := []) (kid := none) rfl .oaep rfl .c128 (.inl ⟨by simp, rfl⟩)
    (.inr ⟨rfl, .inl ⟨rfl, rfl⟩⟩) ⟨[], [], rfl, ⟨.inr (.inl rfl), by decide, by decide, by decide⟩, by simp⟩ hb
    (fun _ => C110_rsa_key stdEnv_standard exRnd_lengths .c128 (by decide +kernel) _) (.inl ⟨m, rfl, rfl⟩) (.inl ⟨rfl, hl⟩) rfl (.inl rfl)
    (short_writable .oaep .c128) (fun _ => ⟨"", rfl, by decide⟩) (by intro v hv; cases hv) (.inl rfl) (.inl rfl)
  obtain ⟨l, wk, k, h1, -, h2, h3⟩ := C137_made stdEnv_standard exRnd_lengths rfl .oaep
    (realValues_short _ _ _ (by decide)) (by intro k v h; cases h) ht
  cases only_key h1 h2
  obtain ⟨s0, hdr, ek, v, ct, tag, c, enc, m', z, hp, he, hm, hz, hek, hs⟩ := h3 _ hb
  cases he
  have hm' : m' = utf8Encode m := by
    rcases hm with ⟨s, h, rfl⟩ | h
    · cases h; rfl
    · cases h
  have hz' : z = m' := by
    rcases hz with ⟨-, rfl⟩ | ⟨⟨x, h, -⟩, -⟩
    · rfl
  subst hz' hm'
  exact ⟨t, s0, hdr, ek, v, ct, tag, c, ht, hp, hek, hs⟩

end Verif
