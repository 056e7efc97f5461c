import Verif.Props.JwkMore
import Verif.Proofs.GcmData
/-
Properties C80–C83: keys from certificates, `key_from_jwk_dict`, `to_dict` and `jwk_wrap`
(`/repo/src/jwkest/jwk.py`).
-/

namespace Verif
open Spec

/-! ### C80: RSA keys from certificates -/

/-- The keyword arguments of `RSAKey(x5c=[s, ...], x5t=t, ...)`: no modulus or no exponent, a chain
beginning with the text `s`. -/
structure CertArgs (kw : PyDict) (s : String) (rest : List PyVal) (t : String) : Prop where
  self : PyDict.get? kw "self" = none
  n : PyDict.get? kw "n" = none
  e : PyDict.get? kw "e" = none
  x5c : PyDict.get? kw "x5c" = some (.list (.str s :: rest))
  x5t : kwGet kw "x5t" (.str "") = .str t

/-- What has to hold for the certificate text `s` to be accepted as the RSA key `r` under the
thumbprint `t`: it is base64 of a certificate for `r`, and `t` is empty or base64url of the SHA-1
of that certificate. -/
def CertFor (E : Env) (s t : String) (r : RsaKey) : Prop :=
  ∃ a der, asciiEncode s = .ok a ∧ a2bBase64 a = .ok der ∧ E.R.fromCert der = .ok r ∧
    (t ≠ "" → ∃ b, asciiEncode t = .ok b ∧ b64d b = .ok (E.H.hash .sha1 der))

/-- The attributes `RSAKey.__init__` starts from. -/
def rsaMat0 (kw : PyDict) : RsaMat :=
  let g := fun s => kwGet kw s (.str "")
  ⟨g "n", g "e", g "d", g "p", g "q", g "dp", g "dq", g "di", g "qi"⟩

theorem rsaKeyNew_cert {E : Env} {kw : PyDict} {s : String} {rest : List PyVal} {t : String}
    (h : CertArgs kw s rest t) :
    rsaKeyNew E kw (.val .none) =
      rsaDeserialize E (keyCommon "RSA" rsaArgs kw (.val .none) (.rsa (rsaMat0 kw))) (rsaMat0 kw) := by
  have hn : kwGet kw "n" (.str "") = .str "" := by simp [kwGet, h.n]
  have he : kwGet kw "e" (.str "") = .str "" := by simp [kwGet, h.e]
  have hx : ∀ key mat, (keyCommon "RSA" rsaArgs kw key mat).x5c = .list (.str s :: rest) := by
    intro key mat
    simp [keyCommon, kwGet, h.x5c, PyVal.truthy]
  unfold rsaKeyNew
  rw [if_neg (by simp [PyDict.has, h.self])]
  simp only [hn, he, hx, pyLen, Bind.bind, Except.bind, String.length_empty, gt_iff_lt,
    Nat.lt_irrefl, if_false, List.length_cons, Nat.zero_lt_succ, Bool.false_eq_true, or_true, and_true]
  rw [if_pos (by rfl)]
  simp only [rsaMat0, hn, he]

/-- The thumbprint test of `RSAKey.deserialize`. -/
def thumbCheck (E : Env) (t : String) (der : Bytes) : PyM Unit :=
  if t = "" then .ok () else
    (asciiEncode t).bind fun a => (b64d a).bind fun b =>
      if b = E.H.hash .sha1 der then .ok () else .error .deSerializationNotPossible

theorem rsaDeserialize_cert {E : Env} {kw : PyDict} {s : String} {rest : List PyVal} {t : String}
    (h : CertArgs kw s rest t) :
    rsaKeyNew E kw (.val .none) =
      ((asciiEncode s).bind fun a => (a2bBase64 a).bind fun der => (thumbCheck E t der).bind fun _ =>
        (E.R.fromCert der).bind fun key =>
          rsaSplit (keyCommon "RSA" rsaArgs kw (.rsa key) (.rsa (rsaMat0 kw))) (rsaMat0 kw)) := by
  rw [rsaKeyNew_cert h]
  have hx : ∀ key mat, (keyCommon "RSA" rsaArgs kw key mat).x5c = .list (.str s :: rest) := by
    intro key mat
    simp [keyCommon, kwGet, h.x5c, PyVal.truthy]
  have ht : ∀ key mat, (keyCommon "RSA" rsaArgs kw key mat).x5t = .str t := by
    intro key mat
    simp [keyCommon, h.x5t]
  have hn : (rsaMat0 kw).n = .str "" := by simp [rsaMat0, kwGet, h.n]
  have hk : ∀ key, { keyCommon "RSA" rsaArgs kw (.val .none) (.rsa (rsaMat0 kw)) with key := key } =
      keyCommon "RSA" rsaArgs kw key (.rsa (rsaMat0 kw)) := fun _ => rfl
  unfold rsaDeserialize
  rw [if_neg (by simp [hn, PyVal.truthy]), if_pos (by rw [hx]; rfl)]
  simp only [hk, thumbCheck, Bind.bind]
  rw [hx, ht, x5cFirst]
  congr 1; funext a
  congr 1; funext der
  by_cases h0 : t = ""
  · subst h0; rfl
  · rw [if_pos (by simpa [PyVal.truthy] using h0), if_neg h0]
    simp only
    generalize asciiEncode t = at'
    cases at' with
    | error e => rfl
    | ok b =>
      cases hb : b64d b with
      | error e => simp [Except.bind, hb]
      | ok c =>
        simp only [Except.bind, hb]
        split <;> rfl

theorem thumbCheck_ok {E : Env} {t : String} {der : Bytes} {u : Unit} :
    thumbCheck E t der = .ok u ↔
      (t ≠ "" → ∃ b, asciiEncode t = .ok b ∧ b64d b = .ok (E.H.hash .sha1 der)) := by
  unfold thumbCheck
  split
  · rename_i h; simp [h]
  rename_i h
  rw [bind_ok_iff]
  simp only [bind_ok_iff]
  constructor
  · rintro ⟨a, ha, b, hb, hh⟩ _
    split at hh
    · rename_i he; exact ⟨a, ha, he ▸ hb⟩
    · simp at hh
  · intro hh
    obtain ⟨a, ha, hb⟩ := hh h
    exact ⟨a, ha, _, hb, by simp⟩

/-- The key is accepted exactly when the first certificate of the chain stands for it and matches the
thumbprint. -/
theorem C80_cert (E : Env) (kw : PyDict) (s t : String) (rest : List PyVal) (r : RsaKey)
    (h : CertArgs kw s rest t) :
    (∃ k, rsaKeyNew E kw (.val .none) = .ok k ∧ k.key = .rsa r) ↔ CertFor E s t r := by
  rw [rsaDeserialize_cert h]
  constructor
  · rintro ⟨k, hk, hr⟩
    obtain ⟨a, ha, hk⟩ := bind_ok_iff.mp hk
    obtain ⟨der, hd, hk⟩ := bind_ok_iff.mp hk
    obtain ⟨u, ht, hk⟩ := bind_ok_iff.mp hk
    obtain ⟨r', hc, hk⟩ := bind_ok_iff.mp hk
    simp only [rsaSplit, keyCommon, Except.ok.injEq] at hk
    rw [← hk] at hr
    simp only [KObj.rsa.injEq] at hr
    exact ⟨a, der, ha, hd, hr ▸ hc, thumbCheck_ok.mp ht⟩
  · rintro ⟨a, der, ha, hd, hc, ht⟩
    simp only [ha, hd, hc, (thumbCheck_ok (u := ())).mpr ht, Except.bind]
    exact ⟨_, rfl, rfl⟩

/-- Whatever key comes out, its numbers are the certificate's. -/
theorem C80_material (E : Env) (kw : PyDict) (s t : String) (rest : List PyVal) (k : Key)
    (h : CertArgs kw s rest t) (hk : rsaKeyNew E kw (.val .none) = .ok k) :
    ∃ r m, CertFor E s t r ∧ k.key = .rsa r ∧ k.mat = .rsa m ∧ m.n = .int r.n ∧ m.e = .int r.e := by
  have hk0 := hk
  rw [rsaDeserialize_cert h] at hk
  obtain ⟨a, ha, hk⟩ := bind_ok_iff.mp hk
  obtain ⟨der, hd, hk⟩ := bind_ok_iff.mp hk
  obtain ⟨u, ht, hk⟩ := bind_ok_iff.mp hk
  obtain ⟨r, hc, hk⟩ := bind_ok_iff.mp hk
  simp only [rsaSplit, keyCommon, Except.ok.injEq] at hk
  refine ⟨r, _, ⟨a, der, ha, hd, hc, thumbCheck_ok.mp ht⟩, by rw [← hk], by rw [← hk], ?_, ?_⟩ <;>
    (cases r.priv <;> rfl)

/-- A thumbprint that decodes to anything but the SHA-1 of the certificate is reported as such. -/
theorem C80_mismatch (E : Env) (kw : PyDict) (s t : String) (rest : List PyVal) (a der b th : Bytes)
    (h : CertArgs kw s rest t) (ha : asciiEncode s = .ok a) (hd : a2bBase64 a = .ok der) (hne : t ≠ "")
    (hb : asciiEncode t = .ok b) (ht : b64d b = .ok th) (hx : th ≠ E.H.hash .sha1 der) :
    rsaKeyNew E kw (.val .none) = .error .deSerializationNotPossible := by
  rw [rsaDeserialize_cert h]
  simp [ha, hd, thumbCheck, hne, hb, ht, hx, Except.bind]

/-- Only the first certificate of the chain counts: the rest may be anything. -/
theorem C80_chain (E : Env) (kw kw' : PyDict) (s t : String) (rest rest' : List PyVal)
    (h : CertArgs kw s rest t) (h' : CertArgs kw' s rest' t) (r : RsaKey) :
    (∃ k, rsaKeyNew E kw (.val .none) = .ok k ∧ k.key = .rsa r) ↔
      (∃ k, rsaKeyNew E kw' (.val .none) = .ok k ∧ k.key = .rsa r) := by
  rw [C80_cert E kw s t rest r h, C80_cert E kw' s t rest' r h']

theorem filter_set_known (known : List String) (kw : PyDict) (p : String) (v : PyVal)
    (hp : p ∈ known) :
    (PyDict.set kw p v).filter (fun kv => !(known.contains kv.1)) =
      kw.filter fun kv => !(known.contains kv.1) := by
  induction kw with
  | nil => simp [PyDict.set, hp]
  | cons kv kw ih =>
    obtain ⟨a, b⟩ := kv
    simp only [PyDict.set]
    split
    · rename_i h; subst h; simp [hp]
    · simp only [List.filter_cons, ih]

/-- With modulus and exponent given, certificate chain and thumbprint are stored without any check:
whatever they are, the same key comes out. -/
theorem C80_unchecked (E : Env) (kw : PyDict) (n e : String) (v : PyVal) (l : List PyVal)
    (hn : PyDict.get? kw "n" = some (.str n)) (hn0 : n ≠ "")
    (he : PyDict.get? kw "e" = some (.str e)) (he0 : e ≠ "")
    (hx : PyDict.get? kw "x5c" = none) :
    rsaKeyNew E (PyDict.set (PyDict.set kw "x5t" v) "x5c" (.list l)) (.val .none) =
      (rsaKeyNew E kw (.val .none)).map fun k => { k with x5t := v, x5c := .list l } := by
  have g : ∀ s dflt, s ≠ "x5t" → s ≠ "x5c" →
      kwGet (PyDict.set (PyDict.set kw "x5t" v) "x5c" (.list l)) s dflt = kwGet kw s dflt := by
    intro s dflt h1 h2
    simp [kwGet, PyDict.get?_set, h1, h2]
  have gt : ∀ dflt, kwGet (PyDict.set (PyDict.set kw "x5t" v) "x5c" (.list l)) "x5t" dflt = v := by
    intro dflt; simp [kwGet, PyDict.get?_set]
  have gc : ∀ dflt, kwGet (PyDict.set (PyDict.set kw "x5t" v) "x5c" (.list l)) "x5c" dflt = .list l := by
    intro dflt; simp [kwGet, PyDict.get?_set]
  have gc0 : kwGet kw "x5c" .none = .none := by simp [kwGet, hx]
  have fx := filter_set_known rsaArgs (PyDict.set kw "x5t" v) "x5c" (.list l) (by decide)
  rw [filter_set_known rsaArgs kw "x5t" v (by decide)] at fx
  have hs : PyDict.has (PyDict.set (PyDict.set kw "x5t" v) "x5c" (.list l)) "self" =
      PyDict.has kw "self" := by simp [PyDict.has, PyDict.get?_set]
  have kn : kwGet kw "n" (.str "") = .str n := by simp [kwGet, hn]
  have ke : kwGet kw "e" (.str "") = .str e := by simp [kwGet, he]
  generalize PyDict.set (PyDict.set kw "x5t" v) "x5c" (.list l) = kw2 at *
  have hk : ∀ key mat, keyCommon "RSA" rsaArgs kw2 key mat =
      { keyCommon "RSA" rsaArgs kw key mat with x5t := v, x5c := .list l } := by
    intro key mat
    simp only [keyCommon, gt, gc, gc0, fx, g "kty" _ (by decide) (by decide),
      g "alg" _ (by decide) (by decide), g "use" _ (by decide) (by decide),
      g "kid" _ (by decide) (by decide), g "x5u" _ (by decide) (by decide)]
    have : (if (PyVal.list l).truthy then PyVal.list l else .list []) = .list l := by
      cases l <;> rfl
    rw [this]
  have ln : 0 < n.length := by
    rcases Nat.eq_zero_or_pos n.length with h0 | h0
    · exact absurd (String.length_eq_zero_iff.mp h0) hn0
    · exact h0
  have le : (e.length != 0) = true := by
    have : e.length ≠ 0 := fun h0 => he0 (String.length_eq_zero_iff.mp h0)
    simpa using this
  have tn : (PyVal.str n).truthy = true := by simpa [PyVal.truthy] using hn0
  have te : (PyVal.str e).truthy = true := by simpa [PyVal.truthy] using he0
  have hx0 : ∀ key mat, (keyCommon "RSA" rsaArgs kw key mat).x5c = .list [] := by
    intro key mat; simp [keyCommon, gc0, PyVal.truthy]
  unfold rsaKeyNew
  rw [hs]
  by_cases hself : PyDict.has kw "self" = true
  · simp [hself, Except.map]
  rw [if_neg hself, if_neg hself]
  simp only [g "n" _ (by decide) (by decide), g "e" _ (by decide) (by decide),
    g "d" _ (by decide) (by decide), g "p" _ (by decide) (by decide), g "q" _ (by decide) (by decide),
    g "dp" _ (by decide) (by decide), g "dq" _ (by decide) (by decide),
    g "di" _ (by decide) (by decide), g "qi" _ (by decide) (by decide), hk, kn, ke, pyLen, Bind.bind,
    Except.bind, gt_iff_lt, ln, if_true, Except.map, le, hx0]
  rw [if_pos ⟨rfl, .inl trivial⟩, if_pos ⟨rfl, .inl trivial⟩]
  unfold rsaDeserialize
  simp only [tn, te, Bool.and_self, if_true]
  generalize rsaLong (.str n) = a1
  generalize rsaLong (.str e) = a2
  generalize rsaLong (kwGet kw "d" _) = a3
  generalize rsaLong (kwGet kw "p" _) = a4
  generalize rsaLong (kwGet kw "q" _) = a5
  generalize rsaLong (kwGet kw "dp" _) = a6
  generalize rsaLong (kwGet kw "dq" _) = a7
  generalize rsaLong (kwGet kw "di" _) = a8
  generalize rsaLong (kwGet kw "qi" _) = a9
  cases a1 with | error x => simp [valueErrorTo, Bind.bind, Except.bind]; split <;> rfl | ok a1 =>
  cases a2 with | error x => simp [valueErrorTo, Bind.bind, Except.bind]; split <;> rfl | ok a2 =>
  cases a3 with | error x => simp [valueErrorTo, Bind.bind, Except.bind]; split <;> rfl | ok a3 =>
  cases a4 with | error x => simp [valueErrorTo, Bind.bind, Except.bind]; split <;> rfl | ok a4 =>
  cases a5 with | error x => simp [valueErrorTo, Bind.bind, Except.bind]; split <;> rfl | ok a5 =>
  cases a6 with | error x => simp [valueErrorTo, Bind.bind, Except.bind]; split <;> rfl | ok a6 =>
  cases a7 with | error x => simp [valueErrorTo, Bind.bind, Except.bind]; split <;> rfl | ok a7 =>
  cases a8 with | error x => simp [valueErrorTo, Bind.bind, Except.bind]; split <;> rfl | ok a8 =>
  cases a9 with | error x => simp [valueErrorTo, Bind.bind, Except.bind]; split <;> rfl | ok a9 =>
  simp only [Bind.bind, Except.bind]
  generalize asInts _ = b
  cases b with | error x => simp [valueErrorTo]; split <;> rfl | ok b =>
  simp only
  generalize E.R.construct b = c
  cases c with | error x => simp [valueErrorTo]; split <;> rfl | ok c => rfl

/-- Loaded as a JWK, a certificate with a thumbprint never gives a key, right or wrong: `keyrep` has
turned the thumbprint into bytes, which have no `encode`. -/
theorem C80_keyrep (E : Env) (d : PyDict) (s t : String) (rest : List PyVal) (a der : Bytes)
    (hkty : PyDict.get? d "kty" = some (.str "RSA")) (hself : PyDict.get? d "self" = none)
    (hkey : PyDict.get? d "key" = none) (hn : PyDict.get? d "n" = none)
    (hx : PyDict.get? d "x5c" = some (.list (.str s :: rest)))
    (ht : PyDict.get? d "x5t" = some (.str t)) (hne : t ≠ "")
    (ha : asciiEncode s = .ok a) (hd : a2bBase64 a = .ok der) :
    keyrep E d = .error .attributeError := by
  have kkey := kwGet_map d "key" .none
  have kn := kwGet_map d "n" (.str "")
  have kx := kwGet_map d "x5c" .none
  have kt := kwGet_map d "x5t" (.str "")
  rw [hkey, Option.map_none, Option.getD_none] at kkey
  rw [hn, Option.map_none, Option.getD_none] at kn
  rw [hx, Option.map_some, Option.getD_some] at kx
  rw [ht, Option.map_some, Option.getD_some] at kt
  simp only [keyrep, hkty]
  rw [if_pos (by rfl)]
  unfold rsaKeyNew
  rw [if_neg (by simp [PyDict.has, get?_map, hself])]
  generalize (d.map fun kv => (kv.1, asBytes kv.2)) = kw at *
  simp only [asBytes] at kx kt
  have hx' : ∀ key mat, (keyCommon "RSA" rsaArgs kw key mat).x5c = .list (.str s :: rest) := by
    intro key mat; simp [keyCommon, kx, PyVal.truthy]
  have ht' : ∀ key mat, (keyCommon "RSA" rsaArgs kw key mat).x5t = .bytes (utf8Encode t) := by
    intro key mat; simp [keyCommon, kt]
  have htt : (PyVal.bytes (utf8Encode t)).truthy = true := by
    simpa [PyVal.truthy] using utf8Encode_ne hne
  simp only [kn, kkey, hx', pyLen, Bind.bind, Except.bind, String.length_empty, gt_iff_lt,
    Nat.lt_irrefl, if_false, List.length_cons, Nat.zero_lt_succ, Bool.false_eq_true, or_true, and_true]
  rw [if_pos (by rfl)]
  unfold rsaDeserialize
  rw [if_neg (by simp [PyVal.truthy]), if_pos (by rw [hx']; rfl)]
  rw [hx', ht', x5cFirst, ha]
  simp only [Bind.bind, Except.bind, hd, htt, if_true]

/-- An environment in which every certificate stands for the key (3233, 17). -/
def certEnv : Env := { toyEnv with R := { toyRsa with fromCert := fun _ => .ok ⟨3233, 17, none⟩ } }

/-- A chain of two elements (the first the base64 of 20 zero bytes, its own SHA-1 in the example
environment) and a thumbprint. -/
def exCert (t : String) : PyDict :=
  [("x5c", .list [.str "AAAAAAAAAAAAAAAAAAAAAAAAAAA=", .int 5]), ("x5t", .str t), ("kid", .str "c")]

theorem exCert_args (t : String) : CertArgs (exCert t) "AAAAAAAAAAAAAAAAAAAAAAAAAAA=" [.int 5] t :=
  ⟨rfl, rfl, rfl, rfl, rfl⟩

example : CertFor certEnv "AAAAAAAAAAAAAAAAAAAAAAAAAAA=" "AAAAAAAAAAAAAAAAAAAAAAAAAAA" ⟨3233, 17, none⟩ :=
  ⟨_, List.replicate 20 0, rfl, by decide +kernel, rfl, fun _ => ⟨_, rfl, by decide +kernel⟩⟩

example : rsaKeyNew certEnv (exCert "AAAA") (.val .none) = .error .deSerializationNotPossible :=
  C80_mismatch certEnv _ _ _ _ _ (List.replicate 20 0) _ [0, 0, 0] (exCert_args _) rfl
    (by decide +kernel) (by decide) rfl (by decide +kernel) (by decide +kernel)

example (t : String) (h : t ≠ "") :
    keyrep certEnv (("kty", .str "RSA") :: exCert t) = .error .attributeError :=
  C80_keyrep certEnv _ _ t _ _ (List.replicate 20 0) rfl rfl rfl rfl rfl rfl h rfl (by decide +kernel)

example (v : PyVal) (l : List PyVal) :
    rsaKeyNew certEnv (PyDict.set (PyDict.set [("n", .str "DKE"), ("e", .str "EQ")] "x5t" v) "x5c"
      (.list l)) (.val .none) = (rsaKeyNew certEnv [("n", .str "DKE"), ("e", .str "EQ")] (.val .none)).map
        fun k => { k with x5t := v, x5c := .list l } :=
  C80_unchecked certEnv _ _ _ v l rfl (by decide) rfl (by decide) rfl

/-! ### C81: `key_from_jwk_dict` -/

/-- The members `key_from_jwk_dict` reads for each key type. -/
def readMembers : String → Bool → List String
  | "EC", false => ["kid", "crv", "x", "y"]
  | "EC", true => ["kid", "crv", "x", "y", "d"]
  | "RSA", false => ["kid", "n", "e"]
  | "RSA", true => ["kid", "n", "e", "d", "p", "q"]
  | "oct", _ => ["kid", "k"]
  | _, _ => []

theorem getItem_dict (d : PyDict) (s : String) :
    PyVal.getItem (.dict d) s = match PyDict.get? d s with
      | some v => .ok v
      | none => .error .keyError := rfl

/-- The keyword arguments `key_from_jwk_dict` collects. -/
def subDict (d : PyDict) (names : List String) : PyM PyDict :=
  names.mapM fun s => (PyVal.getItem (.dict d) s).map fun v => (s, v)

theorem subDict_missing (d : PyDict) : ∀ (names : List String),
    (∃ s ∈ names, PyDict.get? d s = none) → subDict d names = .error .keyError := by
  intro names
  induction names with
  | nil => rintro ⟨s, hs, _⟩; simp at hs
  | cons a names ih =>
    rintro ⟨s, hs, h⟩
    unfold subDict
    rw [List.mapM_cons]
    cases ha : PyDict.get? d a with
    | none => simp [getItem_dict, ha, Except.map, Bind.bind, Except.bind]
    | some v =>
      have hs' : s ∈ names := by
        rcases List.mem_cons.mp hs with rfl | hs
        · rw [h] at ha; cases ha
        · exact hs
      have := ih ⟨s, hs', h⟩
      unfold subDict at this
      rw [this]
      simp [getItem_dict, ha, Except.map, Bind.bind, Except.bind]

theorem subDict_ok (d : PyDict) : ∀ (names : List String),
    (∀ s ∈ names, PyDict.get? d s ≠ none) →
    subDict d names = .ok (names.map fun s => (s, (PyDict.get? d s).getD .none)) := by
  intro names h
  unfold subDict
  apply mapM_ok
  intro s hs
  rw [getItem_dict]
  cases hd : PyDict.get? d s with
  | none => exact absurd hd (h s hs)
  | some v => rfl

theorem keyFromJwkDict_eq (E : Env) (d : PyDict) (priv : Bool) (t : String)
    (h : PyDict.get? d "kty" = some (.str t)) :
    keyFromJwkDict E d priv =
      if t = "EC" then
        (subDict d (readMembers "EC" priv)).bind fun kw => ecKeyNew kw (.val .none) (.val .none) 0
      else if t = "RSA" then
        (subDict d (readMembers "RSA" priv)).bind fun kw => rsaKeyNew E kw (.val .none)
      else if t = "oct" then
        (subDict d (readMembers "oct" priv)).bind fun kw => symKeyNew kw .none
      else .error .unknownAlgorithm := by
  unfold keyFromJwkDict
  simp only [getItem_dict, h, Bind.bind, Except.bind, PyVal.pyEq, beq_iff_eq]
  split
  · cases priv <;> rfl
  split
  · cases priv <;> rfl
  rfl

/-- Every member that is read has to be there. -/
theorem C81_missing (E : Env) (d : PyDict) (priv : Bool) (t s : String)
    (h : PyDict.get? d "kty" = some (.str t)) (hs : s ∈ readMembers t priv)
    (hn : PyDict.get? d s = none) : keyFromJwkDict E d priv = .error .keyError := by
  rw [keyFromJwkDict_eq E d priv t h]
  have hm := fun hs => subDict_missing d (readMembers t priv) ⟨s, hs, hn⟩
  split
  · rename_i ht; subst ht; rw [hm hs]; rfl
  split
  · rename_i ht; subst ht; rw [hm hs]; rfl
  split
  · rename_i ht; subst ht; rw [hm hs]; rfl
  · rename_i h1 h2 h3
    exfalso
    unfold readMembers at hs
    split at hs <;> contradiction

theorem C81_no_kty (E : Env) (d : PyDict) (priv : Bool) (h : PyDict.get? d "kty" = none) :
    keyFromJwkDict E d priv = .error .keyError := by
  unfold keyFromJwkDict
  simp [getItem_dict, h, Bind.bind, Except.bind]

/-- Other key types are refused. -/
theorem C81_unknown (E : Env) (d : PyDict) (priv : Bool) (t : String)
    (h : PyDict.get? d "kty" = some (.str t)) (ht : t ∉ ["EC", "RSA", "oct"]) :
    keyFromJwkDict E d priv = .error .unknownAlgorithm := by
  simp only [List.mem_cons, List.not_mem_nil, or_false, not_or] at ht
  rw [keyFromJwkDict_eq E d priv t h, if_neg ht.1, if_neg ht.2.1, if_neg ht.2.2]

theorem subDict_congr {d d' : PyDict} {names : List String}
    (h : ∀ s ∈ names, PyDict.get? d s = PyDict.get? d' s) : subDict d names = subDict d' names := by
  induction names with
  | nil => rfl
  | cons a names ih =>
    have ih := ih fun s hs => h s (by simp [hs])
    unfold subDict at ih ⊢
    rw [List.mapM_cons, List.mapM_cons, ih, getItem_dict, getItem_dict, h a (by simp)]

/-- Nothing but the type and the members read has an influence: `use`, `alg`, certificates, and with
`private=False` the private numbers. -/
theorem C81_only (E : Env) (d d' : PyDict) (priv : Bool) (t : String)
    (h : PyDict.get? d "kty" = some (.str t)) (h' : PyDict.get? d' "kty" = some (.str t))
    (hs : ∀ s ∈ readMembers t priv, PyDict.get? d s = PyDict.get? d' s) :
    keyFromJwkDict E d priv = keyFromJwkDict E d' priv := by
  rw [keyFromJwkDict_eq E d priv t h, keyFromJwkDict_eq E d' priv t h']
  have := subDict_congr hs
  split
  · rename_i ht; subst ht; rw [this]
  split
  · rename_i ht; subst ht; rw [this]
  split
  · rename_i ht; subst ht; rw [this]
  rfl

/-- `key_from_jwk_dict(key.serialize(private=True))` of an EC key: unlike through `keyrep`, the
private number comes back as a number. -/
theorem C81_ec (E : Env) (k : Key) (crv x y d : PyVal) (c : NistCurve) (X Y D : Nat) (kid : String)
    (hm : k.mat = .ec crv x y d (.curve c)) (hx : Holds x (some X)) (hy : Holds y (some Y))
    (hd : Holds d (some D)) (hc : curveByName c.name = .ok c) (hkty : k.kty = .str "EC")
    (hkid : k.kid = .str kid) (hne : kid ≠ "") :
    ∃ dict k', k.serialize true = .ok (.dict dict) ∧ keyFromJwkDict E dict true = .ok k' ∧
      k'.mat = .ec (.str c.name) (.int X) (.int Y) (.int D) (.curve c) ∧ k'.kty = .str "EC" ∧
      k'.kid = .str kid ∧ k'.use = .str "" ∧ k'.alg = .str "" ∧ k'.extra = [] := by
  have px : 0 < X := hx.pos _ rfl
  have py : 0 < Y := hy.pos _ rfl
  have pd : 0 < D := hd.pos _ rfl
  refine ⟨_, keyCommon "EC" ecArgs [("kid", .str kid), ("crv", .str c.name), ("x", .str (uintTxt X)),
    ("y", .str (uintTxt Y)), ("d", .str (uintTxt D))] (.val .none) (.ec (.str c.name) (.int X) (.int Y)
    (.int D) (.curve c)), ec_serialize hm hx hy hd true, ?_, rfl, rfl, rfl, rfl, rfl, rfl⟩
  simp only [if_true]
  have g : ∀ s, PyDict.get? (ecDict k c X Y (some D)) s =
      if s = "d" then some (.str (uintTxt D)) else if s = "y" then some (.str (uintTxt Y))
      else if s = "x" then some (.str (uintTxt X)) else if s = "crv" then some (.str c.name)
      else PyDict.get? k.common s := by
    intro s
    simp [ecDict, get?_optSet, PyDict.get?_set]
  have gk : PyDict.get? (ecDict k c X Y (some D)) "kid" = some (.str kid) := by
    have : (PyVal.str kid).truthy = true := by simpa [PyVal.truthy] using hne
    simp [g, get?_common, hkid, this]
  rw [keyFromJwkDict_eq E _ true "EC" (by simp [g, get?_common, hkty]), if_pos rfl]
  rw [subDict_ok _ _ (by
    intro s hs
    simp only [readMembers, List.mem_cons, List.not_mem_nil, or_false] at hs
    rcases hs with rfl | rfl | rfl | rfl | rfl
    · simp [gk]
    all_goals simp [g])]
  simp only [readMembers, List.map_cons, List.map_nil, gk, Option.getD_some, Except.bind,
    g "crv", g "x", g "y", g "d", String.reduceEq, if_true, if_false]
  have hn : (PyVal.str c.name).truthy = true := by
    simpa [PyVal.truthy] using curveByName_ne hc
  have hnone : (KObj.val PyVal.none).truthy = false := rfl
  generalize hkw : [("kid", PyVal.str kid), ("crv", .str c.name), ("x", .str (uintTxt X)),
    ("y", .str (uintTxt Y)), ("d", .str (uintTxt D))] = kw
  have ks : PyDict.has kw "self" = false := by subst hkw; rfl
  have kx : kwGet kw "x" (.str "") = .str (uintTxt X) := by subst hkw; rfl
  have ky : kwGet kw "y" (.str "") = .str (uintTxt Y) := by subst hkw; rfl
  have kc : kwGet kw "crv" (.str "") = .str c.name := by subst hkw; rfl
  have kd : kwGet kw "d" (.str "") = .str (uintTxt D) := by subst hkw; rfl
  clear hkw
  unfold ecKeyNew
  simp only [ks, Bool.false_eq_true, if_false, kx, ky, kc, kd, hn, hnone, and_self, if_true,
    verifyLongs, txt_str_truthy px, isInt, listLong, Bool.true_eq_false, decide_false, Bool.or_self,
    Bind.bind, Except.bind, ecDeserialize, ecCoord_txt px, ecCoord_txt py, curveByVal, hc,
    txt_str_truthy pd, deser, (uintTxt_spec pd).2, Except.map, valueErrorTo]
  rfl

example : ∃ dict k', exEc.serialize true = .ok (.dict dict) ∧ keyFromJwkDict toyEnv dict true = .ok k' ∧
    k'.mat = .ec (.str P256.name) (.int P256.G.1.toNat) (.int P256.G.2.toNat) (.int 1) (.curve P256) ∧
    k'.kty = .str "EC" ∧ k'.kid = .str "e1" ∧ k'.use = .str "" ∧ k'.alg = .str "" ∧ k'.extra = [] :=
  C81_ec toyEnv exEc _ _ _ _ P256 _ _ 1 "e1" rfl (.number (by decide)) (.number (by decide))
    (.number (by decide)) (by decide +kernel) rfl rfl (by decide)

/-- A number as text, loaded. -/
theorem rsaLong_txt {n : Nat} (h : 0 < n) : rsaLong (.str (uintTxt n)) = .ok (.int n) := by
  simp [rsaLong, txt_str_truthy h, isInt, deser, (uintTxt_spec h).2, Except.map]

/-- The same for an RSA key with all of `d`, `p`, `q`: the numbers `dp`, `dq`, `di`, `qi` are dropped. -/
theorem C81_rsa (E : Env) (k : Key) (m : RsaMat) (N : RsaNums) (D P Q : Nat) (kid : String)
    (hm : k.mat = .rsa m) (hN : RsaHolds m N) (hD : N.d = some D) (hP : N.p = some P)
    (hQ : N.q = some Q) (hk : k.key.truthy = true) (hkty : k.kty = .str "RSA")
    (hkid : k.kid = .str kid) (hne : kid ≠ "") (r : RsaKey)
    (hr : E.R.construct [(N.n : Int), (N.e : Int), (D : Int), (P : Int), (Q : Int)] = .ok r) :
    ∃ dict k', k.serialize true = .ok (.dict dict) ∧ keyFromJwkDict E dict true = .ok k' ∧
      k'.key = .rsa r ∧
      k'.mat = .rsa ⟨.int N.n, .int N.e, .int D, .int P, .int Q, .str "", .str "", .str "", .str ""⟩ ∧
      k'.kty = .str "RSA" ∧ k'.kid = .str kid ∧ k'.use = .str "" ∧ k'.alg = .str "" ∧
      k'.extra = [] := by
  have pn : 0 < N.n := hN.n.pos _ rfl
  have pe : 0 < N.e := hN.e.pos _ rfl
  have pD : 0 < D := hN.d.pos _ hD
  have pP : 0 < P := hN.p.pos _ hP
  have pQ : 0 < Q := hN.q.pos _ hQ
  have hser : k.serialize true = .ok (.dict (optSet (optSet (optSet (optSet (optSet (optSet (optSet
      (optSet (optSet (optSet (optSet k.common "n" (some N.n)) "e" (some N.e)) "n" (some N.n)) "e"
      (some N.e)) "d" N.d) "p" N.p) "q" N.q) "dp" N.dp) "dq" N.dq) "di" N.di) "qi" N.qi)) := by
    simp only [Key.serialize, hm, rsaSerialize, hk, Bool.true_eq_false, if_false, if_true,
      Bind.bind, Except.bind, serLong_holds hN.n, serLong_holds hN.e, serLong_holds hN.d,
      serLong_holds hN.p, serLong_holds hN.q, serLong_holds hN.dp, serLong_holds hN.dq,
      serLong_holds hN.di, serLong_holds hN.qi, Except.map]
  refine ⟨_, keyCommon "RSA" rsaArgs [("kid", .str kid), ("n", .str (uintTxt N.n)),
    ("e", .str (uintTxt N.e)), ("d", .str (uintTxt D)), ("p", .str (uintTxt P)),
    ("q", .str (uintTxt Q))] (.rsa r)
    (.rsa ⟨.int N.n, .int N.e, .int D, .int P, .int Q, .str "", .str "", .str "", .str ""⟩),
    hser, ?_, rfl, rfl, rfl, rfl, rfl, rfl, rfl⟩
  have hkt : (PyVal.str kid).truthy = true := by simpa [PyVal.truthy] using hne
  generalize hdict : (optSet (optSet (optSet (optSet (optSet (optSet (optSet
      (optSet (optSet (optSet (optSet k.common "n" (some N.n)) "e" (some N.e)) "n" (some N.n)) "e"
      (some N.e)) "d" N.d) "p" N.p) "q" N.q) "dp" N.dp) "dq" N.dq) "di" N.di) "qi" N.qi) = dict
  have gk : PyDict.get? dict "kid" = some (.str kid) := by
    simp [← hdict, get?_optSet, get?_common, hkid, hkt]
  have gt : PyDict.get? dict "kty" = some (.str "RSA") := by
    simp [← hdict, get?_optSet, get?_common, hkty]
  have gn : PyDict.get? dict "n" = some (.str (uintTxt N.n)) := by simp [← hdict, get?_optSet]
  have ge : PyDict.get? dict "e" = some (.str (uintTxt N.e)) := by simp [← hdict, get?_optSet]
  have gd : PyDict.get? dict "d" = some (.str (uintTxt D)) := by simp [← hdict, get?_optSet, hD]
  have gp : PyDict.get? dict "p" = some (.str (uintTxt P)) := by simp [← hdict, get?_optSet, hP]
  have gq : PyDict.get? dict "q" = some (.str (uintTxt Q)) := by simp [← hdict, get?_optSet, hQ]
  clear hdict
  rw [keyFromJwkDict_eq E _ true "RSA" gt, if_neg (by decide), if_pos rfl]
  rw [subDict_ok _ _ (by
    intro s hs
    simp only [readMembers, List.mem_cons, List.not_mem_nil, or_false] at hs
    rcases hs with rfl | rfl | rfl | rfl | rfl | rfl
    · simp [gk]
    · simp [gn]
    · simp [ge]
    · simp [gd]
    · simp [gp]
    · simp [gq])]
  simp only [readMembers, List.map_cons, List.map_nil, gk, gn, ge, gd, gp, gq, Option.getD_some,
    Except.bind]
  have l1 : ∀ n : Nat, 0 < n → 0 < (uintTxt n).length := by
    intro n hn
    rcases Nat.eq_zero_or_pos (uintTxt n).length with h0 | h0
    · exact absurd (String.length_eq_zero_iff.mp h0) (uintTxt_spec hn).1.ne_empty
    · exact h0
  have le : ((uintTxt N.e).length != 0) = true := by
    have := l1 _ pe
    simp only [bne_iff_ne, ne_eq]; omega
  unfold rsaKeyNew
  rw [if_neg (by simp [PyDict.has, PyDict.get?])]
  have hx : ∀ key mat, (keyCommon "RSA" rsaArgs [("kid", .str kid), ("n", .str (uintTxt N.n)),
    ("e", .str (uintTxt N.e)), ("d", .str (uintTxt D)), ("p", .str (uintTxt P)),
    ("q", .str (uintTxt Q))] key mat).x5c = .list [] := fun _ _ => rfl
  have h0 : PyDict.get? [] = fun _ => none := rfl
  simp only [kwGet, get?_cons, String.reduceEq, if_true, if_false, Option.getD_some, Option.getD_none,
    h0, pyLen, hx, Bind.bind, Except.bind, Except.map, gt_iff_lt, l1 _ pn, le]
  rw [if_pos ⟨rfl, .inl trivial⟩]
  unfold rsaDeserialize
  have re : rsaLong (.str "") = .ok (.str "") := rfl
  have te : (PyVal.str "").truthy = false := rfl
  simp only [txt_str_truthy pn, txt_str_truthy pe, Bool.and_self, if_true, Bind.bind, Except.bind,
    rsaLong_txt pn, rsaLong_txt pe, rsaLong_txt pD, rsaLong_txt pP, rsaLong_txt pQ, re, rsaParts,
    int_truthy pD, int_truthy pP, int_truthy pQ, List.cons_append, List.nil_append, asInts,
    PyVal.asInt?, Except.map, hr, valueErrorTo]
  rfl

example : ∃ dict k', exRsa.serialize true = .ok (.dict dict) ∧
    keyFromJwkDict toyEnv dict true = .ok k' ∧ k'.key = .rsa ⟨3233, 17, some (2753, 61, 53)⟩ ∧
    k'.mat = .rsa ⟨.int 3233, .int 17, .int 2753, .int 61, .int 53, .str "", .str "", .str "", .str ""⟩ ∧
    k'.kty = .str "RSA" ∧ k'.kid = .str "k1" ∧ k'.use = .str "" ∧ k'.alg = .str "" ∧ k'.extra = [] := by
  obtain ⟨m, hm, hN⟩ := exRsa_holds
  exact C81_rsa toyEnv exRsa m exNums 2753 61 53 "k1" hm hN rfl rfl rfl rfl rfl rfl (by decide) _ rfl

/-- And for a symmetric key. -/
theorem C81_sym (E : Env) (k : Key) (kk : PyVal) (secret : Bytes) (kid : String) (priv priv' : Bool)
    (hm : k.mat = .sym kk) (hk : k.key = .val (.bytes secret)) (hs0 : secret ≠ [])
    (hkty : k.kty = .str "oct") (hkid : k.kid = .str kid) (hne : kid ≠ "") :
    ∃ dict k', k.serialize priv = .ok (.dict dict) ∧ keyFromJwkDict E dict priv' = .ok k' ∧
      k'.key = .val (.bytes secret) ∧ classOf k' = .sym ∧ k'.kty = .str "oct" ∧ k'.kid = .str kid ∧
      k'.use = .str "" ∧ k'.alg = .str "" ∧ k'.extra = [] := by
  obtain ⟨t, ht1⟩ := asciiDecode_of_lt (b := b64e secret)
    (fun c hc => (urlAlphabet_lt c ((C02_rfc4648 secret).1 c hc)).1)
  have e1 := asciiEncode_utf8 (asciiEncode_decode ht1)
  have hu : asUnicode (b64e secret) = .str t := by rw [← e1.1, asUnicode_encode]
  have hser : k.serialize priv = .ok (.dict (PyDict.set k.common "k" (.str t))) := by
    simp only [Key.serialize, hm, symSerialize, hk, pyBytes, Bind.bind, Except.bind, Except.map, hu]
  have hb : b64e secret ≠ [] := by
    intro h0
    have := C01_roundtrip secret
    rw [h0, b64d_nil] at this
    exact hs0 (by simpa using this.symm)
  refine ⟨_, { keyCommon "oct" symArgs [("kid", .str kid), ("k", .str t)] (.val .none)
    (.sym (.str t)) with key := .val (.bytes secret), mat := .sym (.bytes (b64e secret)) }, hser, ?_,
    rfl, rfl, rfl, rfl, rfl, rfl, rfl⟩
  have hkt : (PyVal.str kid).truthy = true := by simpa [PyVal.truthy] using hne
  have gk : PyDict.get? (PyDict.set k.common "k" (.str t)) "kid" = some (.str kid) := by
    simp [PyDict.get?_set, get?_common, hkid, hkt]
  have gt : PyDict.get? (PyDict.set k.common "k" (.str t)) "kty" = some (.str "oct") := by
    simp [PyDict.get?_set, get?_common, hkty]
  have gkk : PyDict.get? (PyDict.set k.common "k" (.str t)) "k" = some (.str t) := by
    simp [PyDict.get?_set]
  rw [keyFromJwkDict_eq E _ priv' "oct" gt, if_neg (by decide), if_neg (by decide), if_pos rfl]
  rw [subDict_ok _ _ (by
    intro s hs
    simp only [readMembers, List.mem_cons, List.not_mem_nil, or_false] at hs
    rcases hs with rfl | rfl
    · simp [gk]
    · simp [gkk])]
  simp only [readMembers, List.map_cons, List.map_nil, gk, gkk, Option.getD_some, Except.bind]
  unfold symKeyNew
  rw [if_neg (by simp [PyDict.has, PyDict.get?])]
  have hkk : kwGet [("kid", PyVal.str kid), ("k", .str t)] "k" (.str "") = .str t := rfl
  have ht0 : (PyVal.str t).truthy = true := by
    have : t ≠ "" := by
      rintro rfl
      exact hb (by rw [← e1.1]; decide +kernel)
    simpa [PyVal.truthy] using this
  simp only [hkk, asBytes, e1.1]
  rw [if_pos ⟨rfl, ht0⟩]
  simp only [pyBytes, Bind.bind, Except.bind, C01_roundtrip]

example : ∃ dict k', exSym.serialize true = .ok (.dict dict) ∧ keyFromJwkDict toyEnv dict false = .ok k' ∧
    k'.key = .val (.bytes [1, 2, 3]) ∧ classOf k' = .sym ∧ k'.kty = .str "oct" ∧ k'.kid = .str "s1" ∧
    k'.use = .str "" ∧ k'.alg = .str "" ∧ k'.extra = [] :=
  C81_sym toyEnv exSym _ _ "s1" true false rfl rfl (by decide) rfl rfl (by decide)

example : keyFromJwkDict toyEnv [("kty", .str "oct"), ("k", .str "AQID")] true = .error .keyError :=
  C81_missing toyEnv _ true "oct" "kid" rfl (by decide) rfl

example : keyFromJwkDict toyEnv [("kty", .str "OKP")] true = .error .unknownAlgorithm :=
  C81_unknown toyEnv _ true "OKP" rfl (by decide)

example : keyFromJwkDict toyEnv [("kty", .str "EC"), ("kid", .str "a"), ("crv", .str "P-256"),
      ("x", .str "AQ"), ("y", .str "Ag")] false =
    keyFromJwkDict toyEnv [("use", .str "enc"), ("kty", .str "EC"), ("kid", .str "a"),
      ("crv", .str "P-256"), ("d", .int 7), ("x", .str "AQ"), ("y", .str "Ag")] false :=
  C81_only toyEnv _ _ false "EC" rfl rfl (by
    intro s hs
    simp only [readMembers, List.mem_cons, List.not_mem_nil, or_false] at hs
    rcases hs with rfl | rfl | rfl | rfl <;> rfl)

end Verif
