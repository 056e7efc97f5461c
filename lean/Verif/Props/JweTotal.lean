import Verif.Props.Sendable
import Verif.Props.JweEc
import Verif.Props.JweHeader
import Verif.Props.Real
/-
C110: encryption succeeds.  C57, C58 and C59 show it for keys without `kid` and objects with nothing but `alg` and
`enc`; here the object and the keys are arbitrary.
-/

namespace Verif
open Spec

/-- A value that can be a member of a header: a JSON value or bytes that are text, of less than `2 ^ 50`
characters when written. -/
def Spec.Writable (v : PyVal) : Prop := ∃ w s, TextOf v w ∧ jsonDumpsC w = .ok s ∧ s.length ≤ 2 ^ 50

/-- Every member of the dictionary is writable, the names are short and there are at most `n` of them. -/
structure HdrInv (n : Nat) (d : PyDict) : Prop where
  len : d.length ≤ n
  names : ∀ p ∈ d, p.1.length ≤ 3
  values : ∀ p ∈ d, Writable p.2

theorem hdrInv_nil : HdrInv 0 [] := ⟨le_refl _, by simp, by simp⟩

theorem mem_dictSet {d : PyDict} {k : String} {v : PyVal} {p : String × PyVal} (h : p ∈ PyDict.set d k v) :
    p ∈ d ∨ p = (k, v) := by
  induction d with
  | nil => simpa [PyDict.set] using h
  | cons x d ih =>
    obtain ⟨a, b⟩ := x
    unfold PyDict.set at h
    split at h
    · rcases List.mem_cons.mp h with rfl | h
      · exact .inr rfl
      · exact .inl (List.mem_cons_of_mem _ h)
    · rcases List.mem_cons.mp h with rfl | h
      · exact .inl (by simp)
      · rcases ih h with h | h
        · exact .inl (List.mem_cons_of_mem _ h)
        · exact .inr h

theorem dictSet_length (d : PyDict) (k : String) (v : PyVal) : (PyDict.set d k v).length ≤ d.length + 1 := by
  induction d with
  | nil => simp [PyDict.set]
  | cons x d ih =>
    obtain ⟨a, b⟩ := x
    unfold PyDict.set
    split
    · simp
    · simp only [List.length_cons]; omega

theorem hdrInv_set {n : Nat} {d : PyDict} (h : HdrInv n d) {k : String} {v : PyVal} (hk : k.length ≤ 3)
    (hv : Writable v) : HdrInv (n + 1) (PyDict.set d k v) := by
  refine ⟨le_trans (dictSet_length d k v) (by have := h.len; omega), fun p hp => ?_, fun p hp => ?_⟩
  · rcases mem_dictSet hp with hp | rfl
    · exact h.names p hp
    · exact hk
  · rcases mem_dictSet hp with hp | rfl
    · exact h.values p hp
    · exact hv

theorem hdrInv_mono {n m : Nat} {d : PyDict} (h : HdrInv n d) (hm : n ≤ m) : HdrInv m d :=
  ⟨le_trans h.len hm, h.names, h.values⟩

theorem writable_str {s : String} (h : s.length ≤ 2 ^ 40) : Writable (.str s) := by
  refine ⟨_, _, .str s, rfl, ?_⟩
  have := jsonStr_length s
  rw [String.length_ofList]
  omega

theorem writable_nil : Writable (.list []) :=
  ⟨_, _, .list .nil, rfl, by decide⟩

theorem writable_bytes {b : Bytes} (h : b.length ≤ 2 ^ 39) : Writable (.bytes (b64e b)) := by
  obtain ⟨s, hs, he⟩ := utf8Decode_ascii (b64e_ascii b)
  have hl := (utf8Encode_length s).1
  rw [he, (C02_length _).1] at hl
  obtain ⟨w, t, h1, h2, h3⟩ := writable_str (s := s) (by omega)
  cases h1
  exact ⟨_, t, by rw [← he]; exact .bytes s, h2, h3⟩

theorem hdrInv_initFold {kw : PyDict} (hkw : ∀ n v, PyDict.get? kw n = some v → n ≠ "cek" → n ≠ "iv" → Writable v) :
    ∀ (l : List String) (n : Nat) (d : PyDict), (∀ a ∈ l, a.length ≤ 3 ∨ a = "crit") → "cek" ∉ l → "iv" ∉ l → HdrInv n d →
      HdrInv (n + l.length) (l.foldl (initStep kw) d)
  | [], n, d, _, _, _, h => h
  | a :: l, n, d, hl, hc, hi, h => by
    have hca : a ≠ "cek" := fun h => hc (by rw [h]; simp)
    have hia : a ≠ "iv" := fun h => hi (by rw [h]; simp)
    have hc' : "cek" ∉ l := fun h => hc (List.mem_cons_of_mem _ h)
    have hi' : "iv" ∉ l := fun h => hi (List.mem_cons_of_mem _ h)
    have hl' : ∀ x ∈ l, x.length ≤ 3 ∨ x = "crit" := fun x hx => hl x (List.mem_cons_of_mem _ hx)
    rw [List.foldl_cons, List.length_cons, show n + (l.length + 1) = (n + 1) + l.length by omega]
    refine hdrInv_initFold hkw l (n + 1) _ hl' hc' hi' ?_
    unfold initStep
    split
    · split
      · exact hdrInv_set h (by decide) (writable_str (by decide))
      · exact hdrInv_mono h (by omega)
    · rename_i v hv
      split
      · refine hdrInv_set h (by decide) ?_
        split
        · exact hkw _ _ hv hca hia
        · exact writable_nil
      · rename_i hx
        refine hdrInv_set h ?_ (hkw _ _ hv hca hia)
        rcases hl a (by simp) with h | rfl
        · exact h
        · simp at hx

/-- The members in a row. -/
theorem dumpD_size : ∀ (d : PyDict), (∀ p ∈ d, p.1.length ≤ 3) → (∀ p ∈ d, Writable p.2) →
    ∃ e t, b2sConvD d = .ok e ∧ dumpD [','] [':'] e = .ok t ∧ t.length ≤ d.length * (2 ^ 50 + 40)
  | [], _, _ => ⟨[], [], rfl, rfl, by simp⟩
  | (k, v) :: d, hn, hv => by
    obtain ⟨e, t, h1, h2, h3⟩ := dumpD_size d (fun p hp => hn p (List.mem_cons_of_mem _ hp))
      (fun p hp => hv p (List.mem_cons_of_mem _ hp))
    obtain ⟨w, s, g1, g2, g3⟩ := hv (k, v) (by simp)
    have hk := hn (k, v) (by simp)
    have g1 := b2sConv_complete g1
    unfold jsonDumpsC at g2
    cases hd : dumpV [','] [':'] w with
    | error x => rw [hd] at g2; cases g2
    | ok c =>
      rw [hd] at g2
      cases g2
      rw [String.length_ofList] at g3
      refine ⟨(k, w) :: e, _, by simp [b2sConvD, g1, h1, Bind.bind, Except.bind],
        by simp only [dumpD, hd, h2, Bind.bind, Except.bind]; rfl, ?_⟩
      have := jsonStr_length k
      simp only [List.length_append, List.length_cons, List.length_nil] at *
      have e : (d.length + 1) * (2 ^ 50 + 40) = d.length * (2 ^ 50 + 40) + (2 ^ 50 + 40) := by ring
      omega

/-- Such a dictionary can be encoded. -/
theorem hdrInv_encode {d : PyDict} (h : HdrInv 20 d) (hne : d ≠ []) :
    ∃ bh, b64encodeItem (.dict d) = .ok bh ∧ bh.length < 2 ^ 61 := by
  obtain ⟨hl, hn, hv⟩ := h
  obtain ⟨e, t, h1, h2, h3⟩ := dumpD_size d hn hv
  have hd : ∃ t', dumpV [','] [':'] (.dict e) = .ok t' ∧ t'.length ≤ t.length + 1 := by
    cases e with
    | nil =>
      exfalso
      cases d with
      | nil => exact hne rfl
      | cons p d =>
        simp only [b2sConvD, Bind.bind] at h1
        obtain ⟨x, -, h1'⟩ := bind_ok_iff.mp h1
        obtain ⟨y, -, h1''⟩ := bind_ok_iff.mp h1'
        cases h1''
    | cons p e =>
      obtain ⟨k, v⟩ := p
      simp only [dumpD, Bind.bind] at h2
      obtain ⟨a, ha, h2'⟩ := bind_ok_iff.mp h2
      obtain ⟨b, hb, h2''⟩ := bind_ok_iff.mp h2'
      cases h2''
      refine ⟨_, by simp only [dumpV, ha, hb, Bind.bind, Except.bind]; rfl, ?_⟩
      simp only [List.length_append, List.length_cons, List.length_nil]
      omega
  obtain ⟨t', h4, h5⟩ := hd
  refine ⟨b64e (utf8Encode (String.ofList t')), ?_, ?_⟩
  · have : b2sConv (.dict d) = .ok (.dict e) := by simp [b2sConv, h1, Except.map]
    simp [b64encodeItem, this, jsonDumpsC, h4, Bind.bind, Except.bind, Except.map]
  · rw [(C02_length _).1]
    have h6 := (utf8Encode_length (String.ofList t')).2
    rw [String.length_ofList] at h6
    have h7 : d.length * (2 ^ 50 + 40) ≤ 20 * (2 ^ 50 + 40) := Nat.mul_le_mul_right _ hl
    omega

theorem generate_total {rnd : JweRnd} (hr : RndLengths rnd) {enc : String} {kl il : Nat} (he : EncName enc kl il)
    {cek iv : Bytes} (hc : cek = [] ∨ cek.length = kl) (hi : iv = [] ∨ iv.length = il) :
    ∃ c v, generateKeyAndIv rnd (.str enc) cek iv = .ok (c, v) ∧ c.length = kl ∧ v.length = il ∧
      (c = if cek = [] then rnd.key kl else cek) := by
  obtain ⟨hlk, -⟩ := encName_lookup he
  have hck : (if cek ≠ [] then cek else rnd.key kl).length = kl := by
    split
    · rename_i h; exact hc.resolve_left h
    · exact hr.1 kl
  have hiv : (if iv ≠ [] then iv else rnd.iv il).length = il := by
    split
    · rename_i h; exact hi.resolve_left h
    · exact hr.2 il
  refine ⟨if cek ≠ [] then cek else rnd.key kl, if iv ≠ [] then iv else rnd.iv il, ?_, hck, hiv, ?_⟩
  · unfold generateKeyAndIv
    by_cases h : cek ≠ [] ∧ iv ≠ []
    · rw [if_pos h, if_pos h.1, if_pos h.2]
    · rw [if_neg h]
      simp only [hlk]
  · by_cases h : cek = [] <;> simp [h]

/-- The entries of the object that go into headers. -/
def Spec.EntriesWritable (o : Jwe) : Prop :=
  ∀ n v, PyDict.get? o.dict n = some v → n ≠ "cek" → n ≠ "iv" → Writable v

theorem sym_setKid_inv {o : Jwe} (hw : EntriesWritable o) {k : Key} (hk : k.kid.truthy = true → Writable k.kid) :
    HdrInv 11 (o.symEncrypter.setKid k).dict := by
  have h := hdrInv_initFold hw symArgsJwe 0 [] (by decide) (by decide) (by decide) hdrInv_nil
  unfold Jwe.setKid
  split
  · rename_i ht
    exact hdrInv_set (n := 10) h (by decide) (hk ht)
  · exact hdrInv_mono h (by decide)

theorem sym_setKid_get {o : Jwe} {alg enc : String} (halg : PyDict.get? o.dict "alg" = some (.str alg))
    (henc : PyDict.get? o.dict "enc" = some (.str enc)) (k : Key) :
    PyDict.get? (o.symEncrypter.setKid k).dict "alg" = some (.str alg) ∧
      PyDict.get? (o.symEncrypter.setKid k).dict "enc" = some (.str enc) ∧
      PyDict.get? (o.symEncrypter.setKid k).dict "self" = none ∧
      (o.symEncrypter.setKid k).jwk = o.jwk ∧ (o.symEncrypter.setKid k).msg = o.msg := by
  refine ⟨?_, ?_, ?_, by unfold Jwe.setKid; split <;> rfl, by unfold Jwe.setKid; split <;> rfl⟩
  · rw [get?_setKid (by decide)]
    exact get?_initFold_alg _ _ halg _
  · rw [get?_setKid (by decide), ← henc]
    exact get?_initFold_mem _ _ (by decide) (by decide) (by decide) _ (by decide) _ rfl
  · rw [get?_setKid (by decide)]
    exact get?_initFold_out _ _ (by decide) _ (by decide) _

theorem withKid_get {d : PyDict} {n : String} (hn : n ≠ "kid") (kid : Option PyVal) :
    PyDict.get? (withKid d kid) n = PyDict.get? d n := by
  cases kid with
  | none => rfl
  | some v =>
    simp only [withKid]
    rw [PyDict.get?_set, if_neg hn]

/-- **C110.** Key wrap: there is a token whenever the first picked key is a shared key, the message is a text
of at most 64 GiB, a given content key or iv has the right length, and the object has no `jwk`. -/
theorem C110_wrap {E : Env} (hC : E.C.Lawful) (hH : E.H.Lawful) {o : Jwe} {rnd : JweRnd} (hr : RndLengths rnd)
    {keys l : List Key} {cek iv : Bytes} {kid : Option PyVal} {alg enc : String} {n kl il : Nat}
    (halg : PyDict.get? o.dict "alg" = some (.str alg)) (hm : MgmtName alg (.wrap n))
    (henc : PyDict.get? o.dict "enc" = some (.str enc)) (he : EncName enc kl il)
    {wk : PyVal} {k : Key} {secret : Bytes} (heff : EffKeys o.toJwx keys l) (hsk : SignKid o.toJwx wk)
    (hf : FirstPicked (.wrap n) alg wk l k) (hk : SharedKey k secret)
    {m : String} (hmsg : o.msg = .str m) (hl : (utf8Encode m).length ≤ 16 * 2 ^ 32)
    (hjwk : o.jwk = none) (hw : EntriesWritable o) (hkw : k.kid.truthy = true → Writable k.kid)
    (hkid : ∀ v, kid = some v → Writable v)
    (hcek : cek = [] ∨ cek.length = kl) (hiv : iv = [] ∨ iv.length = il) :
    ∃ t, (o.encrypt E rnd keys cek iv kid).1 = .ok t := by
  rw [encrypt_of_first halg hm heff hsk hf]
  obtain ⟨hke, hkok⟩ := shared_encryptionKey hH hk hm true
  generalize (E.H.hash .sha256 secret).take n = kek at hke hkok
  obtain ⟨g1, g2, g3, g4, g5⟩ := sym_setKid_get halg henc k
  have hinv := sym_setKid_inv hw hkw
  generalize hx : o.symEncrypter.setKid k = x at g1 g2 g3 g4 g5 hinv
  have hinv2 : HdrInv 20 (withKid x.dict kid) := by
    cases kid with
    | none => exact hdrInv_mono hinv (by decide)
    | some v => exact hdrInv_mono (hdrInv_set hinv (by decide) (hkid v rfl)) (by decide)
  have e1 : PyDict.get? (withKid x.dict kid) "alg" = some (.str alg) := by rw [withKid_get (by decide), g1]
  have e2 : PyDict.get? (withKid x.dict kid) "enc" = some (.str enc) := by rw [withKid_get (by decide), g2]
  have e3 : PyDict.has (withKid x.dict kid) "self" = false := by
    unfold PyDict.has
    rw [withKid_get (by decide), g3]
    rfl
  have hne : withKid x.dict kid ≠ [] := by
    intro h
    rw [h] at e1
    cases e1
  obtain ⟨bh, hbh, hbl⟩ := hdrInv_encode hinv2 hne
  obtain ⟨c, v, hgen, hcl, hvl, -⟩ := generate_total hr he hcek hiv
  have hkl8 : kl % 8 = 0 ∧ kl < 2 ^ 61 := by cases he <;> norm_num
  obtain ⟨w, hwr, -⟩ := C35_roundtrip E.C hC kek c 0xa6a6a6a6a6a6a6a6 hkok (by norm_num)
    (by rw [hcl]; exact hkl8.1) (by rw [hcl]; exact hkl8.2)
  have hwr : aesWrapKey E.C kek c = .ok w := hwr
  obtain ⟨ct, tag, hes⟩ := encSetup_total (E := E) (rnd := rnd) hC hH he (m := utf8Encode m) (aad := bh)
    hcl hvl hl hbl
  have hinit := init_header hbh e3 (by rw [e1]; simp [PyVal.truthy, (mgmt_keytype hm).1])
  obtain ⟨t, ht⟩ := pack_of_header
    (j := Jwt.mk (.dict (withKid x.dict kid)) [bh] [(b64d bh).toOption.getD []]) rfl hne hbh
    (ek := .bytes w) (.inr rfl) v ct tag
  refine ⟨t, ?_⟩
  unfold Jwe.encryptWith
  rw [mgmt_kind hm]
  simp only [Bind.bind, Except.bind, hke, hx]
  unfold Jwe.symEncrypt
  rw [g4, g5, hjwk, hmsg]
  simp only [jwencNew, Option.isSome_none, Bool.false_eq_true, if_false, hinit, Bind.bind,
    Except.bind, PyVal.getItem, e2, hgen, symKek, hwr, strEncode, Jwt.b64EncodeHeader, hbh, hes, ht]
  rfl

/-! ### RSA -/

theorem mem_trueParams {d : PyDict} {l : List String} {p : String × PyVal} (h : p ∈ trueParams d l) :
    p.1 ∈ l ∧ PyDict.get? d p.1 = some p.2 := by
  unfold trueParams at h
  obtain ⟨a, ha, hp⟩ := List.mem_filterMap.mp h
  split at hp
  · rename_i v hv
    split at hp
    · cases hp; exact ⟨ha, hv⟩
    · cases hp
  · cases hp

theorem trueParams_inv {n : Nat} {d : PyDict} (h : HdrInv n d) (l : List String) : HdrInv l.length (trueParams d l) := by
  refine ⟨?_, fun p hp => ?_, fun p hp => ?_⟩
  · have := (trueParams_keys d l).length_le
    simpa using this
  · exact h.names _ (get?_mem (mem_trueParams hp).2)
  · exact h.values _ (get?_mem (mem_trueParams hp).2)

theorem hdrInv_append {n m : Nat} {d e : PyDict} (h : HdrInv n d) (h' : HdrInv m e) : HdrInv (n + m) (d ++ e) := by
  refine ⟨?_, fun p hp => ?_, fun p hp => ?_⟩
  · have := h.len
    have := h'.len
    simp only [List.length_append]
    omega
  · rcases List.mem_append.mp hp with hp | hp
    · exact h.names p hp
    · exact h'.names p hp
  · rcases List.mem_append.mp hp with hp | hp
    · exact h.values p hp
    · exact h'.values p hp

/-- The `jwk` of the object: none, or a key object that can be written out. -/
def Spec.JwkWritable (o : Jwe) : Prop :=
  o.jwk = none ∨ ∃ k v, o.jwk = some (.key k) ∧ k.serializeDflt = .ok v ∧ Writable v

theorem jwkHeader_inv {o : Jwe} (h : JwkWritable o) : ∃ jw, jwkHeader o.jwk = .ok jw ∧ HdrInv 1 jw ∧
    PyDict.get? jw "alg" = none ∧ PyDict.get? jw "self" = none := by
  rcases h with h | ⟨k, v, h, hs, hw⟩
  · exact ⟨[], by rw [h]; rfl, hdrInv_mono hdrInv_nil (by decide), rfl, rfl⟩
  · refine ⟨[("jwk", v)], by simp [h, jwkHeader, hs, Except.map], ⟨by simp, ?_, ?_⟩, rfl, rfl⟩ <;>
      (intro p hp; rw [List.mem_singleton.mp hp])
    · exact (by decide : "jwk".length ≤ 3)
    · exact hw

/-- **C110.** RSA: there is a token whenever the first picked key is an RSA key that can encrypt the content
key, the `kid` is a text, and `zip` is absent or `DEF`. -/
theorem C110_rsa {E : Env} (hC : E.C.Lawful) (hH : E.H.Lawful) {o : Jwe} {rnd : JweRnd} (hr : RndLengths rnd)
    {keys l : List Key} {cek iv : Bytes} {kid : Option PyVal} {alg enc : String} {p : RsaPad} {kl il : Nat}
    (halg : PyDict.get? o.dict "alg" = some (.str alg)) (hm : MgmtName alg (.rsa p))
    (henc : PyDict.get? o.dict "enc" = some (.str enc)) (he : EncName enc kl il)
    {wk : PyVal} {k : Key} {r : RsaKey} (heff : EffKeys o.toJwx keys l) (hsk : SignKid o.toJwx wk)
    (hf : FirstPicked (.rsa p) alg wk l k) (hk : HoldsRsa k r)
    (hlib : cek = [] → ∃ ek, rsaEncrypterEncrypt E false rnd.rsa (rnd.key kl) (.obj (.rsa r)) p = .ok ek)
    {m : Bytes} (hmsg : MsgBytes o.msg m)
    (hz : (PyDict.get? o.dict "zip" = none ∧ m.length ≤ 16 * 2 ^ 32) ∨
      (PyDict.get? o.dict "zip" = some (.str "DEF") ∧ (E.Z.compress m).length ≤ 16 * 2 ^ 32))
    (hepk : o.epk = none) (hjwk : JwkWritable o) (hw : EntriesWritable o)
    (hkw : k.kid.truthy = true → ∃ s, k.kid = .str s ∧ s.length ≤ 2 ^ 40)
    (hok : ∀ v, PyDict.get? o.dict "kid" = some v → ∃ s, v = .str s)
    (hcek : cek = [] ∨ cek.length = kl) (hiv : iv = [] ∨ iv.length = il) :
    ∃ t, (o.encrypt E rnd keys cek iv kid).1 = .ok t := by
  rw [encrypt_of_first halg hm heff hsk hf]
  -- the object of the class `JWE_RSA`
  have hfold := hdrInv_initFold hw (jweArgs1 ++ jweArgs2) 0 [] (by decide) (by decide) (by decide) hdrInv_nil
  have hmem : ∀ n, n ∈ ["enc", "zip", "kid"] →
      PyDict.get? o.rsaEncrypter.dict n = PyDict.get? o.dict n := by
    intro n hn
    simp only [List.mem_cons, List.not_mem_nil, or_false] at hn
    rcases hn with rfl | rfl | rfl <;>
      exact get?_initFold_mem _ _ (by decide) (by decide) (by decide) _ (by decide) _ rfl
  have ha : PyDict.get? o.rsaEncrypter.dict "alg" = some (.str alg) := get?_initFold_alg _ _ halg _
  have g1 : PyDict.get? (o.rsaEncrypter.setKid k).dict "alg" = some (.str alg) := by
    rw [get?_setKid (by decide), ha]
  have g2 : PyDict.get? (o.rsaEncrypter.setKid k).dict "enc" = some (.str enc) := by
    rw [get?_setKid (by decide), hmem _ (by decide), henc]
  have g3 : PyDict.get? (o.rsaEncrypter.setKid k).dict "zip" = PyDict.get? o.dict "zip" := by
    rw [get?_setKid (by decide), hmem _ (by decide)]
  have g4 : kidIsText (PyDict.get? (o.rsaEncrypter.setKid k).dict "kid") = .ok () := by
    rw [get?_setKid_kid, hmem _ (by decide)]
    split
    · rename_i ht
      obtain ⟨s, hs, -⟩ := hkw ht
      rw [hs]
      rfl
    · cases hkv : PyDict.get? o.dict "kid" with
      | none => rfl
      | some v =>
        obtain ⟨s, rfl⟩ := hok v hkv
        rfl
  have g5 : (o.rsaEncrypter.setKid k).jwk = o.jwk ∧ (o.rsaEncrypter.setKid k).msg = o.msg ∧
      (o.rsaEncrypter.setKid k).epk = none := by
    unfold Jwe.setKid; split <;> exact ⟨rfl, rfl, hepk⟩
  have hinv : HdrInv 14 (o.rsaEncrypter.setKid k).dict := by
    unfold Jwe.setKid
    split
    · rename_i ht
      obtain ⟨s, hs, hsl⟩ := hkw ht
      exact hdrInv_set (n := 13) hfold (by decide) (by rw [hs]; exact writable_str hsl)
    · exact hdrInv_mono hfold (by decide)
  generalize hx : o.rsaEncrypter.setKid k = x at g1 g2 g3 g4 g5 hinv
  obtain ⟨hxj, hxm, hxe⟩ := g5
  -- the header
  obtain ⟨jw, hjw, hjinv, hja, hjs⟩ := jwkHeader_inv hjwk
  have hhd : x.headers = .ok (trueParams x.dict jweArgs1 ++ jw ++ trueParams x.dict jweArgs2) := by
    unfold Jwe.headers
    simp only [Bind.bind, hxj, hjw, Except.bind, g4]
  have hinv2 : HdrInv 20 (trueParams x.dict jweArgs1 ++ jw ++ trueParams x.dict jweArgs2) :=
    hdrInv_mono (hdrInv_append (hdrInv_append (trueParams_inv hinv jweArgs1) hjinv) (trueParams_inv hinv jweArgs2))
      (by decide)
  have hta : (PyVal.str alg).truthy = true := by simp [PyVal.truthy, (mgmt_keytype hm).1]
  have e1 : PyDict.get? (trueParams x.dict jweArgs1 ++ jw ++ trueParams x.dict jweArgs2) "alg" = some (.str alg) := by
    have := get?_trueParams x.dict "alg" jweArgs1 (by decide)
    rw [g1, Option.filter_some, if_pos hta] at this
    unfold PyDict.get? at this ⊢
    rw [List.lookup_append, List.lookup_append, this]
    rfl
  have e3 : PyDict.has (trueParams x.dict jweArgs1 ++ jw ++ trueParams x.dict jweArgs2) "self" = false := by
    have h1 := get?_trueParams_out x.dict "self" jweArgs1 (by decide)
    have h2 := get?_trueParams_out x.dict "self" jweArgs2 (by decide)
    unfold PyDict.has
    unfold PyDict.get? at h1 h2 hjs ⊢
    rw [List.lookup_append, List.lookup_append, h1, h2, hjs]
    rfl
  generalize trueParams x.dict jweArgs1 ++ jw ++ trueParams x.dict jweArgs2 = h at hhd hinv2 e1 e3
  have hne : h ≠ [] := by
    rintro rfl
    cases e1
  obtain ⟨bh, hbh, hbl⟩ := hdrInv_encode hinv2 hne
  obtain ⟨c, v, hgen, hcl, hvl, hceq⟩ := generate_total hr he hcek hiv
  have hasb : asBytes x.msg = .bytes m := by
    rw [hxm]
    rcases hmsg with ⟨s, hs, rfl⟩ | hs <;> rw [hs] <;> rfl
  obtain ⟨y, hy, hyl⟩ : ∃ y, x.zipMsg E = .ok (.bytes y) ∧ y.length ≤ 16 * 2 ^ 32 := by
    unfold Jwe.zipMsg
    simp only [g3, hasb]
    rcases hz with ⟨hz, hl⟩ | ⟨hz, hl⟩
    · rw [hz]; exact ⟨m, rfl, hl⟩
    · rw [hz]; exact ⟨E.Z.compress m, rfl, hl⟩
  obtain ⟨ct, tag, hes⟩ := encSetup_total (E := E) (rnd := rnd) hC hH he (m := y) (aad := bh) hcl hvl hyl hbl
  have hinit := init_header hbh e3 (by rw [e1]; exact hta)
  have hekx : ∃ ek ekb, MsgBytes ek ekb ∧ (if cek ≠ [] then Except.ok (.str "") else do
      let pad ← rsaPadOf (.str alg)
      let b ← rsaEncrypterEncrypt E false rnd.rsa c (.obj (.rsa r)) pad
      .ok (.bytes b) : PyM PyVal) = .ok ek := by
    by_cases hce : cek = []
    · obtain ⟨ek, hek⟩ := hlib hce
      rw [if_pos hce] at hceq
      subst hceq
      refine ⟨.bytes ek, ek, .inr rfl, ?_⟩
      simp only [hce, ne_eq, not_true_eq_false, if_false, rsaPadOf_name hm, Bind.bind, Except.bind, hek]
    · exact ⟨.str "", _, .inl ⟨_, rfl, rfl⟩, by rw [if_pos hce]⟩
  obtain ⟨ek, ekb, hekb, hek⟩ := hekx
  obtain ⟨t, ht⟩ := pack_of_header
    (j := Jwt.mk (.dict h) [bh] [(b64d bh).toOption.getD []]) rfl hne hbh (ek := ek) hekb v ct tag
  refine ⟨t, ?_⟩
  unfold Jwe.encryptWith
  rw [mgmt_kind hm]
  simp only [Bind.bind, Except.bind, holdsRsa_key hk, hx]
  unfold Jwe.rsaEncrypt
  simp only [hy, PyVal.getItem, g1, g2, Bind.bind, Except.bind, hgen, hhd, jwencNew, hxe,
    Option.isSome_none, Bool.false_eq_true, if_false, hinit, Jwt.b64EncodeHeader, hbh, hes] at hek ⊢
  rw [hek]
  simp only [ht]
  rfl

/-- **C110.** With the standard algorithms an RSA key of 1040 bits or more can encrypt the content key. -/
theorem C110_rsa_key {E : Env} (hE : Standard E) {rnd : JweRnd} (hr : RndLengths rnd) {enc : String} {kl il : Nat}
    (he : EncName enc kl il) {r : RsaKey} (hn : (2 : Int) ^ 1039 ≤ r.n) (p : RsaPad) :
    ∃ ek, rsaEncrypterEncrypt E false rnd.rsa (rnd.key kl) (.obj (.rsa r)) p = .ok ek := by
  have h130 : 130 ≤ Real.modLen r := Real.modLen_of_bits hn
  have hcl : (rnd.key kl).length ≤ 64 := by rw [hr.1]; cases he <;> decide
  obtain ⟨f, hf⟩ := hE.rsa
  unfold rsaEncrypterEncrypt
  simp only [rsaKeyArg, Bind.bind, Except.bind, hf]
  cases p with
  | pkcs1 =>
    simp only [Bool.false_eq_true, if_false]
    exact Real.enc15_total (by omega) _
  | oaep => exact Real.encOaep_total (a := .sha1) (by simp only [HashAlg.size]; omega) _
  | oaep256 => exact Real.encOaep_total (a := .sha256) (by simp only [HashAlg.size]; omega) _

/-! ### Key agreement -/

theorem writable_epk {C : NistCurve} (hC : C.name.length = 5) {X Y : Nat} (px : 0 < X) (py : 0 < Y)
    (lx : X < 256 ^ 66) (ly : Y < 256 ^ 66) :
    Writable (.dict [("kty", .str "EC"), ("crv", .str C.name), ("x", .str (uintTxt X)), ("y", .str (uintTxt Y))]) := by
  refine ⟨_, _, .dict (.cons (.str _) (.cons (.str _) (.cons (.str _) (.cons (.str _) .nil)))), rfl, ?_⟩
  have hxl := uintTxt_length px lx
  have hyl := uintTxt_length py ly
  have g5 := jsonStr_length C.name
  have g6 := jsonStr_length (uintTxt X)
  have g7 := jsonStr_length (uintTxt Y)
  have e6 : (jsonStr "kty").length = 5 := by decide
  have e7 : (jsonStr "crv").length = 5 := by decide
  have e8 : (jsonStr "x").length = 3 := by decide
  have e9 : (jsonStr "y").length = 3 := by decide
  have e10 : (jsonStr "EC").length = 4 := by decide
  simp only [String.length_ofList, List.length_cons, List.length_append, List.length_nil, List.cons_append,
    e6, e7, e8, e9, e10]
  omega

/-- The party information `name`: what the object holds, else the random value. -/
def Spec.PartyInfo (o : Jwe) (name : String) (random u : Bytes) : Prop :=
  (PyDict.get? o.dict name = none ∧ u = random) ∨
    ∃ b, PyDict.get? o.dict name = some (.bytes b) ∧ b64d b = .ok u

theorem partyParam_of {o : Jwe} {name : String} {random u : Bytes} (h : PartyInfo o name random u) :
    partyParam o.dict name random = .ok u := by
  unfold partyParam
  rcases h with ⟨h, rfl⟩ | ⟨b, h, hb⟩
  · rw [h]
  · rw [h]; exact hb

theorem stored_total {d : PyDict} {name : String} {n : Nat}
    (h : ∀ b, PyDict.get? d name = some (.bytes b) → b = [] ∨ b.length = n) :
    storedBytes d name = [] ∨ (storedBytes d name).length = n := by
  unfold storedBytes
  split
  · rename_i b hb; exact h b hb
  · exact .inl rfl

theorem update_get3 {d : PyDict} {u v e : PyVal} {n : String} (h1 : n ≠ "apu") (h2 : n ≠ "apv") (h3 : n ≠ "epk") :
    PyDict.get? (PyDict.update d [("apu", u), ("apv", v), ("epk", e)]) n = PyDict.get? d n := by
  simp only [PyDict.update, List.foldl_cons, List.foldl_nil]
  rw [PyDict.get?_set, if_neg h3, PyDict.get?_set, if_neg h2, PyDict.get?_set, if_neg h1]

/-- **C110.** Key agreement: there is a token whenever the first picked key is an EC key with both halves (C65 says
that with a public key alone there is none), on one of the three curves. -/
theorem C110_ecdh {E : Env} (hC : E.C.Lawful) (hH : E.H.Lawful) {o : Jwe} {rnd : JweRnd} (hr : RndLengths rnd)
    {keys l : List Key} {cek iv : Bytes} {kid : Option PyVal} {alg enc : String} {m : KeyMgmt} {kl il : Nat}
    (halg : PyDict.get? o.dict "alg" = some (.str alg)) (hm : MgmtName alg m) (hma : IsAgreement m)
    (henc : PyDict.get? o.dict "enc" = some (.str enc)) (he : EncName enc kl il)
    {wk : PyVal} {k : Key} (heff : EffKeys o.toJwx keys l) (hsk : SignKid o.toJwx wk)
    (hf : FirstPicked m alg wk l k) {C : NistCurve} {X Y : Int} {D : Nat}
    (hk : HasPoint C X Y k) (hkd : HasScalar D k) (hD : 0 < D ∧ D < C.N) (hpub : C.publicKeyFor D = some (X, Y))
    (heph : ∀ y, (C.keyPair rnd.eph).2 ≠ some (0, y))
    {apu apv : Bytes} (hpu : PartyInfo o "apu" rnd.apu apu) (hpv : PartyInfo o "apv" rnd.apv apv)
    (hu : apu.length < 2 ^ 32) (hv : apv.length < 2 ^ 32)
    {msg : Bytes} (hmsg : MsgBytes o.msg msg) (hl : msg.length ≤ 16 * 2 ^ 32)
    (hjwk : o.jwk = none) (hepk : o.epk = none) (hepk2 : PyDict.get? o.dict "epk" = none)
    (hw : EntriesWritable o) (hkw : k.kid.truthy = true → Writable k.kid)
    (hkid : ∀ v, kid = some v → Writable v)
    (hcek : ∀ b, PyDict.get? o.dict "cek" = some (.bytes b) → b = [] ∨ b.length = kl)
    (hiv : ∀ b, PyDict.get? o.dict "iv" = some (.bytes b) → b = [] ∨ b.length = il) :
    ∃ t, (o.encrypt E rnd keys cek iv kid).1 = .ok t := by
  rw [encrypt_of_first halg hm heff hsk hf]
  -- the ephemeral key
  obtain ⟨crv, d, c, hn, hmat⟩ := hk
  obtain ⟨hcn, hsound⟩ := hn.name
  obtain ⟨hnl, hpl⟩ := hn.sizes
  have hdv : d = .int D := by
    obtain ⟨_, _, _, _, hx⟩ := hkd
    rw [hmat] at hx; cases hx; rfl
  subst hdv
  obtain ⟨hd0, hdN, hkp, ex, ey, hxy, hx0, hx1, hy0, hy1, -⟩ := NistCurve.C56_key_pair hsound rnd.eph
  generalize hed : (C.keyPair rnd.eph).1 = ed at hd0 hdN hkp
  rw [hxy] at hkp
  have hyne := publicKeyFor_y hsound hkp.symm
  have hxne : ex ≠ 0 := by rintro rfl; exact heph _ hxy
  obtain ⟨ex, rfl⟩ := Int.eq_ofNat_of_zero_le hx0
  obtain ⟨ey, rfl⟩ := Int.eq_ofNat_of_zero_le hy0
  have px : 0 < ex := by omega
  have py : 0 < ey := by omega
  have heph : o.ephemeral rnd C =
      .ok { keyCommon "EC" ecArgs [] (.val .none) (.ec (.str "") (.str "") (.str "") (.str "") (.val .none)) with
        mat := .ec (.str "") (.int ex) (.int ey) (.int ed) (.curve C) } := by
    have hk : ecKeyNew [] (.val .none) (.val .none) 0 = .ok
        (keyCommon "EC" ecArgs [] (.val .none) (.ec (.str "") (.str "") (.str "") (.str "") (.val .none))) := rfl
    have hpair : C.keyPair rnd.eph = (ed, some ((ex : Int), (ey : Int))) := by rw [← hed, ← hxy]
    unfold Jwe.ephemeral
    rw [hk, hepk]
    simp only [PyDict.has, hepk2, Option.isSome_none, Bool.false_eq_true, if_false, Bind.bind, ebind_ok, ecLoadKey, hpair]
  generalize hke : ({ keyCommon "EC" ecArgs [] (.val .none) (.ec (.str "") (.str "") (.str "") (.str "") (.val .none)) with
        mat := .ec (.str "") (.int ex) (.int ey) (.int ed) (.curve C) } : Key) = ke at heph
  have hkm : ke.mat = .ec (.str "") (.int ex) (.int ey) (.int ed) (.curve C) := by rw [← hke]
  have hser := ec_serialize hkm (.number px) (.number py) (.number hd0) false
  have hdict : ecDict ke C ex ey none = [("kty", .str "EC"), ("crv", .str C.name), ("x", .str (uintTxt ex)),
      ("y", .str (uintTxt ey))] := by rw [← hke]; rfl
  simp only [Bool.false_eq_true, if_false, hdict] at hser
  obtain ⟨z, hz⟩ := NistCurve.C54_succeeds hsound ed D ⟨hd0, hdN⟩ hD
  rw [hpub] at hz
  have hasb : asBytes o.msg = .bytes msg := by
    rcases hmsg with ⟨s, hs, rfl⟩ | hs <;> rw [hs] <;> rfl
  have hta : (PyVal.str alg).truthy = true := by simp [PyVal.truthy, (mgmt_keytype hm).1]
  have hencne : (PyVal.str enc).truthy = true := by cases he <;> decide
  have hkind : jweKind (.str alg) = .ok .ec := by
    rw [mgmt_kind hm]; cases m <;> first | rfl | cases hma
  have hDt : (PyVal.int D).truthy = true := int_truthy hD.1
  have hekey : k.encryptionKey E (.str enc) true = .ok (.obj (.val (.int D))) := by
    simp only [Key.encryptionKey, hmat, Key.getKey, if_true, hDt]
  -- the object of the class `JWE_EC` and the header
  obtain ⟨g1, g2, g3, g4, g5⟩ := sym_setKid_get halg henc k
  have hinv := sym_setKid_inv hw hkw
  have s1 : PyDict.get? o.symEncrypter.dict "alg" = some (.str alg) := get?_initFold_alg _ _ halg _
  have s2 : PyDict.get? o.symEncrypter.dict "enc" = some (.str enc) := by
    rw [← henc]
    exact get?_initFold_mem _ _ (by decide) (by decide) (by decide) _ (by decide) _ rfl
  generalize hx : o.symEncrypter.setKid k = x at g1 g2 g3 g4 g5 hinv
  have hinv1 : HdrInv 12 (withKid x.dict kid) := by
    cases kid with
    | none => exact hdrInv_mono hinv (by decide)
    | some v => exact hdrInv_set hinv (by decide) (hkid v rfl)
  have e1 : PyDict.get? (withKid x.dict kid) "alg" = some (.str alg) := by rw [withKid_get (by decide), g1]
  have e2 : PyDict.get? (withKid x.dict kid) "enc" = some (.str enc) := by rw [withKid_get (by decide), g2]
  have e3 : PyDict.get? (withKid x.dict kid) "self" = none := by rw [withKid_get (by decide), g3]
  generalize hh0 : withKid x.dict kid = h0 at hinv1 e1 e2 e3
  have hwe := writable_epk hnl px py (by omega) (by omega)
  generalize hepkv : PyVal.dict [("kty", .str "EC"), ("crv", .str C.name), ("x", .str (uintTxt ex)), ("y", .str (uintTxt ey))]
    = epkv at hser hwe
  have hinv2 : HdrInv 20 (PyDict.update h0 [("apu", .bytes (b64e apu)), ("apv", .bytes (b64e apv)), ("epk", epkv)]) := by
    simp only [PyDict.update, List.foldl_cons, List.foldl_nil]
    exact hdrInv_mono (hdrInv_set (hdrInv_set (hdrInv_set hinv1 (by decide) (writable_bytes (by omega))) (by decide)
      (writable_bytes (by omega))) (by decide) hwe) (by decide)
  have f1 : PyDict.get? (PyDict.update h0 [("apu", .bytes (b64e apu)), ("apv", .bytes (b64e apv)), ("epk", epkv)]) "alg" =
      some (.str alg) := by rw [update_get3 (by decide) (by decide) (by decide), e1]
  have f2 : PyDict.get? (PyDict.update h0 [("apu", .bytes (b64e apu)), ("apv", .bytes (b64e apv)), ("epk", epkv)]) "enc" =
      some (.str enc) := by rw [update_get3 (by decide) (by decide) (by decide), e2]
  have f3 : PyDict.has (PyDict.update h0 [("apu", .bytes (b64e apu)), ("apv", .bytes (b64e apv)), ("epk", epkv)]) "self" =
      false := by
    unfold PyDict.has
    rw [update_get3 (by decide) (by decide) (by decide), e3]
    rfl
  obtain ⟨c, v, hgen, hcl, hvl, -⟩ := generate_total hr he (stored_total hcek) (stored_total hiv)
  have hkl : keylen (.str enc) = .ok (8 * kl, utf8Encode enc) ∧ kl ≤ 64 ∧ kl % 8 = 0 := by
    cases he <;> exact ⟨rfl, by decide, by decide⟩
  have hattr : attrOf o.symEncrypter.dict "enc" = .ok (.str enc) := by unfold attrOf; rw [s2]
  have hattr2 : attrOf o.dict "enc" = .ok (.str enc) := by unfold attrOf; rw [henc]
  have hpu' := partyParam_of hpu
  have hpv' := partyParam_of hpv
  -- the content key and its encryption
  obtain ⟨cek', ek, ekb, hek, hcl', hset⟩ : ∃ cek' ek ekb, MsgBytes ek ekb ∧ cek'.length = kl ∧
      o.ecEncSetup E o.symEncrypter.dict rnd k = .ok (cek', ek, v,
        [("apu", .bytes (b64e apu)), ("apv", .bytes (b64e apv)), ("epk", epkv)]) := by
    by_cases hdir : alg = "ECDH-ES"
    · obtain ⟨out, ho, hol⟩ := derive_total hH z (utf8Encode enc) hu hv (n := 8 * kl) (by omega)
      refine ⟨out, .str "", _, .inl ⟨_, rfl, rfl⟩, by omega, ?_⟩
      have hdir' : PyVal.str alg = .str "ECDH-ES" := by rw [hdir]
      unfold Jwe.ecEncSetup
      simp only [hpu', hpv', Bind.bind, ebind_ok, ecAttrs, hmat, hn.byVal, heph, hser, hattr, hgen, hkm,
        s1, Option.getD_some, if_pos hdir', hkl.1, ecdhDerive_of hz, ho]
    · obtain ⟨post, n, hkw, hn16⟩ : ∃ post n, ecKwAlg (.str alg) = some (post, 8 * n) ∧ (n = 16 ∨ n = 24 ∨ n = 32) := by
        cases hm <;> first | (cases hma; done) | exact absurd rfl hdir | exact ⟨_, 16, rfl, by decide⟩ |
          exact ⟨_, 24, rfl, by decide⟩ | exact ⟨_, 32, rfl, by decide⟩
      obtain ⟨kek, ho, hol⟩ := derive_total hH z post hu hv (n := 8 * n) (by omega)
      have hkok : aesKeyOk kek = true := by
        unfold aesKeyOk
        rw [hol]
        rcases hn16 with rfl | rfl | rfl <;> decide
      obtain ⟨w, hw, -⟩ := C35_roundtrip E.C hC kek c 0xa6a6a6a6a6a6a6a6 hkok (by norm_num)
        (by rw [hcl]; exact hkl.2.2) (by rw [hcl]; omega)
      have hw : aesWrapKey E.C kek c = .ok w := hw
      refine ⟨c, .bytes w, w, .inr rfl, hcl, ?_⟩
      have hdir' : ¬ PyVal.str alg = .str "ECDH-ES" := fun h => hdir (by cases h; rfl)
      unfold Jwe.ecEncSetup
      simp only [hpu', hpv', Bind.bind, ebind_ok, ecAttrs, hmat, hn.byVal, heph, hser, hattr, hgen, hkm,
        s1, Option.getD_some, if_neg hdir', hkw, ecdhDerive_of hz, ho, hw]
  unfold Jwe.encryptWith
  rw [hkind]
  simp only [Bind.bind, ebind_ok, hset, hattr2, hencne, if_true, hekey, hx]
  unfold Jwe.ecEncrypt
  rw [hh0]
  generalize PyDict.update h0 [("apu", .bytes (b64e apu)), ("apv", .bytes (b64e apv)), ("epk", epkv)] = h
    at f1 f2 f3 hinv2
  have hne : h ≠ [] := by
    rintro rfl
    cases f1
  obtain ⟨bh, hbh, hbl⟩ := hdrInv_encode hinv2 hne
  obtain ⟨ct, tag, hes⟩ := encSetup_total (E := E) (rnd := rnd) hC hH he (m := msg) (aad := bh) hcl' hvl hl hbl
  have hinit := init_header hbh f3 (by rw [f1]; exact hta)
  obtain ⟨t, ht⟩ := pack_of_header (j := Jwt.mk (.dict h) [bh] [(b64d bh).toOption.getD []]) rfl hne hbh hek v ct tag
  refine ⟨t, ?_⟩
  rw [g4, g5, hjwk]
  simp only [jwencNew, Option.isSome_none, Bool.false_eq_true, if_false, hinit, Bind.bind, ebind_ok, PyVal.getItem, f2,
    Jwt.b64EncodeHeader, hbh, hasb, hes, ht]
  rfl

/-! ### Examples -/

/-- An object with several header parameters. -/
def exFull (alg : String) (more : PyDict) : Jwe :=
  { msg := .str "hello", dict := [("alg", .str alg), ("enc", .str "A128CBC-HS256"), ("jku", .str "https://example.org/k"),
      ("cty", .str "JWT"), ("x5c", .list [])] ++ more }

theorem exFull_writable {alg : String} (ha : alg.length ≤ 2 ^ 40) {more : PyDict} (hm : ∀ p ∈ more, Writable p.2) :
    EntriesWritable (exFull alg more) := by
  intro n v hv _ _
  have := get?_mem hv
  simp only [exFull, List.cons_append, List.nil_append, List.mem_cons, Prod.mk.injEq] at this
  rcases this with ⟨-, rfl⟩ | ⟨-, rfl⟩ | ⟨-, rfl⟩ | ⟨-, rfl⟩ | ⟨-, rfl⟩ | h
  · exact writable_str ha
  · exact writable_str (by decide)
  · exact writable_str (by decide)
  · exact writable_str (by decide)
  · exact writable_nil
  · exact hm _ h

/-- A shared key with a `kid`, and another `kid` as argument. -/
example : ∃ t, ((exFull "A128KW" []).encrypt toyEnv exRnd [exEcKey, { exShared with kid := .str "s1" }]
    (List.replicate 32 1) [] (some (.str "other"))).1 = .ok t :=
  C110_wrap toyCipher_lawful toyHashes_lawful exRnd_lengths rfl .a128 rfl .c128 (.inl ⟨by simp, rfl⟩)
    (.inr ⟨rfl, .inl ⟨rfl, rfl⟩⟩)
    ⟨[exEcKey], [], rfl, ⟨.inl rfl, by decide, by decide, by decide⟩, by
      intro x hx hc
      rw [List.mem_singleton.mp hx] at hc
      rcases hc.1 with h | h | h | h
      · exact absurd h (by decide)
      · exact absurd h (by decide)
      · cases h
      · cases h⟩
    exShared_ok rfl (by decide +kernel) rfl (exFull_writable (by decide) (by simp))
    (fun _ => writable_str (by decide)) (by intro v hv; cases hv; exact writable_str (by decide))
    (.inr (by decide)) (.inl rfl)

/-- An RSA key with a `kid`; the object has one too, and `zip`. -/
example : ∃ t, ((exFull "RSA1_5" [("zip", .str "DEF"), ("kid", .str "r1")]).encrypt toyEnv exRnd
    [{ exRsaPub with kid := .str "r1" }]).1 = .ok t :=
  C110_rsa toyCipher_lawful toyHashes_lawful exRnd_lengths rfl .rsa15 rfl .c128 (.inl ⟨by simp, rfl⟩)
    (.inl rfl)
    ⟨[], [], rfl, ⟨.inr (.inl rfl), by decide, by decide, by decide⟩, by simp⟩
    (r := ⟨3233, 17, none⟩) ⟨⟨_, rfl⟩, rfl⟩ (fun _ => ⟨_, rfl⟩) (.inl ⟨_, rfl, rfl⟩) (.inr ⟨rfl, by decide +kernel⟩) rfl (.inl rfl)
    (exFull_writable (by decide) (by
      intro p hp
      simp only [List.mem_cons, List.not_mem_nil, or_false] at hp
      rcases hp with rfl | rfl
      · exact writable_str (by decide)
      · exact writable_str (by decide)))
    (fun _ => ⟨"r1", rfl, by decide⟩) (by intro v hv; cases hv; exact ⟨_, rfl⟩) (.inl rfl) (.inl rfl)

/-- An EC key with a `kid`; the object has party information. -/
example : ∃ t, ((exFull "ECDH-ES" [("apu", .bytes (ascii "QWxpY2U"))]).encrypt toyEnv exRnd
    [{ exEcKey with kid := .str "e1" }]).1 = .ok t := by
  obtain ⟨X, Y, h1, h2, h3⟩ := exEcKey_ok
  have h0 : ((P256.keyPair exRnd.eph).2.map fun p => decide (p.1 = 0)) = some false := by decide +kernel
  exact C110_ecdh toyCipher_lawful toyHashes_lawful exRnd_lengths rfl .dir trivial rfl .c128 (.inl ⟨by simp, rfl⟩)
    (.inr ⟨rfl, .inl ⟨rfl, rfl⟩⟩)
    ⟨[], [], rfl, ⟨.inr (.inl rfl), by decide, by decide, by decide⟩, by simp⟩ (C := P256) (X := X) (Y := Y) (D := 5)
    h2 h3 (by decide +kernel) h1 (by intro y hy; rw [hy] at h0; cases h0)
    (apu := ascii "Alice") (.inr ⟨_, rfl, by decide +kernel⟩) (.inl ⟨rfl, rfl⟩) (by decide +kernel) (by decide +kernel)
    (.inl ⟨_, rfl, rfl⟩) (by decide +kernel) rfl rfl rfl
    (exFull_writable (by decide) (by
      intro p hp
      rw [List.mem_singleton.mp hp]
      exact ⟨.str "QWxpY2U", _, .bytes "QWxpY2U", rfl, by decide +kernel⟩))
    (fun _ => writable_str (by decide)) (by intro v hv; cases hv) (by intro b hb; cases hb) (by intro b hb; cases hb)

end Verif
