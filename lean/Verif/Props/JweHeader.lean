import Verif.Props.JweForm
/-
C89: the header of a JWE token.
-/

namespace Verif
open Spec

mutual
theorem told_of : ∀ (v w : PyVal), b2sConv v = .ok w → Told v w
  | .none, w, h => by simp only [b2sConv] at h; cases h; exact .none
  | .bool b, w, h => by simp only [b2sConv] at h; cases h; exact .bool b
  | .int i, w, h => by simp only [b2sConv] at h; cases h; exact .int i
  | .str s, w, h => by simp only [b2sConv] at h; cases h; exact .str s
  | .float _, w, h => by simp only [b2sConv] at h; cases h
  | .bytes b, w, h => by
    simp only [b2sConv] at h
    cases hd : utf8Decode b with
    | error e => rw [hd] at h; cases h
    | ok s =>
      rw [hd] at h; cases h
      rw [← utf8Encode_of_decode hd]
      exact .bytes s
  | .list l, w, h => by
    simp only [b2sConv] at h
    cases hd : b2sConvL l with
    | error e => rw [hd] at h; cases h
    | ok l' => rw [hd] at h; cases h; exact .list (toldL_of l l' hd)
  | .dict d, w, h => by
    simp only [b2sConv] at h
    cases hd : b2sConvD d with
    | error e => rw [hd] at h; cases h
    | ok d' =>
      rw [hd] at h; cases h
      exact .dict (toldD_of d d' hd).1 (toldD_of d d' hd).2
theorem toldL_of : ∀ (l l' : List PyVal), b2sConvL l = .ok l' → List.Forall₂ Told l l'
  | [], l', h => by simp only [b2sConvL] at h; cases h; exact .nil
  | v :: l, l', h => by
    simp only [b2sConvL, Bind.bind] at h
    obtain ⟨w, h1, h2⟩ := bind_ok_iff.mp h
    obtain ⟨m, h3, h4⟩ := bind_ok_iff.mp h2
    cases h4
    exact .cons (told_of v w h1) (toldL_of l m h3)
theorem toldD_of : ∀ (l l' : List (String × PyVal)), b2sConvD l = .ok l' →
    l.map Prod.fst = l'.map Prod.fst ∧ List.Forall₂ Told (l.map Prod.snd) (l'.map Prod.snd)
  | [], l', h => by simp only [b2sConvD] at h; cases h; exact ⟨rfl, .nil⟩
  | (k, v) :: l, l', h => by
    simp only [b2sConvD, Bind.bind] at h
    obtain ⟨w, h1, h2⟩ := bind_ok_iff.mp h
    obtain ⟨m, h3, h4⟩ := bind_ok_iff.mp h2
    cases h4
    obtain ⟨h5, h6⟩ := toldD_of l m h3
    exact ⟨by simp [h5], .cons (told_of v w h1) h6⟩
end

theorem shows_of {d h : PyDict} (hc : b2sConvD d = .ok h) (n : String) : Shows h n (PyDict.get? d n) := by
  cases hv : PyDict.get? d n with
  | none => exact b2sConvD_get?_none hc hv
  | some v =>
    obtain ⟨w, h1, h2⟩ := b2sConvD_get? hc v hv
    exact ⟨w, h2, told_of _ _ h1⟩

/-! ### The entries of an encrypting object -/

theorem get?_initFold_out (kw : PyDict) (n : String) (hx : n ≠ "x5c") (l : List String) (hn : n ∉ l) :
    ∀ d, PyDict.get? (l.foldl (initStep kw) d) n = PyDict.get? d n := by
  induction l with
  | nil => exact fun d => rfl
  | cons a l ih =>
    intro d
    rw [List.foldl_cons, ih (fun h => hn (by simp [h])), get?_initStep _ _ _ _ (fun h => hn (by simp [h])) hx]

theorem get?_initFold_crit (kw : PyDict) (l : List String) :
    ∀ d, PyDict.get? d "crit" = none → PyDict.get? (l.foldl (initStep kw) d) "crit" = none := by
  induction l with
  | nil => exact fun d h => h
  | cons a l ih =>
    intro d h
    rw [List.foldl_cons]
    apply ih
    by_cases ha : "crit" = a
    · subst ha
      unfold initStep
      split
      · rw [if_neg (by decide), h]
      · rw [if_pos (.inr rfl), PyDict.get?_set, if_neg (by decide), h]
    · rw [get?_initStep _ _ _ _ ha (by decide), h]

theorem get?_initStep_x5c (kw d : PyDict) (a : String) : PyDict.get? (initStep kw d a) "x5c" =
    if a = "x5c" ∨ a = "crit" then
      ((PyDict.get? kw a).map fun v => if v.truthy then v else .list []).or (PyDict.get? d "x5c")
    else PyDict.get? d "x5c" := by
  unfold initStep
  by_cases h : a = "x5c" ∨ a = "crit"
  · rw [if_pos h]
    cases PyDict.get? kw a with
    | none =>
      have : a ≠ "alg" := by rintro rfl; revert h; decide
      simp [this]
    | some v => simp [h, PyDict.get?_set]
  · rw [if_neg h]
    have h2 : "x5c" ≠ a := fun e => h (.inl e.symm)
    cases PyDict.get? kw a with
    | none =>
      simp only
      split
      · rw [PyDict.get?_set, if_neg (by decide)]
      · rfl
    | some v => simp only; rw [if_neg h, PyDict.get?_set, if_neg h2]

theorem rsa_entry {o : Jwe} {alg : String} (halg : PyDict.get? o.dict "alg" = some (.str alg)) {n : String}
    (hn : n ∈ "kid" :: rsaNames) : PyDict.get? o.rsaEncrypter.dict n = entry o.dict n := by
  by_cases ha : n = "alg"
  · subst ha
    rw [show entry o.dict "alg" = PyDict.get? o.dict "alg" from rfl, halg]
    exact get?_initFold_alg _ _ halg _
  by_cases hx : n = "x5c"
  · subst hx
    simp only [Jwe.rsaEncrypter, jweArgs1, jweArgs2, List.cons_append, List.nil_append, List.foldl_cons,
      List.foldl_nil, get?_initStep_x5c, entry]
    simp only [PyDict.get?, String.reduceEq, or_self, or_true, true_or, if_true, if_false, List.lookup_nil, Option.or_none]
    cases List.lookup "crit" o.dict <;> rfl
  have hc : n ≠ "crit" := by rintro rfl; revert hn; decide
  have hm : n ∈ jweArgs1 ++ jweArgs2 := by
    revert hn
    simp only [rsaNames, jweArgs1, jweArgs2, List.mem_cons, List.mem_append, List.not_mem_nil, or_false]
    tauto
  rw [entry, if_neg hc, if_neg hx]
  exact get?_initFold_mem _ n hx hc ha _ hm _ rfl

theorem sym_entry {o : Jwe} {alg : String} (halg : PyDict.get? o.dict "alg" = some (.str alg)) {n : String}
    (hn : n ∈ "kid" :: symNames) : PyDict.get? o.symEncrypter.dict n = entry o.dict n := by
  by_cases ha : n = "alg"
  · subst ha
    rw [show entry o.dict "alg" = PyDict.get? o.dict "alg" from rfl, halg]
    exact get?_initFold_alg _ _ halg _
  by_cases hx : n = "x5c"
  · subst hx
    simp only [Jwe.symEncrypter, symArgsJwe, List.foldl_cons,
      List.foldl_nil, get?_initStep_x5c, entry]
    simp only [PyDict.get?, String.reduceEq, or_self, or_true, true_or, if_true, if_false, List.lookup_nil, Option.or_none]
    cases List.lookup "crit" o.dict <;> rfl
  have hc : n ≠ "crit" := by rintro rfl; revert hn; decide
  have hm : n ∈ symArgsJwe := by
    revert hn
    simp only [symNames, symArgsJwe, List.mem_cons, List.not_mem_nil, or_false]
    tauto
  rw [entry, if_neg hc, if_neg hx]
  exact get?_initFold_mem _ n hx hc ha _ hm _ rfl

theorem sym_other {o : Jwe} {n : String} (hn : n ∉ "kid" :: symNames) :
    PyDict.get? o.symEncrypter.dict n = none := by
  by_cases hc : n = "crit"
  · subst hc
    exact get?_initFold_crit _ _ _ rfl
  · have hx : n ≠ "x5c" := by rintro rfl; revert hn; decide
    refine get?_initFold_out _ n hx _ ?_ _
    revert hn
    simp only [symNames, symArgsJwe, List.mem_cons, List.not_mem_nil, or_false]
    tauto

theorem rsa_crit (o : Jwe) : PyDict.get? o.rsaEncrypter.dict "crit" = none := get?_initFold_crit _ _ _ rfl

theorem get?_setKid_kid (o : Jwe) (k : Key) : PyDict.get? (o.setKid k).dict "kid" =
    if k.kid.truthy then some k.kid else PyDict.get? o.dict "kid" := by
  unfold Jwe.setKid
  split
  · simp only; rw [PyDict.get?_set, if_pos rfl]
  · rfl

/-! ### Key wrap and agreement -/

/-- **C89.** Key wrap: the header shows `alg`, `enc`, `jku`, `x5u`, `x5t`, `x5c`, `typ`, `cty` of the object,
the `kid`, a `jwk` that is not a key object, and nothing else. -/
theorem C89_wrap {E : Env} {o : Jwe} {rnd : JweRnd} {keys : List Key} {cek iv : Bytes} {kid : Option PyVal}
    {t : String} {alg : String} {n : Nat} (halg : PyDict.get? o.dict "alg" = some (.str alg))
    (hm : MgmtName alg (.wrap n)) (hv : RealValues o keys kid)
    (h : (o.encrypt E rnd keys cek iv kid).1 = .ok t) :
    ∃ l wk k, EffKeys o.toJwx keys l ∧ SignKid o.toJwx wk ∧ FirstPicked (.wrap n) alg wk l k ∧
      ∃ hdr, TokenHeader (utf8Encode t) hdr ∧
        (∀ n ∈ symNames, Shows hdr n (entry o.dict n)) ∧
        Shows hdr "kid" (symKid o.dict k.kid kid) ∧
        ((o.jwk = none ∧ Shows hdr "jwk" none) ∨ ∃ v, o.jwk = some (.other v) ∧ Shows hdr "jwk" (some v)) ∧
        ∀ n, n ∉ symNames → n ≠ "kid" → n ≠ "jwk" → Shows hdr n none := by
  obtain ⟨l, wk, k, c, heff, hsk, hf, hw⟩ := jwe_encrypt_ok halg hm h
  obtain ⟨hne, hnn, -⟩ := mgmt_keytype hm
  unfold Jwe.encryptWith at hw
  rw [mgmt_kind hm] at hw
  simp only [Bind.bind, Except.bind] at hw
  obtain ⟨ka, hka, hw1⟩ := bind_ok_iff.mp hw
  obtain ⟨t', ht', hw2⟩ := bind_ok_iff.mp hw1
  cases hw2
  have hkl : k ∈ l := by obtain ⟨pre, post, rfl, -⟩ := hf; simp
  have hsd : Distinct (.dict o.symEncrypter.dict) := distinct_initFold hv.dict _ _ distinct_nil
  have hsa : PyDict.get? o.symEncrypter.dict "alg" = some (.str alg) := get?_initFold_alg _ _ halg _
  have hjk : (o.symEncrypter.setKid k).jwk = o.jwk := by
    unfold Jwe.setKid; split <;> rfl
  obtain ⟨kek, enc, cek', iv', jek, m, bh, h', ct, tag, hkek, henc, hgen, hjek, hmm, hparts, hh', hes⟩ :=
    symEncrypt_ok (by rw [get?_setKid (by decide)]; exact hsa) hne
      (distinct_setKid hsd (hv.key_kid heff hkl)) (by rw [hjk]; exact hv.jwk) hv.kid ht'
  have hnk : ∀ k', o.jwk ≠ some (.key k') := by
    intro k' hk'
    unfold Jwe.symEncrypt at ht'
    simp only [Bind.bind] at ht'
    obtain ⟨jwe, hjwe, -⟩ := bind_ok_iff.mp ht'
    rw [hjk, hk'] at hjwe
    cases hjwe
  rw [hjk] at hh'
  refine ⟨l, wk, k, heff, hsk, hf, h', ⟨_, _, _, _, _, hparts⟩, ?_, ?_, ?_, ?_⟩
  · intro n hn
    have h1 : n ≠ "kid" := by rintro rfl; revert hn; decide
    have h2 : n ≠ "jwk" := by rintro rfl; revert hn; decide
    have := shows_of hh' n
    rwa [get?_jwencArgs h2, get?_withKid h1, get?_setKid h1, sym_entry halg (by simp [hn])] at this
  · have := shows_of hh' "kid"
    rw [get?_jwencArgs (by decide)] at this
    have e : PyDict.get? (withKid (o.symEncrypter.setKid k).dict kid) "kid" = symKid o.dict k.kid kid := by
      unfold withKid symKid
      cases kid with
      | none =>
        simp only [Option.none_or]
        rw [get?_setKid_kid, sym_entry halg (by simp)]; rfl
      | some v => simp [PyDict.get?_set]
    rwa [e] at this
  · have hs := shows_of hh' "jwk"
    rcases hj : o.jwk with _ | (k' | v)
    · left
      rw [hj] at hs
      simp only [jwencArgs] at hs
      rw [get?_withKid (by decide), get?_setKid (by decide), sym_other (by decide)] at hs
      exact ⟨rfl, hs⟩
    · exact absurd hj (hnk k')
    · right
      rw [hj] at hs
      simp only [jwencArgs] at hs
      rw [PyDict.get?_set, if_pos rfl] at hs
      exact ⟨v, rfl, hs⟩
  · intro n h1 h2 h3
    have := shows_of hh' n
    rwa [get?_jwencArgs h3, get?_withKid h2, get?_setKid h2, sym_other (by simp [h1, h2])] at this

/-- **C89.** Agreement: as for key wrap, and the header shows in addition `apu`, `apv` and `epk` (whose
values `C90_ecdh` describes). -/
theorem C89_ecdh {E : Env} {o : Jwe} {rnd : JweRnd} {keys : List Key} {cek iv : Bytes} {kid : Option PyVal}
    {t : String} {alg : String} {m : KeyMgmt} (halg : PyDict.get? o.dict "alg" = some (.str alg))
    (hm : MgmtName alg m) (hma : IsAgreement m) (hv : RealValues o keys kid)
    (h : (o.encrypt E rnd keys cek iv kid).1 = .ok t) :
    ∃ l wk k, EffKeys o.toJwx keys l ∧ SignKid o.toJwx wk ∧ FirstPicked m alg wk l k ∧
      ∀ (C : NistCurve) X Y, HasPoint C X Y k → (∀ e, o.epk = some e → EphemeralKey C e) →
      ∃ hdr, TokenHeader (utf8Encode t) hdr ∧
        (∀ n ∈ symNames, Shows hdr n (entry o.dict n)) ∧
        Shows hdr "kid" (symKid o.dict k.kid kid) ∧
        ((o.jwk = none ∧ Shows hdr "jwk" none) ∨ ∃ v, o.jwk = some (.other v) ∧ Shows hdr "jwk" (some v)) ∧
        ∀ n, n ∉ symNames → n ≠ "kid" → n ≠ "jwk" → n ∉ ["apu", "apv", "epk"] → Shows hdr n none := by
  obtain ⟨l, wk, k, c, heff, hsk, hf, hw⟩ := jwe_encrypt_ok halg hm h
  obtain ⟨hne, hnn, -⟩ := mgmt_keytype hm
  refine ⟨l, wk, k, heff, hsk, hf, ?_⟩
  intro C X Y hk hepk
  have hkind : jweKind (.str alg) = .ok .ec := by
    rw [mgmt_kind hm]; cases m <;> first | rfl | cases hma
  unfold Jwe.encryptWith at hw
  rw [hkind] at hw
  simp only [Bind.bind, ebind_ok] at hw
  obtain ⟨⟨cek', ek, iv', params⟩, hsetup, hw1⟩ := bind_ok_iff.mp hw
  obtain ⟨_, -, hw2⟩ := bind_ok_iff.mp hw1
  obtain ⟨_, -, hw3⟩ := bind_ok_iff.mp hw2
  obtain ⟨t', ht', hw4⟩ := bind_ok_iff.mp hw3
  cases hw4
  have hkl : k ∈ l := by obtain ⟨pre, post, rfl, -⟩ := hf; simp
  have hsd : Distinct (.dict o.symEncrypter.dict) := distinct_initFold hv.dict _ _ distinct_nil
  have hsa : PyDict.get? o.symEncrypter.dict "alg" = some (.str alg) := get?_initFold_alg _ _ halg _
  have hjk : (o.symEncrypter.setKid k).jwk = o.jwk := by
    unfold Jwe.setKid; split <;> rfl
  obtain ⟨apu, apv, e, ex, ey, ed, enc, cek0, z, px, py, hpub, hdist, rfl, henc, hgen, hz, hagr, hapu, hapv,
    heph, hscal⟩ := ecEncSetup_form hk hepk hsa hsetup
  obtain ⟨ekb, hekb⟩ : ∃ ekb, MsgBytes ek ekb := by
    rcases hagr with ⟨-, _, _, -, -, rfl⟩ | ⟨-, _, _, _, jek, -, -, -, rfl, -⟩
    · exact ⟨_, .inl ⟨_, rfl, rfl⟩⟩
    · exact ⟨_, .inr rfl⟩
  obtain ⟨enc1, bh, h', ct, tag, henc1, hparts, hh', hes⟩ :=
    ecEncrypt_ok (by rw [get?_setKid (by decide)]; exact hsa) hne
      (distinct_setKid hsd (hv.key_kid heff hkl)) (by rw [hjk]; exact hv.jwk) hv.kid (by
        intro p hp
        simp only [List.mem_cons, List.not_mem_nil, or_false] at hp
        rcases hp with rfl | rfl | rfl
        · trivial
        · trivial
        · exact hdist) (by simp) rfl rfl hekb ht'
  have hnk : ∀ k', o.jwk ≠ some (.key k') := by
    intro k' hk'
    unfold Jwe.ecEncrypt at ht'
    simp only [Bind.bind] at ht'
    obtain ⟨jwe, hjwe, -⟩ := bind_ok_iff.mp ht'
    rw [hjk, hk'] at hjwe
    cases hjwe
  rw [hjk] at hh'
  have hout : ∀ n, n ∉ ["apu", "apv", "epk"] → ∀ d, PyDict.get? (PyDict.update d
      [("apu", PyVal.bytes (b64e apu)), ("apv", .bytes (b64e apv)), ("epk", .dict (ecDict e C ex ey none))]) n =
      PyDict.get? d n := by
    intro n hn d
    refine get?_update_none (by simp) ?_
    rw [get?_none_iff]
    simpa using hn
  refine ⟨h', ⟨_, _, _, _, _, hparts⟩, ?_, ?_, ?_, ?_⟩
  · intro n hn
    have h1 : n ≠ "kid" := by rintro rfl; revert hn; decide
    have h2 : n ≠ "jwk" := by rintro rfl; revert hn; decide
    have h3 : n ∉ ["apu", "apv", "epk"] := by
      intro hx
      simp only [List.mem_cons, List.not_mem_nil, or_false] at hx
      rcases hx with rfl | rfl | rfl <;> revert hn <;> decide
    have := shows_of hh' n
    rwa [get?_jwencArgs h2, hout n h3, get?_withKid h1, get?_setKid h1, sym_entry halg (by simp [hn])] at this
  · have := shows_of hh' "kid"
    rw [get?_jwencArgs (by decide), hout _ (by decide)] at this
    have e : PyDict.get? (withKid (o.symEncrypter.setKid k).dict kid) "kid" = symKid o.dict k.kid kid := by
      unfold withKid symKid
      cases kid with
      | none =>
        simp only [Option.none_or]
        rw [get?_setKid_kid, sym_entry halg (by simp)]; rfl
      | some v => simp [PyDict.get?_set]
    rwa [e] at this
  · have hs := shows_of hh' "jwk"
    rcases hj : o.jwk with _ | (k' | v)
    · left
      rw [hj] at hs
      simp only [jwencArgs] at hs
      rw [hout _ (by decide), get?_withKid (by decide), get?_setKid (by decide), sym_other (by decide)] at hs
      exact ⟨rfl, hs⟩
    · exact absurd hj (hnk k')
    · right
      rw [hj] at hs
      simp only [jwencArgs] at hs
      rw [PyDict.get?_set, if_pos rfl] at hs
      exact ⟨v, rfl, hs⟩
  · intro n h1 h2 h3 h4
    have := shows_of hh' n
    rwa [get?_jwencArgs h3, hout n h4, get?_withKid h2, get?_setKid h2, sym_other (by simp [h1, h2])] at this

/-- **C89.** A key object under `jwk` makes key wrap and agreement impossible: every call raises. -/
theorem C89_jwk {E : Env} {o : Jwe} {rnd : JweRnd} {keys : List Key} {cek iv : Bytes} {kid : Option PyVal}
    {alg : String} {m : KeyMgmt} (halg : PyDict.get? o.dict "alg" = some (.str alg)) (hm : MgmtName alg m)
    (hr : ∀ p, m ≠ .rsa p) {k' : Key} (hj : o.jwk = some (.key k')) (t : String) :
    (o.encrypt E rnd keys cek iv kid).1 ≠ .ok t := by
  intro h
  obtain ⟨l, wk, k, c, -, -, -, hw⟩ := jwe_encrypt_ok halg hm h
  have hjk : (o.symEncrypter.setKid k).jwk = some (.key k') := by
    rw [← hj]; unfold Jwe.setKid; split <;> rfl
  have key : jweKind (.str alg) = .ok .sym ∨ jweKind (.str alg) = .ok .ec := by
    rw [mgmt_kind hm]
    cases m with
    | rsa p => exact absurd rfl (hr p)
    | wrap => exact .inl rfl
    | direct => exact .inr rfl
    | agreeWrap => exact .inr rfl
  unfold Jwe.encryptWith at hw
  rcases key with hk | hk
  · rw [hk] at hw
    simp only [Bind.bind, ebind_ok] at hw
    obtain ⟨ka, hka, hw1⟩ := bind_ok_iff.mp hw
    obtain ⟨t', ht', hw2⟩ := bind_ok_iff.mp hw1
    unfold Jwe.symEncrypt at ht'
    rw [hjk] at ht'
    cases ht'
  · rw [hk] at hw
    simp only [Bind.bind, ebind_ok] at hw
    obtain ⟨s, -, hw1⟩ := bind_ok_iff.mp hw
    obtain ⟨_, -, hw2⟩ := bind_ok_iff.mp hw1
    obtain ⟨_, -, hw3⟩ := bind_ok_iff.mp hw2
    obtain ⟨t', ht', hw4⟩ := bind_ok_iff.mp hw3
    unfold Jwe.ecEncrypt at ht'
    rw [hjk] at ht'
    cases ht'

/-! ### RSA -/

theorem get?_trueParams_out (d : PyDict) (n : String) (l : List String) (hn : n ∉ l) :
    PyDict.get? (trueParams d l) n = none := by
  rw [get?_none_iff]
  exact fun h => hn ((trueParams_keys d l).subset h)

/-- **C89.** RSA: the header shows those entries of the object with the names of `rsaNames` that are not
empty, the `kid` (a text), the serialization of a `jwk` that is a key object, and nothing else. -/
theorem C89_rsa {E : Env} {o : Jwe} {rnd : JweRnd} {keys : List Key} {cek iv : Bytes} {kid : Option PyVal}
    {t : String} {alg : String} {p : RsaPad} (halg : PyDict.get? o.dict "alg" = some (.str alg))
    (hm : MgmtName alg (.rsa p)) (hv : RealValues o keys kid)
    (hser : ∀ k v, o.jwk = some (.key k) → k.serializeDflt = .ok v → Distinct v)
    (h : (o.encrypt E rnd keys cek iv kid).1 = .ok t) :
    ∃ l wk k, EffKeys o.toJwx keys l ∧ SignKid o.toJwx wk ∧ FirstPicked (.rsa p) alg wk l k ∧
      ∃ hdr, TokenHeader (utf8Encode t) hdr ∧
        (∀ n ∈ rsaNames, Shows hdr n ((entry o.dict n).filter PyVal.truthy)) ∧
        Shows hdr "kid" (rsaKid o.dict k.kid) ∧ (∀ v, rsaKid o.dict k.kid = some v → ∃ s, v = .str s) ∧
        ((o.jwk = none ∧ Shows hdr "jwk" none) ∨
          ∃ k' v, o.jwk = some (.key k') ∧ k'.serializeDflt = .ok v ∧ Shows hdr "jwk" (some v)) ∧
        ∀ n, n ∉ rsaNames → n ≠ "kid" → n ≠ "jwk" → Shows hdr n none := by
  obtain ⟨l, wk, k, cv, heff, hsk, hf, hw⟩ := jwe_encrypt_ok halg hm h
  unfold Jwe.encryptWith at hw
  rw [mgmt_kind hm] at hw
  simp only [Bind.bind, Except.bind] at hw
  obtain ⟨ka, hka, hw1⟩ := bind_ok_iff.mp hw
  obtain ⟨⟨t', c⟩, ht', hw2⟩ := bind_ok_iff.mp hw1
  cases hw2
  have hkl : k ∈ l := by obtain ⟨pre, post, rfl, -⟩ := hf; simp
  have hsd : Distinct (.dict o.rsaEncrypter.dict) := distinct_initFold hv.dict _ _ distinct_nil
  have hsa : PyDict.get? o.rsaEncrypter.dict "alg" = some (.str alg) := get?_initFold_alg _ _ halg _
  have hjk : (o.rsaEncrypter.setKid k).jwk = o.jwk := by
    unfold Jwe.setKid; split <;> rfl
  obtain ⟨enc, iv', msg, ek, bh, hdrs, h', ct, tag, henc, hgen, hzip, hek, hparts, hhd, hh', hes⟩ :=
    rsaEncrypt_form hm (by rw [get?_setKid (by decide)]; exact hsa)
      (distinct_setKid hsd (hv.key_kid heff hkl)) (by rw [hjk]; exact hser) ht'
  unfold Jwe.headers at hhd
  simp only [Bind.bind, hjk] at hhd
  obtain ⟨jw, hjw, hhd1⟩ := bind_ok_iff.mp hhd
  obtain ⟨_, hkt, hhd2⟩ := bind_ok_iff.mp hhd1
  cases hhd2
  generalize hd : (o.rsaEncrypter.setKid k).dict = d at hh' hkt
  have hjwk : ∀ n, n ≠ "jwk" → PyDict.get? jw n = none := by
    intro n hn
    rw [get?_none_iff]
    intro hx
    exact hn (by simpa using (jwkHeader_keys hjw).1.subset hx)
  have hget : ∀ n, n ≠ "jwk" → n ∈ jweArgs1 ++ jweArgs2 →
      PyDict.get? (trueParams d jweArgs1 ++ jw ++ trueParams d jweArgs2) n =
        (PyDict.get? d n).filter PyVal.truthy := by
    intro n h1 h2
    have h3 := hjwk n h1
    unfold PyDict.get? at h3 ⊢
    rw [List.append_assoc, List.lookup_append, List.lookup_append, h3, Option.none_or]
    rcases List.mem_append.mp h2 with h2 | h2
    · have h4 : n ∉ jweArgs2 := by
        have : ∀ n ∈ jweArgs1, n ∉ jweArgs2 := by decide
        exact this n h2
      have h5 := get?_trueParams_out d n _ h4
      have h6 := get?_trueParams d n _ h2
      unfold PyDict.get? at h5 h6
      rw [h5, h6, Option.or_none]
    · have h4 : n ∉ jweArgs1 := by
        have : ∀ n ∈ jweArgs2, n ∉ jweArgs1 := by decide
        exact this n h2
      have h5 := get?_trueParams_out d n _ h4
      have h6 := get?_trueParams d n _ h2
      unfold PyDict.get? at h5 h6
      rw [h5, h6, Option.none_or]
  have hnone : ∀ n, n ≠ "jwk" → n ∉ jweArgs1 ++ jweArgs2 →
      PyDict.get? (trueParams d jweArgs1 ++ jw ++ trueParams d jweArgs2) n = none := by
    intro n h1 h2
    rw [List.mem_append, not_or] at h2
    have h3 := hjwk n h1
    have h5 := get?_trueParams_out d n _ h2.1
    have h6 := get?_trueParams_out d n _ h2.2
    unfold PyDict.get? at h3 h5 h6 ⊢
    rw [List.lookup_append, List.lookup_append, h3, h5, h6]
    rfl
  have hkid : PyDict.get? d "kid" = if k.kid.truthy then some k.kid else PyDict.get? o.dict "kid" := by
    rw [← hd, get?_setKid_kid, rsa_entry halg (by decide)]; rfl
  have hrk : (PyDict.get? d "kid").filter PyVal.truthy = rsaKid o.dict k.kid := by
    rw [hkid, rsaKid]
    split
    · rename_i ht
      simp [Option.filter, ht]
    · rfl
  refine ⟨l, wk, k, heff, hsk, hf, h', ⟨_, _, _, _, _, hparts⟩, ?_, ?_, ?_, ?_, ?_⟩
  · intro n hn
    have h1 : n ≠ "kid" := by rintro rfl; revert hn; decide
    have h2 : n ≠ "jwk" := by rintro rfl; revert hn; decide
    have hm : n ∈ jweArgs1 ++ jweArgs2 := by
      revert hn
      simp only [rsaNames, jweArgs1, jweArgs2, List.mem_cons, List.mem_append, List.not_mem_nil, or_false]
      tauto
    have := shows_of hh' n
    rwa [hget n h2 hm, ← hd, get?_setKid h1, rsa_entry halg (by simp [hn])] at this
  · have := shows_of hh' "kid"
    rwa [hget _ (by decide) (by decide), hrk] at this
  · intro v hv'
    rw [← hrk] at hv'
    have h1 : PyDict.get? d "kid" = some v := by
      cases hx : PyDict.get? d "kid" with
      | none => rw [hx] at hv'; cases hv'
      | some w =>
        rw [hx] at hv'
        simp only [Option.filter] at hv'
        split at hv'
        · exact hv'
        · cases hv'
    rw [h1] at hkt
    unfold kidIsText at hkt
    split at hkt
    · rename_i hx; cases hx
    · rename_i hx; cases hx; exact ⟨_, rfl⟩
    · cases hkt
  · have hs := shows_of hh' "jwk"
    have h1 : PyDict.get? (trueParams d jweArgs1 ++ jw ++ trueParams d jweArgs2) "jwk" = PyDict.get? jw "jwk" := by
      have h5 := get?_trueParams_out d "jwk" jweArgs1 (by decide)
      have h6 := get?_trueParams_out d "jwk" jweArgs2 (by decide)
      unfold PyDict.get? at h5 h6 ⊢
      rw [List.lookup_append, List.lookup_append, h5, h6]
      simp
    rw [h1] at hs
    unfold jwkHeader at hjw
    split at hjw
    · rename_i hj; cases hjw; exact .inl ⟨hj, hs⟩
    · rename_i k' hj
      rcases hv' : k'.serializeDflt with e | v
      · rw [hv'] at hjw; cases hjw
      · rw [hv'] at hjw; cases hjw
        exact .inr ⟨k', v, hj, hv', hs⟩
    · cases hjw
  · intro n h1 h2 h3
    have := shows_of hh' n
    by_cases hc : n = "crit"
    · subst hc
      rwa [hget _ (by decide) (by decide), ← hd, get?_setKid (by decide), rsa_crit] at this
    · rwa [hnone n h3 (by
        intro hx
        have hall : ∀ n ∈ jweArgs1 ++ jweArgs2, n ∈ rsaNames ∨ n = "kid" ∨ n = "crit" := by decide
        rcases hall n hx with h | h | h
        · exact h1 h
        · exact h2 h
        · exact hc h)] at this

/-! ### C91: the key derivation is not the one of RFC 7518 -/

theorem kdf_first {H : Hashes} (hH : H.Lawful) (s i : Bytes) {n : Nat} :
    ((kdfStream (H.hash .sha256) s i 2).take n).take 32 = (H.hash .sha256 (natToBytesW 4 1 ++ s ++ i)).take n := by
  have hl : (H.hash .sha256 (natToBytesW 4 1 ++ s ++ i)).length = 32 := hH.hash_length .sha256 _
  have hk : kdfStream (H.hash .sha256) s i 2 =
      H.hash .sha256 (natToBytesW 4 1 ++ s ++ i) ++ H.hash .sha256 (natToBytesW 4 2 ++ s ++ i) := by
    simp [kdfStream, List.range_succ]
  rw [hk, List.take_take, Nat.min_comm, ← List.take_take, ← hl, List.take_left]

/-- **C91.** Direct agreement: the library never hashes what RFC 7518 hashes, and if it derives the same
key all the same, then the digests of two different texts agree as far as they are used. -/
theorem C91_direct {H : Hashes} (hH : H.Lawful) (z apu apv : Bytes) {enc : String} {n i : Nat} (_ : EncName enc n i) :
    agreedInput z enc apu apv n ≠ rfcInput z enc apu apv n ∧
    (agreedKey H z enc apu apv n = rfcKey H z enc apu apv n →
      (H.hash .sha256 (agreedInput z enc apu apv n)).take n = (H.hash .sha256 (rfcInput z enc apu apv n)).take n) := by
  constructor
  · intro h
    have := congrArg List.length h
    simp only [agreedInput, rfcInput, List.length_append, natToBytesW_length] at this
    omega
  · intro h
    have := congrArg (List.take 32) h
    simp only [agreedKey, rfcKey, kdf_first hH] at this
    exact this

/-- **C91.** Agreement with key wrap: the same; the library leaves out the length of the name and the part
`ECDH-ES+` of the name. -/
theorem C91_wrap {H : Hashes} (hH : H.Lawful) (z apu apv : Bytes) {alg w : String} {n : Nat} (hw : WrapName alg w n) :
    agreedInput z w apu apv n ≠ rfcInput z alg apu apv n ∧
    (agreedKey H z w apu apv n = rfcKey H z alg apu apv n →
      (H.hash .sha256 (agreedInput z w apu apv n)).take n = (H.hash .sha256 (rfcInput z alg apu apv n)).take n) := by
  constructor
  · intro h
    have := congrArg List.length h
    have h1 : (ascii w).length = 6 := by cases hw <;> decide
    have h2 : (ascii alg).length = 14 := by cases hw <;> decide
    simp only [agreedInput, rfcInput, List.length_append, natToBytesW_length, h1, h2] at this
    omega
  · intro h
    have := congrArg (List.take 32) h
    simp only [agreedKey, rfcKey, kdf_first hH] at this
    exact this

/-! ### Examples -/

/-- C89_wrap: the header has exactly the two entries of the object. -/
example : ∃ t hdr, (exWrapper.encrypt toyEnv exRnd [exShared]).1 = .ok t ∧ TokenHeader (utf8Encode t) hdr ∧
    PyDict.get? hdr "alg" = some (.str "A128KW") ∧ PyDict.get? hdr "enc" = some (.str "A256GCM") ∧
    ∀ n, n ≠ "alg" → n ≠ "enc" → PyDict.get? hdr n = none := by
  obtain ⟨t, ht⟩ := exWrapper_token
  obtain ⟨l, wk, k, h1, -, h2, hdr, hh, hn, hkid, hj, ho⟩ := C89_wrap rfl .a128 exWrapper_real ht
  cases only_key h1 h2
  have e1 := hn "alg" (by decide)
  have e2 := hn "enc" (by decide)
  obtain ⟨w1, g1, t1⟩ := e1
  obtain ⟨w2, g2, t2⟩ := e2
  cases t1
  cases t2
  refine ⟨t, hdr, ht, hh, g1, g2, ?_⟩
  intro n n1 n2
  by_cases hs : n ∈ symNames
  · have h := hn n hs
    have he : entry exWrapper.dict n = none := by
      simp only [symNames, List.mem_cons, List.not_mem_nil, or_false] at hs
      rcases hs with rfl | rfl | rfl | rfl | rfl | rfl | rfl | rfl <;> first | exact absurd rfl n1 | exact absurd rfl n2 | rfl
    rw [he] at h
    exact h
  · by_cases hk : n = "kid"
    · subst hk; exact hkid
    · by_cases hjk : n = "jwk"
      · subst hjk
        rcases hj with ⟨-, h⟩ | ⟨v, h, -⟩
        · exact h
        · cases h
      · exact ho n hs hk hjk

/-- C89_rsa: `zip` stands in the header, and no `kid`. -/
example : ∃ t hdr, (exRsaer.encrypt toyEnv exRnd [exRsaPub]).1 = .ok t ∧ TokenHeader (utf8Encode t) hdr ∧
    PyDict.get? hdr "zip" = some (.str "DEF") ∧ PyDict.get? hdr "kid" = none := by
  obtain ⟨t, ht, -⟩ := exRsaer_token
  obtain ⟨l, wk, k, h1, -, h2, hdr, hh, hn, hkid, -⟩ := C89_rsa rfl .oaep exRsaer_real
    (by intro k v h; cases h) ht
  cases only_key h1 h2
  obtain ⟨w1, g1, t1⟩ := hn "zip" (by decide)
  cases t1
  exact ⟨t, hdr, ht, hh, g1, hkid⟩

/-- C89_ecdh: nothing but `alg`, `enc`, the parties and the ephemeral key. -/
example : ∃ t hdr, (exAgreer.encrypt toyEnv exRnd [exEcKey]).1 = .ok t ∧ TokenHeader (utf8Encode t) hdr ∧
    PyDict.get? hdr "alg" = some (.str "ECDH-ES+A192KW") ∧ PyDict.get? hdr "zip" = none := by
  obtain ⟨X, Y, -, hpt, -⟩ := exEcKey_ok
  obtain ⟨t, ht⟩ := exAgreer_token
  obtain ⟨l, wk, k, h1, -, h2, h3⟩ := C89_ecdh rfl .ec192 trivial exAgreer_real ht
  cases only_key h1 h2
  obtain ⟨hdr, hh, hn, -, -, ho⟩ := h3 P256 X Y hpt (by intro e h; cases h)
  obtain ⟨w1, g1, t1⟩ := hn "alg" (by decide)
  cases t1
  exact ⟨t, hdr, ht, hh, g1, ho "zip" (by decide) (by decide) (by decide) (by decide)⟩

/-- C89_jwk: the same object with a key as `jwk`. -/
example (t : String) : (Jwe.encrypt toyEnv { exWrapper with jwk := some (.key exShared) } exRnd [exShared]).1 ≠ .ok t :=
  C89_jwk rfl .a128 (by intro p h; cases h) rfl t

/-- C91_direct, C91_wrap: for the toy hash the two keys differ. -/
example : agreedKey toyHashes [1] "A128GCM" [2] [3] 16 ≠ rfcKey toyHashes [1] "A128GCM" [2] [3] 16 ∧
    agreedInput [1] "A128GCM" [2] [3] 16 ≠ rfcInput [1] "A128GCM" [2] [3] 16 ∧
    agreedInput [1] "A128KW" [2] [3] 16 ≠ rfcInput [1] "ECDH-ES+A128KW" [2] [3] 16 := by
  refine ⟨fun h => ?_, (C91_direct toyHashes_lawful [1] [2] [3] .g128).1, (C91_wrap toyHashes_lawful [1] [2] [3] .a128).1⟩
  have := (C91_direct toyHashes_lawful [1] [2] [3] .g128).2 h
  revert this
  decide +kernel

end Verif
