import Verif.Props.JweForm
import Verif.Props.JweHeader
import Verif.Props.JwsTotal
import Verif.Props.JweGate
import Verif.Model.Script
import Mathlib.Data.List.TakeWhile
/-
C104: the factories and `peek.py` on the tokens the library makes.
-/

namespace Verif
open Spec

/-! ### A compact token is no JSON text -/

theorem parseV_dict_head {f : Nat} {l r : List Char} {d : PyDict} (h : parseV f l = some (.dict d, r)) :
    ∃ l', l = '{' :: l' := by
  cases f with
  | zero => simp [parseV] at h
  | succ f =>
    unfold parseV at h
    split at h
    · simp only [Option.bind_eq_bind, Option.bind_eq_some_iff] at h
      obtain ⟨⟨x, y⟩, -, h⟩ := h
      simp at h
    · split at h
      · simp at h
      · simp only [Option.bind_eq_bind, Option.bind_eq_some_iff] at h
        obtain ⟨⟨x, y⟩, -, h⟩ := h
        simp at h
    · exact ⟨_, rfl⟩
    · exact absurd h parseAtom_not_dict

theorem jsonLoads_dict_head {hs : String} {d : PyDict} (h : jsonLoads hs = .ok (.dict d)) :
    ∃ c l, hs.toList = c :: l ∧ (isWs c = true ∨ c = '{') := by
  rcases hl : hs.toList with _ | ⟨c, l⟩
  · unfold jsonLoads at h
    rw [hl] at h
    simp [skipWs, parseV, parseAtom, stripPrefix, parseNum] at h
  · refine ⟨c, l, rfl, ?_⟩
    by_cases hw : isWs c = true
    · exact .inl hw
    · right
      unfold jsonLoads at h
      rw [hl, skipWs_cons (by simpa using hw)] at h
      simp only at h
      split at h
      · rename_i v r hp
        split at h
        · cases h
          obtain ⟨l', hl'⟩ := parseV_dict_head hp
          simpa using congrArg List.head? hl'
        · simp at h
      · simp at h

theorem stripPrefix_eq : ∀ {p l r : List Char}, stripPrefix p l = some r → l = p ++ r
  | [], _, _, h => by simpa [stripPrefix] using h
  | a :: p, b :: l, r, h => by
    unfold stripPrefix at h
    split at h
    · rename_i hab
      rw [hab, stripPrefix_eq h]; rfl
    · simp at h
  | _ :: _, [], _, h => by simp [stripPrefix] at h

theorem not_json_start {s : String} {c : Char} {l : List Char} (hs : s.toList = c :: l)
    (hc : c = 'e' ∨ c = 'C' ∨ c = 'D' ∨ (c = 'I' ∧ '.' ∈ l)) (v : PyVal) : jsonLoads s ≠ .ok v := by
  intro h
  unfold jsonLoads at h
  rw [hs] at h
  rcases hc with rfl | rfl | rfl | ⟨rfl, hd⟩
  all_goals rw [skipWs_cons (by decide)] at h
  · simp [parseV, parseAtom, stripPrefix, parseNum, isDig] at h
  · simp [parseV, parseAtom, stripPrefix, parseNum, isDig] at h
  · simp [parseV, parseAtom, stripPrefix, parseNum, isDig] at h
  · obtain ⟨pre, post, rfl⟩ := List.append_of_mem hd
    have e1 : ∀ n, parseV (n + 1) ('I' :: (pre ++ '.' :: post)) = parseAtom ('I' :: (pre ++ '.' :: post)) := fun n => rfl
    simp only [e1] at h
    unfold parseAtom at h
    simp only [show stripPrefix "null".toList ('I' :: (pre ++ '.' :: post)) = none from rfl,
      show stripPrefix "true".toList ('I' :: (pre ++ '.' :: post)) = none from rfl,
      show stripPrefix "false".toList ('I' :: (pre ++ '.' :: post)) = none from rfl,
      show stripPrefix "NaN".toList ('I' :: (pre ++ '.' :: post)) = none from rfl,
      show stripPrefix "-Infinity".toList ('I' :: (pre ++ '.' :: post)) = none from rfl,
      show parseNum false ('I' :: (pre ++ '.' :: post)) = none from rfl] at h
    generalize hp : stripPrefix "Infinity".toList ('I' :: (pre ++ '.' :: post)) = o at h
    cases o with
    | none => simp at h
    | some r =>
      simp only at h
      have key : '.' ∈ r := by
        have := stripPrefix_eq hp
        have hm : '.' ∈ 'I' :: (pre ++ '.' :: post) := by simp
        rw [this] at hm
        rcases List.mem_append.mp hm with hm | hm
        · exact absurd hm (by decide)
        · exact hm
      have : (skipWs r).isEmpty = false := by
        rw [List.isEmpty_eq_false_iff]
        intro h0
        exact absurd (List.dropWhile_eq_nil_iff.mp h0 _ key) (by decide)
      rw [this] at h
      simp at h

theorem utf8_head {s : String} {b : UInt8} {w : Bytes} (h : utf8Encode s = b :: w) (hb : b < 128) :
    ∃ c l, s.toList = c :: l ∧ c.toNat = b.toNat ∧ w = utf8Encode (String.ofList l) := by
  unfold utf8Encode at h
  rcases hl : s.toList with _ | ⟨c, l⟩
  · rw [hl] at h; simp at h
  · refine ⟨c, l, rfl, ?_⟩
    rw [hl, List.flatMap_cons] at h
    have hb' : b.toNat < 128 := hb
    have hc : c.toNat < 0x110000 := by
      have := c.valid
      rcases this with h | ⟨_, h⟩
      · exact lt_trans h (by decide)
      · exact h
    unfold String.utf8EncodeChar at h
    simp only at h
    have e : c.val.toNat = c.toNat := rfl
    rw [e] at h
    split at h
    · simp only [List.cons_append, List.nil_append, List.cons.injEq] at h
      refine ⟨?_, ?_⟩
      · rw [← h.1, UInt8.toNat_ofNat']; omega
      · rw [← h.2]; simp [utf8Encode]
    · exfalso
      split at h
      · simp only [List.cons_append, List.cons.injEq] at h
        rw [← h.1, UInt8.toNat_ofNat'] at hb'
        omega
      · split at h
        · simp only [List.cons_append, List.cons.injEq] at h
          rw [← h.1, UInt8.toNat_ofNat'] at hb'
          omega
        · simp only [List.cons_append, List.cons.injEq] at h
          rw [← h.1, UInt8.toNat_ofNat'] at hb'
          omega

theorem dot_of_utf8 {l : List Char} (h : (46 : UInt8) ∈ utf8Encode (String.ofList l)) : '.' ∈ l := by
  unfold utf8Encode at h
  rw [String.toList_ofList] at h
  obtain ⟨c, hc, hm⟩ := List.mem_flatMap.mp h
  have hcv : c.toNat < 0x110000 := by
    rcases c.valid with h | ⟨_, h⟩
    · exact lt_trans h (by decide)
    · exact h
  have e : c.val.toNat = c.toNat := rfl
  have : c = '.' := by
    unfold String.utf8EncodeChar at hm
    simp only [e] at hm
    have big : ∀ n, 128 ≤ n → n < 256 → (46 : UInt8) ≠ UInt8.ofNat n := by
      intro n h1 h2 h3
      have := congrArg UInt8.toNat h3
      rw [UInt8.toNat_ofNat'] at this
      have e : (46 : UInt8).toNat = 46 := rfl
      omega
    split at hm
    · rename_i h1
      simp only [List.mem_singleton] at hm
      have := congrArg UInt8.toNat hm
      rw [UInt8.toNat_ofNat'] at this
      have e : (46 : UInt8).toNat = 46 := rfl
      exact Char.toNat_inj.mp (show c.toNat = 46 by omega)
    · exfalso
      split at hm
      · simp only [List.mem_cons, List.not_mem_nil, or_false] at hm
        rcases hm with hm | hm <;> exact big _ (by omega) (by omega) hm
      · split at hm
        · simp only [List.mem_cons, List.not_mem_nil, or_false] at hm
          rcases hm with hm | hm | hm <;> exact big _ (by omega) (by omega) hm
        · simp only [List.mem_cons, List.not_mem_nil, or_false] at hm
          rcases hm with hm | hm | hm | hm <;> exact big _ (by omega) (by omega) hm
  exact this ▸ hc

theorem b64e_head (x : UInt8) (y : Bytes) (h : toUrl (b64Char (x.toNat / 4)) ≠ 61) :
    ∃ z, b64e (x :: y) = toUrl (b64Char (x.toNat / 4)) :: z := by
  obtain ⟨z, hz⟩ : ∃ z, urlsafeB64encode (x :: y) = toUrl (b64Char (x.toNat / 4)) :: z := by
    unfold urlsafeB64encode
    rcases y with _ | ⟨y, _ | ⟨w, l⟩⟩ <;> exact ⟨_, rfl⟩
  unfold b64e
  obtain ⟨k, h1, -⟩ := rstrip_spec 61 (urlsafeB64encode (x :: y))
  rw [hz] at h1 ⊢
  rcases hr : rstrip 61 (toUrl (b64Char (x.toNat / 4)) :: z) with _ | ⟨a, l⟩
  · rw [hr] at h1
    rcases k with _ | k
    · simp at h1
    · simp [List.replicate_succ] at h1
      exact absurd h1.1 h
  · rw [hr] at h1
    simp only [List.cons_append, List.cons.injEq] at h1
    exact ⟨l, by rw [h1.1]⟩

/-- A text that begins with the encoding of a JSON object and a dot is no JSON text. -/
theorem compact_not_json {t hs : String} {rest : Bytes} {d : PyDict}
    (ht : utf8Encode t = b64e (utf8Encode hs) ++ 46 :: rest) (hj : jsonLoads hs = .ok (.dict d)) (v : PyVal) :
    jsonLoads t ≠ .ok v := by
  obtain ⟨c, l, hl, hc⟩ := jsonLoads_dict_head hj
  have hu : utf8Encode hs = String.utf8EncodeChar c ++ l.flatMap String.utf8EncodeChar := by
    unfold utf8Encode; rw [hl, List.flatMap_cons]
  have key : ∀ (x : UInt8) (cc : Char), String.utf8EncodeChar c = [x] → toUrl (b64Char (x.toNat / 4)) ≠ 61 →
      toUrl (b64Char (x.toNat / 4)) < 128 → cc.toNat = (toUrl (b64Char (x.toNat / 4))).toNat →
      ∃ l, t.toList = cc :: l ∧ '.' ∈ l := by
    intro x cc h1 h2 h3 h4
    rw [h1, List.singleton_append] at hu
    obtain ⟨z, hz⟩ := b64e_head x (l.flatMap String.utf8EncodeChar) h2
    rw [hu, hz] at ht
    obtain ⟨c', l', h5, h6, h7⟩ := utf8_head ht h3
    have : c' = cc := Char.toNat_inj.mp (h6.trans h4.symm)
    subst this
    refine ⟨l', h5, ?_⟩
    exact dot_of_utf8 (by rw [← h7]; simp)
  have hcc : c ∈ [' ', '\t', '\n', '\r', '{'] := by
    rcases hc with hc | rfl
    · simp only [isWs, Bool.or_eq_true, beq_iff_eq] at hc
      rcases hc with ((rfl | rfl) | rfl) | rfl <;> decide
    · decide
  simp only [List.mem_cons, List.not_mem_nil, or_false] at hcc
  rcases hcc with rfl | rfl | rfl | rfl | rfl
  · obtain ⟨l, h1, h2⟩ := key 32 'I' (by decide) (by decide) (by decide) (by decide)
    exact not_json_start h1 (.inr (.inr (.inr ⟨rfl, h2⟩))) v
  · obtain ⟨l, h1, h2⟩ := key 9 'C' (by decide) (by decide) (by decide) (by decide)
    exact not_json_start h1 (.inr (.inl rfl)) v
  · obtain ⟨l, h1, h2⟩ := key 10 'C' (by decide) (by decide) (by decide) (by decide)
    exact not_json_start h1 (.inr (.inl rfl)) v
  · obtain ⟨l, h1, h2⟩ := key 13 'D' (by decide) (by decide) (by decide) (by decide)
    exact not_json_start h1 (.inr (.inr (.inl rfl))) v
  · obtain ⟨l, h1, h2⟩ := key 123 'e' (by decide) (by decide) (by decide) (by decide)
    exact not_json_start h1 (.inl rfl) v

/-! ### Signed tokens -/

theorem signing_not_encryption {name : String} {a : SigAlg} {m : KeyMgmt} (h : SupportedAlg name a)
    (hm : MgmtName name m) : False := by
  have : name ∈ supportedAlg := by cases hm <;> decide
  cases h <;> exact absurd this (by decide)

theorem jwsFactory_compact {t : String} {j : Jwt} {hdr : PyDict} (hnj : ∀ v, jsonLoads t ≠ .ok v)
    (hu : Jwt.unpack (utf8Encode t) = .ok j) (hh : j.headers = .dict hdr) {name : String}
    (ha : PyDict.get? hdr "alg" = some (.str name)) :
    ((name = "none" ∨ ∃ a, SupportedAlg name a) → jwsFactory t = .ok (some { jwt := some j })) ∧
    (¬ (name = "none" ∨ ∃ a, SupportedAlg name a) → jwsFactory t = .ok none) := by
  classical
  obtain ⟨e, he⟩ : ∃ e, jsonLoads t = .error e := by
    cases h : jsonLoads t with
    | error e => exact ⟨e, rfl⟩
    | ok v => exact absurd h (hnj v)
  have hc : (PyVal.dict hdr).contains "alg" = .ok true := by
    show Except.ok (PyDict.get? hdr "alg").isSome = _
    rw [ha]; rfl
  have hk : kwGet hdr "alg" .none = .str name := by simp [kwGet, ha]
  have hin : inSignerAlgs (.str name) = .ok (decide (name = "none" ∨ ∃ a, SupportedAlg name a)) := by
    by_cases hx : name = "none"
    · subst hx; simp [inSignerAlgs]
    · simp only [inSignerAlgs, hx, decide_false, Bool.false_or, false_or, Except.ok.injEq]
      rw [Bool.eq_iff_iff, decide_eq_true_iff, Option.isSome_iff_exists]
      refine exists_congr fun a => ?_
      have := signerOf_iff (.str name) a
      simp only [signerOf, hx, if_false, Option.map_eq_some_iff, Option.some.injEq, exists_eq_right] at this
      rw [this]
      simp
  unfold jwsFactory Jwx.isJws
  simp only [he]
  unfold Jwx.isCompactJws
  simp only [hu, hh, hc, hk, reduceCtorEq, if_false, hin]
  refine ⟨fun hp => ?_, fun hp => ?_⟩
  · simp only [hp, decide_true]
    rw [← hh]
  · simp only [hp, decide_false]

/-- **C104.** What `jws.factory`, `jwe.factory` and `peek.py` make of a token of `sign_compact`, signed or not:
`jws.factory` recognises it, always.  `jwe.factory` answers `None`, unless the `typ` of the header is "JWE",
which it takes for an encrypted token, or is no text, for which it raises `AttributeError`. -/
theorem C104_signed (E : Env) (o : Jwx) (keys : List Key) (hkne : keys ≠ []) (prot : PyDict) (rnd : Nat) (t : String)
    (hp : (PyVal.dict prot).jsonable = true) (hkj : ∀ k ∈ keys, k.kid.jsonable = true)
    (hty : ∀ v, PyDict.get? o.dict "typ" = some v → v.jsonable = true) (hmsg : PartOk o.msg)
    (h : (o.signCompact E keys prot rnd).1 = .ok t) :
    ∃ alg key hdr p j, AlgFor o keys alg ∧ SignedHeader o prot alg key hdr ∧ PartBytes o.msg p ∧
      Jwt.unpack (utf8Encode t) = .ok j ∧ j.headers = .dict hdr ∧ j.part[1]? = some p ∧
      jwsFactory t = .ok (some { jwt := some j }) ∧
      ((PyDict.get? hdr "typ" = none ∨ ∃ s, PyDict.get? hdr "typ" = some (.str s) ∧ ¬ TypJwe s) →
        jweFactory (utf8Encode t) = .ok none ∧
        peekMain t = .ok (.printed [.str "jws", .dict hdr, .bytes p])) ∧
      (∀ s, PyDict.get? hdr "typ" = some (.str s) → TypJwe s →
        jweFactory (utf8Encode t) = .ok (some { jwt := some j }) ∧ peekMain t = .ok (.printed [.str "jwe"])) ∧
      (∀ v, PyDict.get? hdr "typ" = some v → (∀ s, v ≠ .str s) →
        jweFactory (utf8Encode t) = .error .attributeError ∧ peekMain t = .error .attributeError) := by
  obtain ⟨alg, key, s0, s1, hA, h0, h1, hc⟩ := signCompact_ok h
  have hk : ∀ x, key = some x → x ∈ keys := by
    rcases hc with ⟨-, rfl, -⟩ | ⟨name, a, k, l, kid, ka, sig, -, -, rfl, hl, -, hfs, -⟩
    · simp
    · rintro x hx
      cases hx
      obtain rfl : l = keys := by
        rcases hl with ⟨-, h⟩ | ⟨h, -⟩
        · exact h
        · exact absurd h hkne
      obtain ⟨pre, post, hlk, -⟩ := hfs
      rw [hlk]; simp
  have hname : ∃ name, alg = .str name ∧ (name = "none" ∨ ∃ a, SupportedAlg name a) := by
    rcases hc with ⟨rfl, -⟩ | ⟨name, a, k, l, kid, ka, sig, rfl, hs, -⟩
    · exact ⟨_, rfl, .inl rfl⟩
    · exact ⟨_, rfl, .inr ⟨a, hs⟩⟩
  obtain ⟨name, rfl, hname⟩ := hname
  have hj := signHeader_jsonable o prot (.str name) key hp rfl (fun x hx => hkj _ (hk x hx)) hty
  have hspec := signHeader_spec o prot (.str name) key
  obtain ⟨b, hb, hs, rfl, hlo⟩ := b64encodeItem_ok (.dict (signHeader o prot (.str name) key)) hj
  rw [hb] at h0
  obtain rfl := Except.ok.inj h0
  obtain ⟨p, hpb, hPB⟩ := b64encodeItem_ok o.msg hmsg
  rw [hpb] at h1
  obtain rfl := Except.ok.inj h1
  generalize signHeader o prot (.str name) key = hdr at *
  obtain ⟨sig, htx⟩ : ∃ sig, utf8Encode t = b64e (utf8Encode hs) ++ 46 :: b64e p ++ 46 :: b64e sig := by
    rcases hc with ⟨-, -, ht⟩ | ⟨_, _, _, _, _, _, sig, -, -, -, -, -, -, -, -, ht⟩
    · exact ⟨[], ht⟩
    · exact ⟨sig, ht⟩
  have htok : Token (utf8Encode t) (b64e (utf8Encode hs)) (b64e p) (.dict hdr) p sig :=
    ⟨⟨b64e sig, htx, C01_roundtrip _, b64e_no_dot _⟩, ⟨b64e_no_dot _, b64e_no_dot _⟩,
      ⟨utf8Encode hs, hs, C01_roundtrip _, utf8Decode_encode _, hlo⟩, C01_roundtrip _⟩
  obtain ⟨s2, hb, hu⟩ := unpack_of_token htok
  have hnj := compact_not_json (t := t) (hs := hs) (rest := b64e p ++ 46 :: b64e sig) (by rw [htx]; simp) hlo
  have hf := (jwsFactory_compact hnj hu rfl hspec.1).1 hname
  have hnn : ¬ NamesJwe hdr := by
    rintro ⟨a, e, n, i, h1, ⟨m, h2⟩, -⟩
    rw [hspec.1] at h1
    cases h1
    rcases hname with rfl | ⟨a, ha⟩
    · have : "none" ∈ supportedAlg := by generalize "none" = x at h2 ⊢; cases h2 <;> decide
      exact absurd this (by decide)
    · exact signing_not_encryption ha h2
  have hC := C27_jwe ⟨.dict hdr, [b64e (utf8Encode hs), b64e p, s2], [hb, p, sig]⟩ hdr rfl
  refine ⟨_, key, hdr, p, _, hA, hspec, hPB, hu, rfl, rfl, hf, ?_, ?_, ?_⟩
  · intro ht
    have : jweFactory (utf8Encode t) = .ok none := by
      refine (C27_jwe_factory _ _).mpr ⟨_, false, hu, ?_, .inr ⟨rfl, rfl⟩⟩
      rcases ht with ht | ⟨s, ht, hts⟩
      · obtain ⟨b, hb, hbi⟩ := hC.1 ht
        rw [hb]
        cases b
        · rfl
        · exact absurd (hbi.mp rfl) hnn
      · obtain ⟨b, hb, hbi⟩ := hC.2.1 s ht
        rw [hb]
        cases b
        · rfl
        · rcases hbi.mp rfl with h | h
          · exact absurd h hts
          · exact absurd h hnn
    refine ⟨this, ?_⟩
    simp only [peekMain, this, hf, Bind.bind, Except.bind]
  · intro s ht hts
    obtain ⟨b, hbb, hbi⟩ := hC.2.1 s ht
    have hb1 : b = true := hbi.mpr (.inl hts)
    subst hb1
    have : jweFactory (utf8Encode t) = .ok (some { jwt := some ⟨.dict hdr, [b64e (utf8Encode hs), b64e p, s2],
        [hb, p, sig]⟩ }) := by
      unfold jweFactory
      simp only [hu, Bind.bind, Except.bind, hbb, if_true]
    refine ⟨this, ?_⟩
    simp only [peekMain, this, Bind.bind, Except.bind]
  · intro v ht hv
    have hnb : ∀ s, v ≠ .bytes s := by
      rintro s rfl
      exact absurd (jsonable_get? hj ht) (by simp [PyVal.jsonable])
    have : jweFactory (utf8Encode t) = .error .attributeError := by
      unfold jweFactory
      simp only [hu, Bind.bind, Except.bind, hC.2.2 v ht hv hnb]
    refine ⟨this, ?_⟩
    simp only [peekMain, this, Bind.bind, Except.bind]

/-! ### Encrypted tokens -/

/-- The tools take the token for an encrypted one. -/
def Spec.TakenAsJwe (t : String) : Prop :=
  (∃ o, jweFactory (utf8Encode t) = .ok (some o)) ∧ jwsFactory t = .ok none ∧
    peekMain t = .ok (.printed [.str "jwe"])

theorem taken_as_jwe {t : String} {hdr : PyDict} (h : TokenHeader (utf8Encode t) hdr) {alg enc : String}
    {m : KeyMgmt} {kl il : Nat} (ha : PyDict.get? hdr "alg" = some (.str alg)) (hm : MgmtName alg m)
    (he : PyDict.get? hdr "enc" = some (.str enc)) (hen : EncName enc kl il)
    (ht : PyDict.get? hdr "typ" = none ∨ ∃ s, PyDict.get? hdr "typ" = some (.str s)) : TakenAsJwe t := by
  obtain ⟨s0, ek, iv, ct, tag, hJ⟩ := h
  obtain ⟨hb, hu⟩ := jweParts_unpack hJ
  obtain ⟨hs, rfl, hlo⟩ := hJ.header
  have hn : NamesJwe hdr := ⟨alg, enc, kl, il, ha, ⟨m, hm⟩, he, hen⟩
  have hnj := compact_not_json (t := t) (hs := hs) (rest := b64e ek ++ 46 :: b64e iv ++ 46 :: b64e ct ++ 46 :: b64e tag)
    (by rw [hJ.text]; simp) hlo
  have hC := C27_jwe ⟨.dict hdr, [b64e (utf8Encode hs), b64e ek, b64e iv, b64e ct, b64e tag], [hb, ek, iv, ct, tag]⟩
    hdr rfl
  have hf : jweFactory (utf8Encode t) = .ok (some { jwt := some ⟨.dict hdr,
      [b64e (utf8Encode hs), b64e ek, b64e iv, b64e ct, b64e tag], [hb, ek, iv, ct, tag]⟩ }) := by
    have : Jwt.isJwe ⟨.dict hdr, [b64e (utf8Encode hs), b64e ek, b64e iv, b64e ct, b64e tag],
        [hb, ek, iv, ct, tag]⟩ = .ok true := by
      rcases ht with ht | ⟨s, ht⟩
      · obtain ⟨b, hb, hbi⟩ := hC.1 ht
        rw [hb, hbi.mpr hn]
      · obtain ⟨b, hb, hbi⟩ := hC.2.1 s ht
        rw [hb, hbi.mpr (.inr hn)]
    unfold jweFactory
    simp only [hu, Bind.bind, Except.bind, this, if_true]
  refine ⟨⟨_, hf⟩, (jwsFactory_compact hnj hu rfl ha).2 ?_, ?_⟩
  · have hx : alg ∈ supportedAlg := by cases hm <;> decide
    rintro (rfl | ⟨a, h⟩)
    · exact absurd hx (by decide)
    · exact signing_not_encryption h hm
  · simp only [peekMain, hf, Bind.bind, Except.bind]

theorem shows_str {h : PyDict} {n s : String} (hs : Shows h n (some (.str s))) : PyDict.get? h n = some (.str s) := by
  obtain ⟨w, h1, h2⟩ := hs
  cases h2
  exact h1

theorem shows_typ {h d : PyDict} (hs : Shows h "typ" (entry d "typ"))
    (ht : PyDict.get? d "typ" = none ∨ ∃ s, PyDict.get? d "typ" = some (.str s)) :
    PyDict.get? h "typ" = none ∨ ∃ s, PyDict.get? h "typ" = some (.str s) := by
  have e : entry d "typ" = PyDict.get? d "typ" := rfl
  rw [e] at hs
  rcases ht with ht | ⟨s, ht⟩
  · rw [ht] at hs
    exact .inl hs
  · rw [ht] at hs
    exact .inr ⟨s, shows_str hs⟩

/-- **C104.** Tokens made with key wrap. -/
theorem C104_wrap {E : Env} {o : Jwe} {rnd : JweRnd} {keys : List Key} {cek iv : Bytes} {kid : Option PyVal}
    {t : String} {alg enc : String} {n kl il : Nat} (halg : PyDict.get? o.dict "alg" = some (.str alg))
    (hm : MgmtName alg (.wrap n)) (he : PyDict.get? o.dict "enc" = some (.str enc)) (hen : EncName enc kl il)
    (ht : PyDict.get? o.dict "typ" = none ∨ ∃ s, PyDict.get? o.dict "typ" = some (.str s))
    (hv : RealValues o keys kid) (h : (o.encrypt E rnd keys cek iv kid).1 = .ok t) : TakenAsJwe t := by
  obtain ⟨-, -, -, -, -, -, hdr, hT, hS, -⟩ := C89_wrap halg hm hv h
  have e1 := hS "alg" (by decide)
  have e2 := hS "enc" (by decide)
  rw [show entry o.dict "alg" = PyDict.get? o.dict "alg" from rfl, halg] at e1
  rw [show entry o.dict "enc" = PyDict.get? o.dict "enc" from rfl, he] at e2
  exact taken_as_jwe hT (shows_str e1) hm (shows_str e2) hen (shows_typ (hS "typ" (by decide)) ht)

/-- **C104.** Tokens made with key agreement. -/
theorem C104_ecdh {E : Env} {o : Jwe} {rnd : JweRnd} {keys : List Key} {cek iv : Bytes} {kid : Option PyVal}
    {t : String} {alg enc : String} {m : KeyMgmt} {kl il : Nat} (hkne : keys ≠ [])
    (halg : PyDict.get? o.dict "alg" = some (.str alg))
    (hm : MgmtName alg m) (hma : IsAgreement m) (he : PyDict.get? o.dict "enc" = some (.str enc))
    (hen : EncName enc kl il)
    (ht : PyDict.get? o.dict "typ" = none ∨ ∃ s, PyDict.get? o.dict "typ" = some (.str s))
    (hk : ∀ k ∈ keys, ∃ C X Y, HasPoint C X Y k ∧ ∀ e, o.epk = some e → EphemeralKey C e)
    (hv : RealValues o keys kid) (h : (o.encrypt E rnd keys cek iv kid).1 = .ok t) : TakenAsJwe t := by
  obtain ⟨l, wk, k, hl, -, hf, hx⟩ := C89_ecdh halg hm hma hv h
  have hkm : k ∈ keys := by
    obtain rfl : l = keys := by
      rcases hl with ⟨-, h⟩ | ⟨h, -⟩
      · exact h
      · exact absurd h hkne
    obtain ⟨pre, post, hlk, -⟩ := hf
    rw [hlk]; simp
  obtain ⟨C, X, Y, hP, hep⟩ := hk k hkm
  obtain ⟨hdr, hT, hS, -⟩ := hx C X Y hP hep
  have e1 := hS "alg" (by decide)
  have e2 := hS "enc" (by decide)
  rw [show entry o.dict "alg" = PyDict.get? o.dict "alg" from rfl, halg] at e1
  rw [show entry o.dict "enc" = PyDict.get? o.dict "enc" from rfl, he] at e2
  exact taken_as_jwe hT (shows_str e1) hm (shows_str e2) hen (shows_typ (hS "typ" (by decide)) ht)

/-- **C104.** Tokens made with RSA. -/
theorem C104_rsa {E : Env} {o : Jwe} {rnd : JweRnd} {keys : List Key} {cek iv : Bytes} {kid : Option PyVal}
    {t : String} {alg enc : String} {p : RsaPad} {kl il : Nat} (halg : PyDict.get? o.dict "alg" = some (.str alg))
    (hm : MgmtName alg (.rsa p)) (he : PyDict.get? o.dict "enc" = some (.str enc)) (hen : EncName enc kl il)
    (ht : PyDict.get? o.dict "typ" = none ∨ ∃ s, PyDict.get? o.dict "typ" = some (.str s))
    (hv : RealValues o keys kid)
    (hser : ∀ k v, o.jwk = some (.key k) → k.serializeDflt = .ok v → Distinct v)
    (h : (o.encrypt E rnd keys cek iv kid).1 = .ok t) : TakenAsJwe t := by
  obtain ⟨-, -, -, -, -, -, hdr, hT, hS, -⟩ := C89_rsa halg hm hv hser h
  have e1 := hS "alg" (by decide)
  have e2 := hS "enc" (by decide)
  have e3 := hS "typ" (by decide)
  have g1 : (PyVal.str alg).truthy = true := by cases hm <;> decide
  have g2 : (PyVal.str enc).truthy = true := by cases hen <;> decide
  rw [show entry o.dict "alg" = PyDict.get? o.dict "alg" from rfl, halg, Option.filter_some, if_pos g1] at e1
  rw [show entry o.dict "enc" = PyDict.get? o.dict "enc" from rfl, he, Option.filter_some, if_pos g2] at e2
  refine taken_as_jwe hT (shows_str e1) hm (shows_str e2) hen ?_
  rw [show entry o.dict "typ" = PyDict.get? o.dict "typ" from rfl] at e3
  rcases ht with ht | ⟨s, ht⟩
  · rw [ht] at e3
    exact .inl e3
  · rw [ht, Option.filter_some] at e3
    split at e3
    · exact .inr ⟨s, shows_str e3⟩
    · exact .inl e3

/-! ### Examples -/

example : ∃ t, (exWrapper.encrypt toyEnv exRnd [exShared]).1 = .ok t ∧ TakenAsJwe t := by
  obtain ⟨t, ht⟩ := exWrapper_token
  exact ⟨t, ht, C104_wrap (o := exWrapper) rfl .a128 rfl .g256 (.inl rfl) exWrapper_real ht⟩

example : ∃ t, (exRsaer.encrypt toyEnv exRnd [exRsaPub]).1 = .ok t ∧ TakenAsJwe t := by
  obtain ⟨t, ht, -⟩ := exRsaer_token
  exact ⟨t, ht, C104_rsa (o := exRsaer) rfl .oaep rfl .c192 (.inl rfl) exRsaer_real (by intro k v hk; cases hk) ht⟩

example : ∃ t, (exAgreer.encrypt toyEnv exRnd [exEcKey]).1 = .ok t ∧ TakenAsJwe t := by
  obtain ⟨X, Y, -, hpt, -⟩ := exEcKey_ok
  obtain ⟨t, ht⟩ := exAgreer_token
  exact ⟨t, ht, C104_ecdh (o := exAgreer) (by simp) rfl .ec192 trivial rfl .c128 (.inl rfl)
    (by intro k hk; simp at hk; subst hk; exact ⟨P256, X, Y, hpt, by intro e h; cases h⟩) exAgreer_real ht⟩

/-- A token signed with any text, by an RSA key of 1042 bits. -/
example (m : String) (rnd : Nat) :
    ∃ t hdr j, (({ msg := .str m, dict := [("alg", .str "PS512")] } : Jwx).signCompact stdEnv [bigKey bigRsa] [] rnd).1 =
      .ok t ∧ jwsFactory t = .ok (some { jwt := some j }) ∧ jweFactory (utf8Encode t) = .ok none ∧
      peekMain t = .ok (.printed [.str "jws", .dict hdr, .bytes (utf8Encode m)]) := by
  obtain ⟨t, h1⟩ := C100_signs stdEnv { msg := .str m, dict := [("alg", .str "PS512")] }
    [bigKey bigRsa] (by simp) [] rnd "PS512" (.ps .sha512) .PS512 (.inl ⟨rfl, rfl⟩) .none
    (.inr ⟨rfl, .inl ⟨rfl, rfl⟩⟩) (bigKey bigRsa)
    ⟨[], [], rfl, ⟨⟨.inr (.inl rfl), by decide, by decide⟩, by decide⟩, by simp⟩
    (C100_rsa stdEnv_standard (.inr rfl) rnd (bigKey_holds _) bigRsa_consistent bigRsa_size) rfl rfl rfl
    (by intro v h; exact absurd h (by simp [PyDict.get?, List.lookup])) trivial
  obtain ⟨alg, key, hdr, p, j, -, hS, hp, -, -, -, hf, hn, -⟩ := C104_signed stdEnv
    { msg := .str m, dict := [("alg", .str "PS512")] } _ (by simp) [] rnd t rfl
    (by intro k hk; simp at hk; subst hk; rfl)
    (by intro v h; exact absurd h (by simp [PyDict.get?, List.lookup])) trivial h1
  have hp : p = utf8Encode m := hp
  subst hp
  obtain ⟨g1, g2⟩ := hn (.inl (by rw [hS.2.2.1]; rfl))
  exact ⟨t, hdr, j, h1, hf, g1, g2⟩

end Verif
