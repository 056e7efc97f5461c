import Verif.Props.Raises
import Verif.Props.JweForgery
import Verif.Props.JweTotal
import Verif.Props.JwsTotal
import Verif.Spec.DecryptExc
/-
C125: which exceptions decrypting a compact token raises.
-/

namespace Verif
open Spec

/-! ### JSON text yields no bytes -/

inductive NoBytes : PyVal → Prop
  | none : NoBytes .none
  | bool (b) : NoBytes (.bool b)
  | int (i) : NoBytes (.int i)
  | float (s) : NoBytes (.float s)
  | str (s) : NoBytes (.str s)
  | list (l) (h : ∀ v ∈ l, NoBytes v) : NoBytes (.list l)
  | dict (d) (h : ∀ p ∈ d, NoBytes p.2) : NoBytes (.dict d)

theorem parseNum_noBytes {neg : Bool} {l r : List Char} {v : PyVal} (h : parseNum neg l = some (v, r)) : NoBytes v := by
  unfold parseNum at h
  split at h
  · cases h
  · dsimp only at h
    generalize (_ && _ : Bool) = c at h
    repeat' split at h
    all_goals simp only [Option.some.injEq, Prod.mk.injEq, reduceCtorEq] at h
    all_goals obtain ⟨rfl, -⟩ := h
    all_goals first | exact .int _ | exact .float _

theorem parseAtom_noBytes {l r : List Char} {v : PyVal} (h : parseAtom l = some (v, r)) : NoBytes v := by
  unfold parseAtom at h
  repeat' split at h
  all_goals first
    | exact parseNum_noBytes h
    | (cases h; first | exact .none | exact .bool _ | exact .float _)

theorem set_noBytes {d : PyDict} (h : ∀ p ∈ d, NoBytes p.2) {k : String} {v : PyVal} (hv : NoBytes v) :
    ∀ p ∈ PyDict.set d k v, NoBytes p.2 := by
  induction d with
  | nil => simpa [PyDict.set] using hv
  | cons x d ih =>
    intro p hp
    unfold PyDict.set at hp
    split at hp
    · rcases List.mem_cons.mp hp with rfl | hp
      · exact hv
      · exact h p (by simp [hp])
    · rcases List.mem_cons.mp hp with rfl | hp
      · exact h _ (by simp)
      · exact ih (fun q hq => h q (by simp [hq])) p hp

theorem dictOfPairs_noBytes : ∀ (l d : PyDict), (∀ p ∈ l, NoBytes p.2) → (∀ p ∈ d, NoBytes p.2) →
    ∀ p ∈ l.foldl (fun d kv => PyDict.set d kv.1 kv.2) d, NoBytes p.2
  | [], _, _, hd => hd
  | x :: l, d, hl, hd => dictOfPairs_noBytes l _ (fun p hp => hl p (by simp [hp])) (set_noBytes hd (hl x (by simp)))

theorem parse_noBytes : ∀ f : Nat, (∀ l v r, parseV f l = some (v, r) → NoBytes v) ∧
    (∀ l vs r, parseL f l = some (vs, r) → ∀ v ∈ vs, NoBytes v) ∧
    ∀ l ms r, parseD f l = some (ms, r) → ∀ p ∈ ms, NoBytes p.2
  | 0 => by refine ⟨?_, ?_, ?_⟩ <;> (intro l v r h; simp [parseV, parseL, parseD] at h)
  | f + 1 => by
    obtain ⟨h1, h2, h3⟩ := parse_noBytes f
    refine ⟨fun l v r h => ?_, fun l vs r h => ?_, fun l ms r h => ?_⟩
    · unfold parseV at h
      split at h
      · simp only [Option.bind_eq_bind, Option.bind_eq_some_iff, Prod.exists, Option.some.injEq, Prod.mk.injEq] at h
        obtain ⟨s, r', -, rfl, -⟩ := h
        exact .str _
      · split at h
        · cases h; exact .list _ (by simp)
        · simp only [Option.bind_eq_bind, Option.bind_eq_some_iff, Prod.exists, Option.some.injEq, Prod.mk.injEq] at h
          obtain ⟨s, r', h', rfl, -⟩ := h
          exact .list _ (h2 _ _ _ h')
      · split at h
        · cases h; exact .dict _ (by simp)
        · simp only [Option.bind_eq_bind, Option.bind_eq_some_iff, Prod.exists, Option.some.injEq, Prod.mk.injEq] at h
          obtain ⟨s, r', h', rfl, -⟩ := h
          exact .dict _ (dictOfPairs_noBytes _ [] (h3 _ _ _ h') (by simp))
      · exact parseAtom_noBytes h
    · unfold parseL at h
      simp only [Option.bind_eq_bind, Option.bind_eq_some_iff, Prod.exists] at h
      obtain ⟨v, r', hv, h⟩ := h
      split at h
      · cases h; simpa using h1 _ _ _ hv
      · simp only [Option.bind_eq_some_iff, Prod.exists, Option.some.injEq, Prod.mk.injEq] at h
        obtain ⟨vs', r'', h', rfl, -⟩ := h
        intro w hw
        rcases List.mem_cons.mp hw with rfl | hw
        · exact h1 _ _ _ hv
        · exact h2 _ _ _ h' _ hw
      · cases h
    · unfold parseD at h
      split at h
      · simp only [Option.bind_eq_bind, Option.bind_eq_some_iff, Prod.exists] at h
        obtain ⟨k, r', -, h⟩ := h
        split at h
        · simp only [Option.bind_eq_some_iff, Prod.exists] at h
          obtain ⟨v, r'', hv, h⟩ := h
          split at h
          · cases h; simpa using h1 _ _ _ hv
          · simp only [Option.bind_eq_some_iff, Prod.exists, Option.some.injEq, Prod.mk.injEq] at h
            obtain ⟨ms', r3, h', rfl, -⟩ := h
            intro w hw
            rcases List.mem_cons.mp hw with rfl | hw
            · exact h1 _ _ _ hv
            · exact h3 _ _ _ h' _ hw
          · cases h
        · cases h
      · cases h

theorem jsonLoads_noBytes {s : String} {v : PyVal} (h : jsonLoads s = .ok v) : NoBytes v := by
  unfold jsonLoads at h
  dsimp only at h
  split at h
  · rename_i w r hp
    split at h
    · cases h; exact (parse_noBytes _).1 _ _ _ hp
    · cases h
  · cases h

/-! ### Sizes -/

theorem a2b_length : ∀ (s : Bytes) (q l p : Nat) (out : Bytes), a2bLoop s q l p = .ok out → out.length ≤ s.length
  | [], q, l, p, out, h => by
    unfold a2bLoop at h
    split at h
    · cases h; simp
    · cases h
  | c :: cs, q, l, p, out, h => by
    have ih := a2b_length cs
    have step : ∀ {q l p : Nat} {x : UInt8} {out : Bytes}, (a2bLoop cs q l p).map (x :: ·) = .ok out → out.length ≤ (c :: cs).length := by
      intro q l p x out h
      cases hr : a2bLoop cs q l p with
      | error e => rw [hr] at h; cases h
      | ok o => rw [hr] at h; cases h; simpa using ih _ _ _ _ hr
    have same : ∀ {q l p : Nat} {out : Bytes}, a2bLoop cs q l p = .ok out → out.length ≤ (c :: cs).length :=
      fun h => (ih _ _ _ _ h).trans (by simp)
    unfold a2bLoop at h
    repeat' split at h
    all_goals first
      | (cases h; simp)
      | exact same h
      | exact step h

theorem b64d_length {b out : Bytes} (h : b64d b = .ok out) : out.length ≤ b.length + 2 := by
  have hu : ∀ {s : Bytes}, urlsafeB64decode s = .ok out → out.length ≤ s.length := fun h => by
    simpa using a2b_length _ _ _ _ _ h
  unfold b64d addPadding at h
  dsimp only at h
  repeat' split at h
  all_goals try cases h
  · exact (hu h).trans (by simp)
  · exact (hu h).trans (by simp)
  · exact (hu h).trans (by simp)
  · exact (hu h).trans (by simp)

theorem seg_length {l : List Bytes} {s : Bytes} (h : s ∈ l) : s.length ≤ (joinDot l).length := by
  induction l with
  | nil => cases h
  | cons x l ih =>
    cases l with
    | nil => simp only [List.mem_singleton] at h; subst h; simp [joinDot]
    | cons y l =>
      rcases List.mem_cons.mp h with rfl | h
      · simp [joinDot]
      · have := ih h
        simp only [joinDot, List.length_append, List.length_cons] at this ⊢
        omega

theorem unpack_length {t : Bytes} {j : Jwt} (h : Jwt.unpack t = .ok j) : ∀ p ∈ j.part, p.length ≤ t.length + 2 := by
  obtain ⟨-, ⟨-, hs, -⟩, hf, -⟩ := (C09_unpack_iff _ _).mp h
  intro p hp
  obtain ⟨i, hi, rfl⟩ := List.getElem_of_mem hp
  have hi' : i < j.b64part.length := by rw [hf.length_eq]; exact hi
  have := (List.forall₂_iff_get.mp hf).2 i hi' hi
  have h1 := b64d_length this
  have h2 := seg_length (List.getElem_mem hi')
  rw [hs] at h2
  simp only [List.get_eq_getElem] at h1
  omega

/-! ### Content -/

theorem raises_aesNew (k : Bytes) : Raises [.valueError] (aesNew k) :=
  raises_ite (fun _ => raises_ok _) fun _ => raises_err (by decide)

theorem raises_packQ (n : Nat) : Raises [.structError] (packQ n) :=
  raises_ite (fun _ => raises_ok _) fun _ => raises_err (by decide)

theorem raises_packI (n : Nat) : Raises [.structError] (packI n) :=
  raises_ite (fun _ => raises_ok _) fun _ => raises_err (by decide)

theorem raises_unpackQ (b : Bytes) : Raises [.structError] (unpackQ b) :=
  raises_ite (fun _ => raises_ok _) fun _ => raises_err (by decide)

theorem raises_content {E : Env} (hE : Standard E) {enc : PyVal} {key ct aad iv tag : Bytes} (hct : ct.length ≤ 2 ^ 36) :
    Raises contentExc (jweDecrypt E enc key ct aad iv tag) := by
  unfold jweDecrypt
  refine raises_ite (fun _ => ?_) fun _ => raises_ite (fun _ => ?_) fun _ => raises_err (by decide)
  · obtain ⟨h1, h2⟩ := Gcm.new_spec hE.aesLaw (bytesToNat key)
    refine raises_bind (x := Gcm.new E.C (bytesToNat key)) ?_ fun g hg => ?_
    · cases hk : aesKeyOk (longToBytes (bytesToNat key) 16) with
      | true =>
        obtain ⟨g, hg, -⟩ := h1 hk
        rw [hg]; exact raises_ok _
      | false => rw [h2 hk]; exact raises_err (by decide)
    · unfold Gcm.decrypt Gcm.crypt ctrCrypt
      refine raises_ite (fun _ => raises_err (by decide)) fun _ => raises_ite (fun _ => raises_err (by decide)) fun _ =>
        raises_ite (fun _ => raises_err (by decide)) fun _ => raises_ite (fun _ => raises_bind ?_ fun _ _ => raises_ok _) fun _ => raises_ok _
      refine raises_bind (raises_mono (raises_aesNew _) (by decide)) fun _ _ => ?_
      have hp : ¬ (pad16 ct).length > 16 * 2 ^ 32 := by
        unfold pad16
        split
        · omega
        · simp only [List.length_append, List.length_replicate]; omega
      rw [if_neg hp]; exact raises_ok _
  · unfold aesCbcHmacDecrypt getKeysSeclenDgst cbcHmacTag cbcDecrypt pkcs5trim
    refine raises_bind (raises_ite (fun _ => raises_err (by decide)) fun _ => ?_) fun a _ => ?_
    · split
      · exact raises_err (by decide)
      · exact raises_ok _
    obtain ⟨ka, ke, seclen, dgst⟩ := a
    refine raises_bind (raises_bind (raises_mono (raises_packQ _) (by decide)) fun _ _ => raises_ok _) fun c _ =>
      raises_ite (fun _ => ?_) fun _ => raises_err (by decide)
    refine raises_bind (raises_bind (raises_mono (raises_aesNew _) (by decide)) fun _ _ => raises_ite (fun _ => raises_err (by decide)) fun _ =>
      raises_ite (fun _ => raises_err (by decide)) fun _ => raises_ok _) fun d _ => ?_
    split
    · exact raises_err (by decide)
    · exact raises_ite (fun _ => raises_err (by decide)) fun _ => raises_ite (fun _ => raises_ok _) fun _ => raises_ok _

theorem raises_foldlM {α σ : Type} {S : List Exc} {f : σ → α → PyM σ} (hf : ∀ s a, Raises S (f s a)) :
    ∀ (l : List α) (s : σ), Raises S (l.foldlM f s)
  | [], _ => raises_ok _
  | a :: l, s => by
    rw [List.foldlM_cons]
    exact raises_bind (hf s a) fun s' _ => raises_foldlM hf l s'

theorem raises_unwrap (C : BlockCipher) (kek w : Bytes) : Raises [.valueError, .structError] (aesUnwrapKey C kek w) := by
  unfold aesUnwrapKey aesUnwrapKeyAndIV
  refine raises_bind (raises_bind (raises_mono (raises_unpackQ _) (by decide)) fun _ _ =>
    raises_bind (raises_mono (raises_aesNew _) (by decide)) fun _ _ => raises_bind (raises_foldlM (fun s a => ?_) _ _) fun _ _ => raises_ok _) fun _ _ => ?_
  · unfold unwrapStep
    exact raises_bind (raises_mono (raises_packQ _) (by decide)) fun _ _ => raises_bind (raises_mono (raises_unpackQ _) (by decide)) fun _ _ =>
      raises_ok _
  · exact raises_ite (fun _ => raises_err (by decide)) fun _ => raises_ok _

theorem raises_partAt (j : Jwt) (i : Nat) : Raises [.indexError] (j.partAt i) := by
  unfold Jwt.partAt; split
  · exact raises_ok _
  · exact raises_err (by decide)

theorem partAt_mem {j : Jwt} {i : Nat} {p : Bytes} (h : j.partAt i = .ok p) : p ∈ j.part := by
  unfold Jwt.partAt at h; split at h
  · rename_i q hq
    cases h; exact List.mem_of_getElem? hq
  · cases h

theorem raises_b64h (j : Jwt) : Raises [.indexError] j.b64ProtectedHeader := by
  unfold Jwt.b64ProtectedHeader; split
  · exact raises_ok _
  · exact raises_err (by decide)

theorem raises_item {d : PyDict} {k : String} : Raises [.keyError] (PyVal.getItem (.dict d) k) := by
  unfold PyVal.getItem
  dsimp only
  split
  · exact raises_ok _
  · exact raises_err (by decide)

/-- The unpacked token: header an object, with no bytes in it, and parts that are not huge. -/
structure Sane (j : Jwt) (hdr : PyDict) : Prop where
  headers : j.headers = .dict hdr
  plain : ∀ p ∈ hdr, NoBytes p.2
  size : ∀ p ∈ j.part, p.length ≤ 2 ^ 36
  first : ∃ s, j.b64part[0]? = some s
  same : j.b64part.length = j.part.length

/-! ### RSA -/

theorem raises_rsaDecrypt {E : Env} (hE : Standard E) (hz : ∀ b e, E.Z.decompress b = .error e → e = .zlibError)
    {j : Jwt} {hdr : PyDict} (hj : Sane j hdr) {sentinel : Bytes} {r : RsaKey} :
    Raises (.keyError :: rsaExc) (rsaDecrypt E false sentinel j (some (.obj (.rsa r))) []) := by
  obtain ⟨f, hR⟩ := hE.rsa
  unfold rsaDecrypt
  rw [hj.headers]
  refine raises_bind (raises_mono (raises_partAt _ _) (by decide)) fun jek _ => raises_bind (raises_mono raises_item (by decide)) fun alg' _ => ?_
  refine raises_bind ?_ fun cek _ => raises_bind (raises_mono raises_item (by decide)) fun enc _ => raises_ite (fun _ => raises_err (by decide)) fun _ => ?_
  · rw [if_neg (by simp)]
    refine raises_bind ?_ fun pad _ => ?_
    · unfold rsaPadOf
      exact raises_ite (fun _ => raises_ok _) fun _ => raises_ite (fun _ => raises_ok _) fun _ => raises_ite (fun _ => raises_ok _) fun _ =>
        raises_err (by decide)
    · unfold rsaEncrypterDecrypt
      refine raises_bind (raises_ok _) fun k _ => ?_
      rw [hR]
      cases pad with
      | pkcs1 =>
        refine raises_bind (fun e h => ?_) fun t _ => ?_
        · rcases Real.dec15_error (k := k) (c := jek) h with rfl | rfl <;> decide
        · unfold rsaCheckText
          simp only [Bool.false_eq_true, if_false]
          exact raises_ite (fun _ => raises_err (by decide)) fun _ => raises_ok _
      | oaep => intro e h; rcases Real.decOaep_error (k := k) (c := jek) h with rfl | rfl <;> decide
      | oaep256 => intro e h; rcases Real.decOaep_error (k := k) (c := jek) h with rfl | rfl <;> decide
  · refine raises_bind (raises_mono (raises_partAt _ _) (by decide)) fun ct hct => raises_bind (raises_mono (raises_b64h _) (by decide)) fun h _ =>
      raises_bind (raises_mono (raises_partAt _ _) (by decide)) fun iv _ => raises_bind (raises_mono (raises_partAt _ _) (by decide)) fun tag _ =>
      raises_bind (raises_mono (raises_content hE (hj.size _ (partAt_mem hct))) (by decide)) fun m _ => raises_bind (raises_ok _) fun b _ => raises_bind (raises_ite (fun _ => ?_) fun _ => raises_ok _) fun z _ => ?_
    · exact raises_bind (raises_mono raises_item (by decide)) fun _ _ => raises_ok _
    · refine raises_bind (raises_ite (fun _ => ?_) fun _ => raises_ok _) fun _ _ => raises_ok _
      intro e h
      rw [hz _ _ h]; decide

/-! ### Key wrapping -/

theorem raises_symDecrypt {E : Env} (hE : Standard E) {j : Jwt} {hdr : PyDict} (hj : Sane j hdr) {kek : Bytes} (hk : kek ≠ []) :
    Raises (.keyError :: symExc) (symDecrypt E j (some (.obj (.val (.bytes kek)))) []) := by
  unfold symDecrypt
  have ht : keyTrue (some (.obj (.val (.bytes kek)))) = true := by simp [keyTrue, KObj.truthy, PyVal.truthy, hk]
  rw [hj.headers]
  by_cases h5 : j.part.length = 5
  · have hp : ∀ i, i < 5 → Raises [] (j.partAt i) := by
      intro i hi
      unfold Jwt.partAt
      rw [List.getElem?_eq_getElem (by omega)]
      exact raises_ok _
    have hb : Raises [] j.b64ProtectedHeader := by
      obtain ⟨s, hs⟩ := hj.first
      unfold Jwt.b64ProtectedHeader
      rw [hs]; exact raises_ok _
    refine raises_bind ?_ fun cek _ => raises_bind (raises_mono raises_item (by decide)) fun enc _ => raises_bind (raises_mono (hp 3 (by omega)) (by decide)) fun ct hct =>
      raises_bind (raises_mono hb (by decide)) fun h _ => raises_bind (raises_mono (hp 2 (by omega)) (by decide)) fun iv _ =>
      raises_bind (raises_mono (hp 4 (by omega)) (by decide)) fun tag _ => raises_mono (raises_content hE (hj.size _ (partAt_mem hct))) (by decide)
    rw [if_neg (by simp [ht]), if_neg (by simp [h5]), if_neg (by simp)]
    exact raises_bind (raises_mono (hp 1 (by omega)) (by decide)) fun jek _ => raises_bind (raises_ok _) fun k _ => raises_mono (raises_unwrap _ _ _) (by decide)
  · refine raises_bind (x := _) ?_ fun cek hc => ?_
    · rw [if_neg (by simp [ht]), if_pos h5]; exact raises_err (by decide)
    · rw [if_neg (by simp [ht]), if_pos h5] at hc; cases hc

/-! ### ECDH-ES -/

theorem a2b_raises : ∀ (s : Bytes) (q l p : Nat), Raises [.binasciiError] (a2bLoop s q l p)
  | [], q, l, p => by unfold a2bLoop; exact raises_ite (fun _ => raises_ok _) fun _ => raises_err (by decide)
  | c :: s, q, l, p => by
    have ih := a2b_raises s
    unfold a2bLoop
    repeat' split
    all_goals first
      | exact raises_ok _
      | exact ih _ _ _
      | exact raises_map (ih _ _ _)

theorem raises_toLong {b : Bytes} {e : Exc} (h : base64ToLongBytes b = .error e) : e.isValueError = true := by
  unfold base64ToLongBytes at h
  cases hu : urlsafeB64decode (b ++ [61, 61]) with
  | error e' =>
    rw [hu] at h; cases h
    have := a2b_raises _ _ _ _ _ hu
    simp only [List.mem_singleton] at this
    subst this; rfl
  | ok d =>
    rw [hu] at h
    simp only [Bind.bind, Except.bind] at h
    unfold intarr2long at h
    have : Raises [.valueError] (intBase16 ((d.map UInt8.toNat).flatMap hex02)) := by
      unfold intBase16
      repeat' split
      all_goals first | exact raises_ok _ | exact raises_err (by decide)
    have := this _ h
    simp only [List.mem_singleton] at this
    subst this; rfl

theorem raises_listBytes : ∀ l : List PyVal, ∀ e, listBytes l = .error e → e = .typeError ∨ e.isValueError = true
  | [], e, h => by cases h
  | v :: l, e, h => by
    rw [listBytes] at h
    split at h
    · split at h
      · cases hl : listBytes l with
        | ok r => rw [hl] at h; cases h
        | error e' => rw [hl] at h; cases h; exact raises_listBytes l _ hl
      · cases h; exact .inr rfl
    · cases h; exact .inl rfl

theorem raises_deser (v : PyVal) (hi : isInt v = false) : ∀ e, deser v = .error e → e = .typeError ∨ e.isValueError = true := by
  intro e h
  cases v with
  | str s => exact .inr (raises_toLong h)
  | bytes b => exact .inr (raises_toLong h)
  | list l =>
    simp only [deser, pyBytes] at h
    cases hl : listBytes l with
    | ok b => rw [hl] at h; exact .inr (raises_toLong h)
    | error e' =>
      rw [hl] at h
      cases h
      exact raises_listBytes l _ hl
  | dict d =>
    cases d with
    | nil => exact .inr (raises_toLong (b := []) h)
    | cons _ _ => cases h; exact .inl rfl
  | int i => simp [isInt] at hi
  | bool b => simp [isInt] at hi
  | _ => cases h; exact .inl rfl

theorem raises_coord (v : PyVal) : Raises [.deSerializationNotPossible] (ecCoord v) := by
  unfold ecCoord
  refine raises_ite (fun _ => raises_ok _) fun hi => ?_
  cases h : deser v with
  | ok n => exact raises_ok _
  | error e =>
    have : (e = .typeError || e.isValueError) = true := by
      rcases raises_deser v (by simpa using hi) e h with rfl | h
      · rfl
      · simp [h]
    simp only [this, if_true]
    exact raises_err (by decide)

theorem raises_curve_val (v : PyVal) : Raises [.eccException] (curveByVal v) := by
  have h : (∃ C, nistCurve 256 = .ok C) ∧ (∃ C, nistCurve 384 = .ok C) ∧ ∃ C, nistCurve 521 = .ok C := ⟨⟨_, rfl⟩, ⟨_, rfl⟩, _, rfl⟩
  obtain ⟨⟨C1, h1⟩, ⟨C2, h2⟩, C3, h3⟩ := h
  unfold curveByVal curveByName curveByNameB
  rw [h1, h2, h3]
  split
  · exact raises_ite (fun _ => raises_ok _) fun _ => raises_ite (fun _ => raises_ok _) fun _ => raises_ite (fun _ => raises_ok _) fun _ => raises_err (by decide)
  · exact raises_ite (fun _ => raises_ok _) fun _ => raises_ite (fun _ => raises_ok _) fun _ => raises_ite (fun _ => raises_ok _) fun _ => raises_err (by decide)
  · exact raises_err (by decide)

theorem verifyLongs_plain : ∀ l : List PyVal, (∀ v ∈ l, ∀ b, v ≠ .bytes b) → ∃ r : List PyVal × Bool, verifyLongs l = .ok r ∧ r.1.length = l.length
  | [], _ => ⟨_, rfl, rfl⟩
  | v :: l, h => by
    obtain ⟨r, hr, hl⟩ := verifyLongs_plain l fun w hw => h w (by simp [hw])
    unfold verifyLongs
    split
    · exact ⟨_, by rw [hr]; rfl, by simpa using hl⟩
    · split
      · rename_i b _
        exact absurd rfl (h _ (by simp) b)
      · exact ⟨_, rfl, rfl⟩

theorem kwGet_noBytes {d : PyDict} (h : ∀ p ∈ d, NoBytes p.2) (k : String) (b : Bytes) : kwGet d k (.str "") ≠ .bytes b := by
  unfold kwGet
  cases hg : PyDict.get? d k with
  | none => simp
  | some v =>
    have := h _ (get?_mem hg)
    intro hb
    simp only [Option.getD_some] at hb
    subst hb
    cases this

theorem raises_ecD (d : PyVal) : Raises [.deSerializationNotPossible] (match d with
      | .str _ => valueErrorTo .deSerializationNotPossible ((deser d).map fun (n : Nat) => PyVal.int n)
      | d => .ok d : PyM PyVal) := by
  cases d with
  | str s =>
    dsimp only
    cases hd : deser (.str s) with
    | ok n => exact raises_ok _
    | error e =>
      have : e.isValueError = true := raises_toLong (b := utf8Encode s) hd
      simp only [Except.map, valueErrorTo, this, if_true]
      exact raises_err (by decide)
  | _ => exact raises_ok _

/-- `ECKey(**headers["epk"])`. -/
theorem raises_epk {v : PyVal} (h : NoBytes v) :
    Raises [.typeError, .headerError, .deSerializationNotPossible, .eccException, .attributeError] (ecKeyOfHeader v) := by
  unfold ecKeyOfHeader
  cases h with
  | dict d h =>
    dsimp only
    unfold ecKeyNew
    refine raises_ite (fun _ => raises_err (by decide)) fun _ => ?_
    dsimp only
    refine raises_ite (fun _ => ?_) fun _ => raises_ite (fun _ => raises_ite (fun _ => ?_) fun _ => raises_ok _) fun _ => raises_ok _
    · obtain ⟨⟨vs, ok⟩, hv, hl⟩ := verifyLongs_plain [kwGet d "x" (.str ""), kwGet d "y" (.str ""), kwGet d "d" (.str "")]
        (by simp only [List.mem_cons, List.not_mem_nil, or_false]; rintro v (rfl | rfl | rfl) b <;> exact kwGet_noBytes h _ b)
      rw [hv]
      have hend : Raises [.typeError, .headerError, .deSerializationNotPossible, .eccException, .attributeError]
          (match vs with
            | [x, y, d'] => ecDeserialize (keyCommon "EC" ecArgs d (.val (kwGet d "key" .none))
                (.ec (kwGet d "crv" (.str "")) (kwGet d "x" (.str "")) (kwGet d "y" (.str "")) (kwGet d "d" (.str "")) (.val (kwGet d "curve" .none))))
                (kwGet d "crv" (.str "")) x y d'
            | _ => .error .assertionError) := by
        match vs, hl with
        | [x, y, d'], _ =>
          dsimp only
          unfold ecDeserialize
          refine raises_bind (raises_mono (raises_coord _) (by decide)) fun _ _ => raises_bind (raises_mono (raises_coord _) (by decide)) fun _ _ =>
            raises_bind (raises_mono (raises_curve_val _) (by decide)) fun _ _ => raises_bind (raises_ite (fun _ => ?_) fun _ => raises_ok _) fun _ _ => raises_ok _
          exact raises_mono (raises_ecD _) (by decide)
      refine raises_bind (raises_ok _) fun r hr => ?_
      cases hr
      dsimp only
      cases ok with
      | false => exact hend
      | true =>
        refine raises_bind (x := verifyKid _) ?_ fun _ _ => hend
        unfold verifyKid
        refine raises_ite (fun _ => ?_) fun _ => raises_ok _
        split
        · exact raises_ok _
        · exact raises_err (by decide)
    · exact raises_err (by decide)
  | _ => exact raises_err (by decide)

theorem raises_getKeylen (d : PyDict) : Raises [.typeError, .generic] (headerKeylen (.dict d)) := by
  unfold headerKeylen
  cases h : PyVal.getItem (.dict d) "enc" with
  | ok v =>
    dsimp only
    unfold keylen
    split
    · split
      · exact raises_ok _
      · exact raises_err (by decide)
    · exact raises_err (by decide)
    · exact raises_err (by decide)
    · exact raises_err (by decide)
  | error e =>
    have := raises_item _ h
    simp only [List.mem_singleton] at this
    subst this
    exact raises_err (by decide)

theorem raises_party (d : PyDict) (n : String) : Raises [.badSyntax, .binasciiError, .attributeError] (headerParty (.dict d) n) := by
  unfold headerParty
  refine raises_bind (raises_ok _) fun b hb => raises_ite (fun h => ?_) fun _ => raises_ok _
  cases hb
  have hh : PyDict.has d n = true := h
  unfold PyDict.has at hh
  unfold PyVal.getItem
  dsimp only
  obtain ⟨v, hv⟩ := Option.isSome_iff_exists.mp hh
  rw [hv]
  refine raises_bind (raises_ok _) fun w hw => ?_
  split
  · exact raises_map (raises_mono (raises_b64d _) (by decide))
  · exact raises_err (by decide)

theorem raises_derive {E : Env} (hE : Standard E) {c : KObj} {d x y : PyVal} {apu apv : Option Bytes} {alg : Bytes} {n : Nat} (hn : n ≤ 512) :
    Raises [.typeError, .attributeError, .structError] (ecdhDerive E c d x y apu apv alg n) := by
  unfold ecdhDerive
  split
  · rename_i C
    refine raises_bind ?_ fun d _ => raises_bind ?_ fun pub _ => raises_bind ?_ fun z _ => ?_
    · unfold dhScalar
      split
      · exact raises_ite (fun _ => raises_err (by decide)) fun _ => raises_ok _
      · exact raises_err (by decide)
    · unfold esPub
      dsimp only
      split
      · exact raises_ok _
      · exact raises_err (by decide)
    · unfold NistCurve.dhZ
      split
      · exact raises_ok _
      · exact raises_err (by decide)
    · split
      · rename_i u v
        by_cases hu : u.length < 2 ^ 32
        · by_cases hv : v.length < 2 ^ 32
          · obtain ⟨out, ho, -⟩ := derive_total hE.shaLaw z alg hu hv hn
            rw [ho]; exact raises_ok _
          · unfold ecdhDeriveFromZ ecdhOtherInfo packI
            rw [if_pos hu, if_neg hv]; exact raises_err (by decide)
        · unfold ecdhDeriveFromZ ecdhOtherInfo packI
          rw [if_neg hu]; exact raises_err (by decide)
      · exact raises_err (by decide)
  · exact raises_err (by decide)

theorem keylen_small {enc : PyVal} {r : Nat × Bytes} (h : keylen enc = .ok r) : r.1 ≤ 512 := by
  unfold keylen at h
  split at h
  · split at h
    · rename_i s n hn
      cases h
      have : n ∈ keylenTable.map Prod.snd := by
        revert hn
        unfold keylenTable
        simp only [List.lookup_cons, List.lookup_nil]
        repeat' split
        all_goals (intro hn; cases hn)
        all_goals decide
      have h512 : ∀ m ∈ keylenTable.map Prod.snd, m ≤ 512 := by decide
      exact h512 _ this
    · cases h
  · cases h
  · cases h
  · cases h

theorem raises_ecSetup {E : Env} (hE : Standard E) {j : Jwt} {hdr : PyDict} (hj : Sane j hdr) (k : Key) {alg : PyVal}
    (ha : PyDict.get? hdr "alg" = some alg) : Raises ecExc (ecDecSetup E j k) := by
  unfold ecDecSetup
  rw [hj.headers]
  refine raises_bind (raises_mono (raises_partAt _ _) (by decide)) fun iv _ => raises_bind (raises_mono (raises_partAt _ _) (by decide)) fun ct _ =>
    raises_bind (raises_mono (raises_partAt _ _) (by decide)) fun tag _ => raises_bind ?_ fun ev hev => raises_bind ?_ fun epub _ =>
    raises_bind (raises_mono (raises_party _ _) (by decide)) fun apu _ => raises_bind (raises_mono (raises_party _ _) (by decide)) fun apv _ => ?_
  · unfold headerEpk
    refine raises_bind (raises_ok _) fun b hb => raises_ite (fun h => ?_) fun _ => raises_err (by decide)
    cases hb
    have hh : PyDict.has hdr "epk" = true := h
    unfold PyDict.has at hh
    obtain ⟨v, hv⟩ := Option.isSome_iff_exists.mp hh
    refine raises_bind (x := PyVal.getItem (.dict hdr) "epk") (by unfold PyVal.getItem; dsimp only; rw [hv]; exact raises_ok _) fun w _ => ?_
    refine raises_bind ?_ fun c _ => raises_ite (fun _ => raises_ok _) fun _ => raises_err (by decide)
    unfold PyVal.contains
    split <;> first | exact raises_ok _ | exact raises_err (by decide)
  · have hn : NoBytes ev := by
      unfold headerEpk at hev
      simp only [Bind.bind] at hev
      obtain ⟨b, hb, hev⟩ := bind_ok_iff.mp hev
      split at hev
      · obtain ⟨w, hw, hev⟩ := bind_ok_iff.mp hev
        obtain ⟨c, hc, hev⟩ := bind_ok_iff.mp hev
        split at hev
        · cases hev
          unfold PyVal.getItem at hw
          dsimp only at hw
          split at hw
          · rename_i v hv
            cases hw
            exact hj.plain _ (get?_mem hv)
          · cases hw
        · cases hev
      · cases hev
    exact raises_mono (raises_epk hn) (by decide)
  · refine raises_bind (x := PyVal.getItem (.dict hdr) "alg") (by unfold PyVal.getItem; dsimp only; rw [ha]; exact raises_ok _) fun al _ => ?_
    have hat : ∀ k, Raises ecExc (ecAttrs k) := by
      intro k
      unfold ecAttrs
      split
      · exact raises_ok _
      · exact raises_err (by decide)
    refine raises_bind (hat _) fun a _ => ?_
    obtain ⟨_, ex, ey, _, ec⟩ := a
    dsimp only
    refine raises_ite (fun _ => ?_) fun _ => ?_
    · refine raises_bind (raises_mono (raises_getKeylen _) (by decide)) fun nb hnb => ?_
      obtain ⟨n, encB⟩ := nb
      have hn : n ≤ 512 := by
        unfold headerKeylen at hnb
        split at hnb
        · exact keylen_small hnb
        · split at hnb <;> cases hnb
      refine raises_bind (hat _) fun a _ => ?_
      obtain ⟨_, _, _, d, _⟩ := a
      exact raises_bind (raises_mono (raises_derive hE hn) (by decide)) fun _ _ => raises_ok _
    · split
      · rename_i post n hp
        have hn : n ≤ 512 := by
          unfold ecKwAlg at hp
          repeat' split at hp
          all_goals cases hp
          all_goals decide
        refine raises_bind (hat _) fun a _ => ?_
        obtain ⟨_, _, _, d, _⟩ := a
        exact raises_bind (raises_mono (raises_derive hE hn) (by decide)) fun _ _ => raises_bind (raises_mono (raises_partAt _ _) (by decide)) fun _ _ =>
          raises_bind (raises_mono (raises_unwrap _ _ _) (by decide)) fun _ _ => raises_ok _
      · exact raises_err (by decide)

theorem ecSetup_ct {E : Env} {j : Jwt} {k : Key} {s : Bytes × Bytes × Bytes × Bytes} (h : ecDecSetup E j k = .ok s) : s.2.2.1 ∈ j.part := by
  unfold ecDecSetup at h
  simp only [Bind.bind] at h
  obtain ⟨iv, -, h⟩ := bind_ok_iff.mp h
  obtain ⟨ct, hct, h⟩ := bind_ok_iff.mp h
  obtain ⟨tag, -, h⟩ := bind_ok_iff.mp h
  obtain ⟨ev, -, h⟩ := bind_ok_iff.mp h
  obtain ⟨epub, -, h⟩ := bind_ok_iff.mp h
  obtain ⟨apu, -, h⟩ := bind_ok_iff.mp h
  obtain ⟨apv, -, h⟩ := bind_ok_iff.mp h
  obtain ⟨alg, -, h⟩ := bind_ok_iff.mp h
  obtain ⟨⟨_, ex, ey, _, ec⟩, -, h⟩ := bind_ok_iff.mp h
  dsimp only at h
  split at h
  · obtain ⟨⟨n, eb⟩, -, h⟩ := bind_ok_iff.mp h
    obtain ⟨⟨_, _, _, d, _⟩, -, h⟩ := bind_ok_iff.mp h
    obtain ⟨c, -, h⟩ := bind_ok_iff.mp h
    cases h; exact partAt_mem hct
  · split at h
    · obtain ⟨⟨_, _, _, d, _⟩, -, h⟩ := bind_ok_iff.mp h
      obtain ⟨c, -, h⟩ := bind_ok_iff.mp h
      obtain ⟨c', -, h⟩ := bind_ok_iff.mp h
      obtain ⟨c'', -, h⟩ := bind_ok_iff.mp h
      cases h; exact partAt_mem hct
    · cases h

theorem raises_ecDecrypt {E : Env} (hE : Standard E) {j : Jwt} {hdr : PyDict} (hj : Sane j hdr) {s : Bytes × Bytes × Bytes × Bytes}
    (hs : s.2.2.1.length ≤ 2 ^ 36) : Raises (.keyError :: ecExc) (ecDecrypt E j s) := by
  obtain ⟨cek, iv, ct, tag⟩ := s
  unfold ecDecrypt
  rw [hj.headers]
  exact raises_ite (fun _ => raises_err (by decide)) fun _ => raises_bind (raises_mono raises_item (by decide)) fun _ _ =>
    raises_bind (raises_mono (raises_b64h _) (by decide)) fun _ _ => raises_mono (raises_content hE hs) (by decide)

/-! ### The loop -/

/-- `KeyError` and `DecryptionFailed` of the attempts become `DecryptionFailed`. -/
theorem raises_decLoop {E : Env} {kind : JweKind} {rnd : JweRnd} {j : Jwt} {setup : Bytes × Bytes × Bytes × Bytes} {alg : PyVal} {S : List Exc}
    (hS : .decryptionFailed ∈ S) : ∀ (ks : List Key) (i : Nat),
      (∀ k ∈ ks, Raises S (k.encryptionKey E alg false) ∧ ∀ a, k.encryptionKey E alg false = .ok a → ∀ s,
        Raises (.keyError :: S) (decryptBy E kind s j setup (some a) [])) → Raises S (decryptLoop E kind rnd j setup alg i ks)
  | [], _, _ => raises_err hS
  | k :: ks, i, h => by
    obtain ⟨h1, h2⟩ := h k (by simp)
    unfold decryptLoop
    split
    · rename_i e he
      exact raises_err (h1 e he)
    · rename_i a ha
      split
      · exact raises_ok _
      · rename_i e he
        refine raises_ite (fun _ => raises_decLoop hS ks (i + 1) fun x hx => h x (by simp [hx])) fun hp => raises_err ?_
        rcases List.mem_cons.mp (h2 a ha _ e he) with rfl | h
        · exact absurd rfl hp
        · exact h

/-- What the loop needs of a key for RSA. -/
theorem loop_rsa {E : Env} (hE : Standard E) (hz : ∀ b e, E.Z.decompress b = .error e → e = .zlibError)
    {j : Jwt} {hdr : PyDict} (hj : Sane j hdr) {rnd : JweRnd} {setup : Bytes × Bytes × Bytes × Bytes} {alg : PyVal} {ks : List Key}
    (ho : ∀ k ∈ ks, Ordinary k ∧ ktyMatches "RSA" k.kty = true) : Raises rsaExc (decryptLoop E .rsa rnd j setup alg 0 ks) := by
  refine raises_decLoop (by decide) ks 0 fun k hk => ?_
  obtain ⟨h, ht⟩ := ho k hk
  cases h with
  | @rsa m r hm hty hkk =>
    have he : k.encryptionKey E alg false = .ok (.obj (.rsa r)) := by
      unfold Key.encryptionKey
      rw [hm, hkk]
      rfl
    rw [he]
    refine ⟨raises_ok _, fun a ha s => ?_⟩
    cases ha
    exact raises_map (raises_rsaDecrypt hE hz hj)
  | ec _ hty => rw [hty] at ht; exact absurd ht (by decide +kernel)
  | sym _ hty => rw [hty] at ht; exact absurd ht (by decide +kernel)

theorem alg2keylen_le {alg : PyVal} {n : Nat} (h : alg2keylen alg = some n) : 16 ≤ n ∧ n ≤ 64 := by
  unfold alg2keylen at h
  repeat' split at h
  all_goals cases h
  all_goals decide

theorem loop_sym {E : Env} (hE : Standard E) {j : Jwt} {hdr : PyDict} (hj : Sane j hdr) {rnd : JweRnd}
    {setup : Bytes × Bytes × Bytes × Bytes} {alg : PyVal} {ks : List Key} {S : List Exc} (hS : ∀ e ∈ symExc, e ∈ S)
    (hn : alg2keylen alg = none → .keyError ∈ S)
    (ho : ∀ k ∈ ks, Ordinary k ∧ ktyMatches "oct" k.kty = true ∧ k.key ≠ .val (.bytes [])) :
    Raises S (decryptLoop E .sym rnd j setup alg 0 ks) := by
  refine raises_decLoop (hS _ (by decide)) ks 0 fun k hk => ?_
  obtain ⟨h, ht, hne⟩ := ho k hk
  cases h with
  | @sym kk secret hm hty hkk =>
    have hne : secret ≠ [] := by rintro rfl; exact hne hkk
    cases hl : alg2keylen alg with
    | none =>
      have he : k.encryptionKey E alg false = .error .keyError := by
        unfold Key.encryptionKey
        rw [hm, hkk]
        simp [symEncryptionKey, KObj.truthy, PyVal.truthy, hne, hl, Bind.bind, Except.bind, Except.map]
      rw [he]
      exact ⟨raises_err (hn hl), fun a ha => by cases ha⟩
    | some n =>
      obtain ⟨h16, h64⟩ := alg2keylen_le hl
      have he : ∃ kek, kek ≠ [] ∧ k.encryptionKey E alg false = .ok (.obj (.val (.bytes kek))) := by
        unfold Key.encryptionKey
        rw [hm, hkk]
        have htr : (KObj.val (.bytes secret)).truthy = true := by simp [KObj.truthy, PyVal.truthy, hne]
        unfold symEncryptionKey
        dsimp only
        rw [if_pos htr, hl]
        simp only [Bind.bind, Except.bind, keyBytes]
        have hh := hE.shaLaw.hash_length
        have hpos : ∀ a, ((E.H.hash a secret).take n) ≠ [] := by
          intro a h0
          have := congrArg List.length h0
          rw [List.length_take, hh] at this
          have hsz : 0 < a.size := by cases a <;> decide
          simp at this
          omega
        by_cases c1 : n ≤ 32
        · rw [if_pos c1]; exact ⟨_, hpos _, rfl⟩
        · rw [if_neg c1]
          by_cases c2 : n ≤ 48
          · rw [if_pos c2]; exact ⟨_, hpos _, rfl⟩
          · rw [if_neg c2, if_pos h64]; exact ⟨_, hpos _, rfl⟩
      obtain ⟨kek, hkn, he⟩ := he
      rw [he]
      refine ⟨raises_ok _, fun a ha s => ?_⟩
      cases ha
      exact raises_map (raises_mono (raises_symDecrypt hE hj hkn) fun e he => by
        rcases List.mem_cons.mp he with rfl | he
        · simp
        · exact List.mem_cons_of_mem _ (hS e he))
  | ec _ hty => rw [hty] at ht; exact absurd ht (by decide +kernel)
  | rsa _ hty => rw [hty] at ht; exact absurd ht (by decide +kernel)

theorem loop_ec {E : Env} (hE : Standard E) {j : Jwt} {hdr : PyDict} (hj : Sane j hdr) {rnd : JweRnd} {alg : PyVal}
    (hal : PyDict.get? hdr "alg" = some alg) {ks : List Key} (k : Key)
    (ho : ∀ k ∈ ks, Ordinary k ∧ ktyMatches "EC" k.kty = true) :
    Raises ecExc ((ecDecSetup E j k).bind fun s => decryptTry E .ec rnd j s alg ks s.1) := by
  refine raises_bind (raises_ecSetup hE hj k hal) fun s hs => ?_
  have hd := raises_ecDecrypt hE hj (hj.size _ (ecSetup_ct hs))
  have hloop : Raises ecExc (decryptLoop E .ec rnd j s alg 0 ks) := by
    refine raises_decLoop (by decide) ks 0 fun k hk => ?_
    obtain ⟨h, ht⟩ := ho k hk
    cases h with
    | @ec crv x y d c a b hm hty hx hy hi hj' =>
      have he : k.encryptionKey E alg false = .ok (.point x y) := by
        unfold Key.encryptionKey
        rw [hm]
        dsimp only
        rw [getKey_ec hm, hx, hy]
        simp [PyVal.truthy, hi, hj']
      rw [he]
      refine ⟨raises_ok _, fun a ha s' => ?_⟩
      exact raises_map hd
    | rsa _ hty => rw [hty] at ht; exact absurd ht (by decide +kernel)
    | sym _ hty => rw [hty] at ht; exact absurd ht (by decide +kernel)
  unfold decryptTry
  refine raises_ite (fun _ => hloop) fun _ => ?_
  split
  · exact raises_ok _
  · rename_i e he
    refine raises_ite (fun _ => hloop) fun hp => raises_err ?_
    rcases List.mem_cons.mp (raises_map hd e he) with rfl | h
    · exact absurd rfl hp
    · exact h

/-! ### The whole call -/

theorem unpack_sane {t : Bytes} {j : Jwt} {hdr : PyDict} (h : Jwt.unpack t = .ok j) (hl : t.length ≤ 2 ^ 35)
    (hj : j.headers = .dict hdr) : Sane j hdr := by
  have hsz := unpack_length h
  obtain ⟨-, ⟨hne, -, -⟩, hf, p0, rest, s, -, -, hjs⟩ := (C09_unpack_iff _ _).mp h
  rw [hj] at hjs
  refine ⟨hj, ?_, fun p hp => (hsz p hp).trans (by omega), ?_, hf.length_eq⟩
  · have := jsonLoads_noBytes hjs
    cases this with
    | dict _ h => exact h
  · cases hb : j.b64part with
    | nil => exact absurd hb hne
    | cons a l => exact ⟨a, rfl⟩

theorem starts_A {s : String} (h : startsWith s "A" = true) : startsWith s "RSA" = false := by
  unfold startsWith at h ⊢
  cases hs : s.toList with
  | nil => rfl
  | cons c l =>
    rw [hs] at h
    simp only [String.reduceToList, List.isPrefixOf_cons_cons, List.isPrefixOf_nil_left, Bool.and_true, beq_iff_eq] at h
    subst h
    rfl

theorem starts_E {s : String} (h : startsWith s "ECDH-ES" = true) :
    startsWith s "RSA" = false ∧ startsWith s "A" = false ∧ startsWith s "ECDH" = true := by
  unfold startsWith at h ⊢
  rw [List.isPrefixOf_iff_prefix] at h
  obtain ⟨r, hr⟩ := h
  rw [← hr]
  exact ⟨rfl, rfl, rfl⟩

/-- The type of the keys for each class. -/
def kindType : JweKind → String
  | .rsa => "RSA"
  | .sym => "oct"
  | .ec => "EC"

theorem kind_type {v : PyVal} {kind : JweKind} (h : jweKind v = .ok kind) :
    ∃ name, v = .str name ∧ name ≠ "" ∧ name ≠ "none" ∧ jweAlg2keytype v = .ok (some (kindType kind)) := by
  unfold jweKind at h
  split at h
  · rename_i s
    refine ⟨s, rfl, ?_⟩
    have hh : s ≠ "" ∧ s ≠ "none" := by constructor <;> (rintro rfl; cases kind <;> exact absurd h (by decide))
    refine ⟨hh.1, hh.2, ?_⟩
    split at h
    · rename_i hs
      cases h
      rcases hs with rfl | rfl | rfl <;> decide
    · split at h
      · rename_i hs
        cases h
        simp only [Bool.and_eq_true] at hs
        unfold jweAlg2keytype
        simp only [starts_A hs.1, hs.1, Bool.false_eq_true, if_false, if_true]
        rfl
      · split at h
        · rename_i hs
          cases h
          obtain ⟨h1, h2, h3⟩ := starts_E hs
          unfold jweAlg2keytype
          simp only [h1, h2, h3, Bool.false_eq_true, if_false, if_true]
          rfl
        · cases h
  · cases h
  · cases h

theorem raises_wantedKid (o : Jwx) : Raises [.typeError] o.wantedKid := by
  unfold Jwx.wantedKid PyVal.getItem
  split
  · exact raises_ok _
  split
  · exact raises_ok _
  · rename_i j _
    cases j.headers with
    | dict d =>
      dsimp only
      cases PyDict.get? d "kid" <;> exact raises_ok _
    | _ => exact raises_err (by decide)

theorem raises_jwePick (o : Jwx) {keys : List Key} {alg : PyVal} :
    Raises [.typeError, .attributeError, .keyError] (o.pickKeys jweAlg2keytype (keys.map JKey.key) "enc" alg) := by
  unfold Jwx.pickKeys
  refine raises_bind (raises_ite (fun _ => raises_ok _) fun _ => raises_mono raises_item (by decide)) fun a _ =>
    raises_ite (fun _ => raises_ok _) fun _ => raises_bind (x := jweAlg2keytype a) ?_ fun kt _ => ?_
  · unfold jweAlg2keytype
    split
    · exact raises_ite (fun _ => raises_ok _) fun _ => raises_ite (fun _ => raises_ok _) fun _ => raises_ite (fun _ => raises_ok _) fun _ => raises_ok _
    · exact raises_err (by decide)
    · exact raises_err (by decide)
  · cases kt with
    | none => exact raises_ok _
    | some kt =>
      simp only [keysOfType_keys]
      exact raises_bind (raises_ok _) fun _ _ => raises_bind (raises_mono (raises_wantedKid _) (by decide)) fun _ _ => raises_ok _

/-- A key with which nothing can go wrong in advance: of a consistent type and, if symmetric, not empty. -/
def Spec.Usable (k : Key) : Prop := Ordinary k ∧ k.key ≠ .val (.bytes [])

/-- The exceptions of a token for one class of algorithms, apart from those of choosing the keys. -/
def kindExc : JweKind → List Exc
  | .rsa => rsaExc
  | .sym => symExc
  | .ec => ecExc

/-- With the keys chosen. -/
theorem raises_dispatch {E : Env} (hE : Standard E) (hz : ∀ b e, E.Z.decompress b = .error e → e = .zlibError)
    {o : Jwe} {rnd : JweRnd} {j : Jwt} {hdr : PyDict} (hj : Sane j hdr) {keys : List Key} (hne : keys ≠ []) (hk : ∀ k ∈ keys, Usable k)
    {alg halg : PyVal} (hha : PyDict.get? hdr "alg" = some halg) {kind : JweKind} (hkind : jweKind halg = .ok kind) {S : List Exc}
    (hS : ∀ e ∈ kindExc kind, e ∈ S) (hw : .wrongEncryptionAlgorithm ∈ S) (hns : .noSuitableDecryptionKey ∈ S)
    (hwk : ∀ e, o.wantedKid = .error e → e ∈ S) (hlen : kind = .sym → alg2keylen halg = none → .keyError ∈ S) :
    Raises S (o.decryptJwt E rnd j keys alg []) := by
  obtain ⟨name, rfl, h0, hnone, hkt⟩ := kind_type hkind
  unfold Jwe.decryptJwt
  have hg : PyVal.getItem j.headers "alg" = .ok (.str name) := by rw [hj.headers]; simp [PyVal.getItem, hha]
  rw [hg]
  refine raises_bind (raises_ok _) fun a ha => ?_
  cases ha
  refine raises_ite (fun _ => raises_err hw) fun _ => ?_
  unfold Jwx.keySource
  rw [if_neg (by simpa using hne)]
  refine raises_bind (raises_ok _) fun src hsrc => ?_
  cases hsrc
  cases hkid : o.wantedKid with
  | error e =>
    have : o.pickKeys jweAlg2keytype (keys.map JKey.key) "enc" (.str name) = .error e := by
      have htr : (PyVal.str name).truthy = true := by simp [PyVal.truthy, h0]
      unfold Jwx.pickKeys
      simp only [htr, if_true, Bind.bind, Except.bind, PyVal.str.injEq, hnone, if_false, hkt, keysOfType_keys, hkid]
    rw [this]
    exact raises_err (hwk e hkid)
  | ok kid =>
    rw [pickKeys_str o.toJwx name _ keys "enc" h0 hnone hkt (.str name) (.inl rfl) kid hkid]
    refine raises_bind (raises_ok _) fun ks hks => raises_ite (fun _ => raises_err hns) fun hnil => ?_
    have hty : ∀ k ∈ ks, Usable k ∧ ktyMatches (kindType kind) k.kty = true := by
      cases hks
      intro k hm
      simp only [List.mem_filter] at hm
      exact ⟨hk k hm.1.1, hm.1.2⟩
    rw [hkind]
    refine raises_bind (raises_ok _) fun kd hkd => ?_
    cases hkd
    cases kind with
    | rsa => exact raises_mono (loop_rsa hE hz hj fun k hm => ⟨(hty k hm).1.1, (hty k hm).2⟩) hS
    | sym => exact loop_sym hE hj hS (hlen rfl) fun k hm => ⟨(hty k hm).1.1, (hty k hm).2, (hty k hm).1.2⟩
    | ec =>
      dsimp only
      split
      · exact absurd ⟨rfl, rfl⟩ hnil
      · rename_i k l
        exact raises_mono (loop_ec hE hj hha k fun k hm => ⟨(hty k hm).1.1, (hty k hm).2⟩) hS

theorem decrypt_raises {E : Env} {o : Jwe} {rnd : JweRnd} {token : Bytes} (hne : token ≠ []) {keys : List Key} {alg : PyVal} {S : List Exc}
    (h : Raises S ((Jwt.unpack token).bind fun j => o.decryptJwt E rnd j keys alg [])) : Raises S (o.decrypt E rnd token keys alg).1 := by
  unfold Jwe.decrypt Jwe.tokenOf
  rw [if_pos hne]
  split
  · exact raises_ok _
  · rename_i e he
    exact raises_err (h e he)

/-- **C125.** With keys of consistent types, whatever the token is (of less than 32 GiB), `decrypt` raises only the listed
exceptions. -/
theorem C125_decrypt {E : Env} (hE : Standard E) (hz : ∀ b e, E.Z.decompress b = .error e → e = .zlibError) (o : Jwe) (rnd : JweRnd)
    {token : Bytes} (hne : token ≠ []) (hlen : token.length ≤ 2 ^ 35) {keys : List Key} (hke : keys ≠ []) (hk : ∀ k ∈ keys, Usable k)
    (alg : PyVal) (e : Exc) (h : (o.decrypt E rnd token keys alg).1 = .error e) : e ∈ DecryptPackage ∨ e ∈ DecryptForeign := by
  suffices hr : Raises (DecryptPackage ++ DecryptForeign) (o.decrypt E rnd token keys alg).1 from List.mem_append.mp (hr e h)
  refine decrypt_raises hne (raises_bind (raises_mono (raises_unpack _) (by decide)) fun j hu => ?_)
  by_cases hd : ∃ hdr, j.headers = .dict hdr
  · obtain ⟨hdr, hd⟩ := hd
    have hj := unpack_sane hu hlen hd
    cases ha : PyDict.get? hdr "alg" with
    | none =>
      unfold Jwe.decryptJwt
      rw [hd]
      exact raises_bind (raises_mono raises_item (by decide)) fun a haa => by simp [PyVal.getItem, ha] at haa
    | some halg =>
      cases hkind : jweKind halg with
      | ok kind =>
        refine raises_dispatch hE hz hj hke hk ha hkind ?_ (by decide) (by decide) (fun e he => ?_) fun _ _ => by decide
        · cases kind <;> decide
        · exact raises_mono (raises_wantedKid _) (by decide) e he
      | error e' =>
        unfold Jwe.decryptJwt
        rw [hd]
        refine raises_bind (raises_mono raises_item (by decide)) fun a haa => ?_
        have : a = halg := by simp only [PyVal.getItem, ha, Except.ok.injEq] at haa; exact haa.symm
        subst this
        refine raises_ite (fun _ => raises_err (by decide)) fun _ => ?_
        unfold Jwx.keySource
        rw [if_neg (by simpa using hke)]
        refine raises_bind (raises_ok _) fun src hsrc => ?_
        cases hsrc
        refine raises_bind (raises_mono (raises_jwePick _) (by decide)) fun ks _ => raises_ite (fun _ => raises_err (by decide)) fun _ => ?_
        rw [hkind]
        refine raises_err ?_
        have hkr : Raises [.notSupportedAlgorithm, .typeError, .attributeError] (jweKind a) := by
          unfold jweKind
          split
          · exact raises_ite (fun _ => raises_ok _) fun _ => raises_ite (fun _ => raises_ok _) fun _ => raises_ite (fun _ => raises_ok _) fun _ => raises_err (by decide)
          · exact raises_err (by decide)
          · exact raises_err (by decide)
        exact raises_mono hkr (by decide) _ hkind
  · unfold Jwe.decryptJwt
    have : j.headers.getItem "alg" = .error .typeError := by
      cases hh : j.headers with
      | dict d => exact absurd ⟨d, hh⟩ hd
      | _ => rfl
    rw [this]
    exact raises_err (by decide)

/-- The families of algorithms. -/
inductive Spec.AlgFamily : String → List Exc → Prop
  | rsa {name} (h : name ∈ ["RSA1_5", "RSA-OAEP", "RSA-OAEP-256"]) : AlgFamily name rsaExc
  | wrap {name} (h : name ∈ ["A128KW", "A192KW", "A256KW"]) : AlgFamily name symExc
  | ecdh {name} (h : name ∈ ["ECDH-ES", "ECDH-ES+A128KW", "ECDH-ES+A192KW", "ECDH-ES+A256KW"]) : AlgFamily name ecExc

/-- **C125.** A token that unpacks, with an algorithm of one of the three families: apart from the two refusals
before anything is decrypted, only the exceptions of the family are raised. -/
theorem C125_family {E : Env} (hE : Standard E) (hz : ∀ b e, E.Z.decompress b = .error e → e = .zlibError) (o : Jwe) (ho : o.jwt = none)
    (rnd : JweRnd) {token : Bytes} (hne : token ≠ []) (hlen : token.length ≤ 2 ^ 35) {j : Jwt} (hu : Jwt.unpack token = .ok j)
    {hdr : PyDict} (hj : j.headers = .dict hdr) {name : String} (ha : PyDict.get? hdr "alg" = some (.str name)) {fam : List Exc}
    (hf : AlgFamily name fam) {keys : List Key} (hke : keys ≠ []) (hk : ∀ k ∈ keys, Usable k) (alg : PyVal) (e : Exc)
    (h : (o.decrypt E rnd token keys alg).1 = .error e) :
    e = .wrongEncryptionAlgorithm ∨ e = .noSuitableDecryptionKey ∨ e ∈ fam := by
  suffices hr : Raises (.wrongEncryptionAlgorithm :: .noSuitableDecryptionKey :: fam) (o.decrypt E rnd token keys alg).1 by
    simpa using hr e h
  have hkd : ∃ kind, jweKind (.str name) = .ok kind ∧ fam = kindExc kind ∧ (kind = .sym → alg2keylen (.str name) ≠ none) := by
    cases hf with
    | rsa h =>
      refine ⟨.rsa, ?_, rfl, by simp⟩
      simp only [List.mem_cons, List.not_mem_nil, or_false] at h
      rcases h with rfl | rfl | rfl <;> decide
    | wrap h =>
      simp only [List.mem_cons, List.not_mem_nil, or_false] at h
      rcases h with rfl | rfl | rfl <;> exact ⟨.sym, by decide, rfl, fun _ => by decide⟩
    | ecdh h =>
      refine ⟨.ec, ?_, rfl, by simp⟩
      simp only [List.mem_cons, List.not_mem_nil, or_false] at h
      rcases h with rfl | rfl | rfl | rfl <;> decide
  obtain ⟨kind, hkind, rfl, hl⟩ := hkd
  refine decrypt_raises hne ?_
  rw [hu]
  refine raises_dispatch hE hz (unpack_sane hu hlen hj) hke hk ha hkind (fun e he => by simp [he]) (by simp) (by simp) (fun e he => ?_)
    fun hs hno => absurd hno (hl hs)
  exfalso
  unfold Jwx.wantedKid at he
  rw [ho] at he
  split at he <;> cases he

/-! ### Every one of them is raised -/

/-- **C125.** Independently of the keys: text without a dot, a segment that is no base64, bytes that are no text, text that is no
JSON, JSON that is no object, no algorithm, another algorithm than asked for, an algorithm that is no text, and one
for which there are no keys. -/
theorem C125_raised (E : Env) (o : Jwe) (rnd : JweRnd) {keys : List Key} (hke : keys ≠ []) :
    (o.decrypt E rnd (ascii "e30") keys).1 = .error .badSyntax ∧
    (o.decrypt E rnd (ascii "A\n..") keys).1 = .error .binasciiError ∧
    (o.decrypt E rnd (ascii "_w..") keys).1 = .error .unicodeDecodeError ∧
    (o.decrypt E rnd (ascii "ew..") keys).1 = .error .jsonDecodeError ∧
    (o.decrypt E rnd (bareToken "[]") keys).1 = .error .typeError ∧
    (o.decrypt E rnd (bareToken "{}") keys).1 = .error .keyError ∧
    (o.decrypt E rnd (bareToken "{\"alg\":1}") keys (.str "A128KW")).1 = .error .wrongEncryptionAlgorithm ∧
    (o.decrypt E rnd (bareToken "{\"alg\":1}") keys).1 = .error .attributeError ∧
    (o.decrypt E rnd (bareToken "{\"alg\":\"none\"}") keys).1 = .error .noSuitableDecryptionKey := by
  have key : ∀ t e, t ≠ [] → Jwt.unpack t = .error e → (o.decrypt E rnd t keys).1 = .error e := by
    intro t e h0 h
    simp [Jwe.decrypt, Jwe.tokenOf, h0, h, Bind.bind, Except.bind]
  have step : ∀ s hdr alg e, jsonLoads s = .ok hdr → (∀ l m, o.decryptJwt E rnd ⟨hdr, l, m⟩ keys alg [] = .error e) →
      (o.decrypt E rnd (bareToken s) keys alg).1 = .error e := by
    intro s hdr alg e h h'
    obtain ⟨_, _, hu⟩ := unpack_of_token (bare_token h)
    have h0 : bareToken s ≠ [] := by
      unfold bareToken
      intro h0
      exact absurd (List.append_eq_nil_iff.mp h0).2 (by decide)
    simp [Jwe.decrypt, Jwe.tokenOf, h0, hu, h', Bind.bind, Except.bind]
  have hke' : keys.isEmpty = false := by simpa using hke
  refine ⟨key _ _ (by decide) (by decide +kernel), key _ _ (by decide) (by decide +kernel), key _ _ (by decide) (by decide +kernel),
    key _ _ (by decide) (by decide +kernel), step _ (.list []) _ _ (by decide +kernel) fun _ _ => rfl, step _ (.dict []) _ _ (by decide +kernel) fun _ _ => rfl,
    step _ (.dict [("alg", .int 1)]) _ _ (by decide +kernel) fun _ _ => by rfl,
    step _ (.dict [("alg", .int 1)]) _ _ (by decide +kernel) fun _ _ => ?_, step _ (.dict [("alg", .str "none")]) _ _ (by decide +kernel) fun _ _ => ?_⟩
  · unfold Jwe.decryptJwt Jwx.keySource
    rw [hke']; rfl
  · unfold Jwe.decryptJwt Jwx.keySource
    rw [hke']; rfl

/-- A token of five parts with the header `h`. -/
def fiveToken (h : String) (ek iv ct tag : Bytes) : Bytes :=
  b64e (utf8Encode h) ++ 46 :: b64e ek ++ 46 :: b64e iv ++ 46 :: b64e ct ++ 46 :: b64e tag

theorem five_parts {h : String} {hdr : PyVal} (hh : jsonLoads h = .ok hdr) (ek iv ct tag : Bytes) :
    JweParts (fiveToken h ek iv ct tag) (b64e (utf8Encode h)) hdr ek iv ct tag := ⟨rfl, h, rfl, hh⟩

/-- The call with one key that has no `use` and no `alg`. -/
theorem single_key {E : Env} {rnd : JweRnd} {token : Bytes} {j : Jwt} {hdr : PyDict} {name : String} {kind : JweKind} {k : Key}
    (h0 : token ≠ []) (hu : Jwt.unpack token = .ok j) (hh : j.headers = .dict hdr) (ha : PyDict.get? hdr "alg" = some (.str name))
    (hkind : jweKind (.str name) = .ok kind) (hty : ktyMatches (kindType kind) k.kty = true) (huse : k.use.truthy = false)
    (halg : k.alg.truthy = false) : (Jwe.decrypt E {} rnd token [k]).1 = (if kind = .ec then (ecDecSetup E j k).bind fun s =>
      decryptTry E .ec rnd j s (.str name) [k] s.1 else decryptTry E kind rnd j ([], [], [], []) (.str name) [k] []).map Prod.fst := by
  obtain ⟨nm, hnm, hn0, hnone, hkt⟩ := kind_type hkind
  obtain rfl : name = nm := by injection hnm
  have hpick := pickKeys_str ({} : Jwx) name _ [k] "enc" hn0 hnone hkt (.str name) (.inl rfl) .none rfl
  have hf : (([k].filter fun k => ktyMatches (kindType kind) k.kty).filter (keyPasses .none "enc" (.str name))) = [k] := by
    have hp : keyPasses .none "enc" (.str name) k = true := by
      have : PyVal.none.truthy = false := rfl
      simp [keyPasses, huse, halg, this]
    simp [hty, hp]
  rw [hf] at hpick
  have : Jwe.decryptJwt E {} rnd j [k] .none [] = (if kind = .ec then (ecDecSetup E j k).bind fun s =>
      decryptTry E .ec rnd j s (.str name) [k] s.1 else decryptTry E kind rnd j ([], [], [], []) (.str name) [k] []) := by
    unfold Jwe.decryptJwt
    have hs : Jwx.keySource E ({} : Jwe).toJwx [k] = .ok [JKey.key k] := rfl
    rw [hh, hs]
    have hg : PyVal.getItem (.dict hdr) "alg" = .ok (.str name) := by simp [PyVal.getItem, ha]
    rw [hg]
    simp only [Bind.bind, Except.bind]
    rw [if_neg (by simp [none_truthy])]
    have hpick' : Jwx.pickKeys jweAlg2keytype ({} : Jwe).toJwx [JKey.key k] "enc" (.str name) = .ok [k] := hpick
    rw [hpick']
    simp only [hkind]
    rw [if_neg (by simp)]
    cases kind <;> rfl
  rw [← this]
  unfold Jwe.decrypt Jwe.tokenOf
  rw [if_pos h0, hu]
  simp only [Bind.bind, Except.bind]
  generalize Jwe.decryptJwt E {} rnd j [k] .none [] = x
  cases x <;> rfl

theorem five_ne (h : String) (ek iv ct tag : Bytes) : fiveToken h ek iv ct tag ≠ [] := by
  unfold fiveToken; simp

theorem bare_ne (h : String) : bareToken h ≠ [] := by
  unfold bareToken
  intro h0
  exact absurd (List.append_eq_nil_iff.mp h0).2 (by decide)

def gcmHeader : String := "{\"alg\":\"A128KW\",\"enc\":\"A128GCM\"}"
def cbcHeader : String := "{\"alg\":\"A128KW\",\"enc\":\"A128CBC-HS256\"}"
def noEncHeader : String := "{\"alg\":\"A128KW\"}"

/-- **C125.** With any shared key: too few parts, an empty wrapped key, a wrong one, an iv that is too long, a wrong tag in both
families, and no `enc`. -/
theorem C125_wrap {E : Env} (hE : Standard E) (rnd : JweRnd) {k : Key} {secret : Bytes} (hk : SharedKey k secret)
    (hty : k.kty = .str "oct") (huse : k.use.truthy = false) (halg : k.alg.truthy = false) :
    let call := fun token => (Jwe.decrypt E {} rnd token [k]).1
    call (bareToken noEncHeader) = .error .wrongNumberOfParts ∧
    call (fiveToken gcmHeader [] [] [] []) = .error .structError ∧
    call (fiveToken gcmHeader (List.replicate 8 0) [] [] []) = .error .valueError ∧
    call (fiveToken gcmHeader (List.replicate 8 0xa6) (List.replicate 13 1) [] []) = .error .invalidInputException ∧
    (∃ tag, call (fiveToken gcmHeader (List.replicate 8 0xa6) [] [] tag) = .error .invalidTagException) ∧
    call (fiveToken cbcHeader (List.replicate 8 0xa6) [] [] []) = .error .generic ∧
    (∃ ek, call (fiveToken cbcHeader ek (List.replicate 16 1) [] []) = .error .verificationFailure) ∧
    call (fiveToken noEncHeader (List.replicate 8 0xa6) [] [] []) = .error .decryptionFailed := by
  obtain ⟨hke, hok⟩ := shared_encryptionKey hE.shaLaw hk .a128 false (E := E)
  have hkm : ktyMatches (kindType .sym) k.kty = true := by rw [hty]; decide +kernel
  have hkind : jweKind (.str "A128KW") = .ok .sym := by decide
  have hj1 : jsonLoads noEncHeader = .ok (.dict [("alg", .str "A128KW")]) := by decide +kernel
  have hj2 : jsonLoads gcmHeader = .ok (.dict [("alg", .str "A128KW"), ("enc", .str "A128GCM")]) := by decide +kernel
  have hj3 : jsonLoads cbcHeader = .ok (.dict [("alg", .str "A128KW"), ("enc", .str "A128CBC-HS256")]) := by decide +kernel
  have ht : keyTrue (some (.obj (.val (.bytes ((E.H.hash .sha256 secret).take 16))))) = true := by
    simp [keyTrue, KObj.truthy, PyVal.truthy, aesKeyOk_ne_nil hok]
  have five : ∀ {h enc}, jsonLoads h = .ok (.dict [("alg", .str "A128KW"), ("enc", .str enc)]) → ∀ {ek iv ct tag e}, isPassed e = false →
      ((aesUnwrapKey E.C ((E.H.hash .sha256 secret).take 16) ek).bind fun cek => jweDecrypt E (.str enc) cek ct
        (b64e (utf8Encode h)) iv tag) = .error e →
      (Jwe.decrypt E {} rnd (fiveToken h ek iv ct tag) [k]).1 = .error e := by
    intro h enc hj ek iv ct tag e hpe he
    obtain ⟨hb, hun⟩ := jweParts_unpack (five_parts hj ek iv ct tag)
    rw [single_key (five_ne _ _ _ _ _) hun rfl rfl hkind hkm huse halg]
    rw [if_neg (by decide)]
    simp only [decryptTry, if_true, decryptLoop, hke, decryptBy]
    rw [symDecrypt_parts rfl rfl _ (aesKeyOk_ne_nil hok), he]
    simp [Except.map, hpe]
  have hgcm : isGcmEnc (.str "A128GCM") = true := by decide
  have hcbc : isGcmEnc (.str "A128CBC-HS256") = false ∧ isCbcEnc (.str "A128CBC-HS256") = true := by decide
  obtain ⟨g, hg⟩ := (C47_accepts hE.aesLaw []).1 (by decide)
  refine ⟨?_, five hj2 rfl rfl, five hj2 rfl ?_, five hj2 rfl ?_, ?_, five hj3 rfl ?_, ?_, ?_⟩
  · obtain ⟨_, _, hu⟩ := unpack_of_token (bare_token hj1)
    dsimp only
    rw [single_key (bare_ne _) hu rfl rfl hkind hkm huse halg, if_neg (by decide)]
    simp [decryptTry, decryptLoop, hke, decryptBy, symDecrypt, ht, Bind.bind, Except.bind, Except.map, isPassed]
  · have h0 : unpackQ ((List.replicate 8 (0 : UInt8)).take 8) = .ok 0 := by decide +kernel
    have : aesUnwrapKey E.C ((E.H.hash .sha256 secret).take 16) (List.replicate 8 0) = .error .valueError := by
      unfold aesUnwrapKey aesUnwrapKeyAndIV
      simp only [h0, aesNew_ok hok, Bind.bind, Except.bind]
      rfl
    rw [this]; rfl
  · rw [unwrap_a6 E.C hok]
    have hiv : bytesToNat ((List.replicate 13 1 : Bytes)) ≥ 2 ^ 96 := by decide +kernel
    simp only [Except.bind, jweDecrypt, hgcm, if_true, hg, Bind.bind, Gcm.decrypt, if_pos hiv]
  · refine ⟨if 0 = g.ghash (b64e (utf8Encode gcmHeader)) [] ^^^ g.tagMask E.C 0 then [1] else [], five hj2 rfl ?_⟩
    rw [unwrap_a6 E.C hok]
    have hiv : ¬ bytesToNat [] ≥ 2 ^ 96 := by decide
    simp only [Except.bind, jweDecrypt, hgcm, if_true, hg, Bind.bind, Gcm.decrypt, if_neg hiv]
    have h0 : bytesToNat [] = 0 := rfl
    have h1 : bytesToNat [1] = 1 := by decide
    rw [h0]
    split
    · rename_i hz
      rw [h1, ← hz]; rfl
    · rename_i hz
      rw [h0, if_neg (by decide), if_pos hz]
  · rw [unwrap_a6 E.C hok]
    simp only [Except.bind, jweDecrypt, hcbc.1, hcbc.2, Bool.false_eq_true, if_false, if_true]
    rfl
  · obtain ⟨ek, -, -, hw⟩ := C35_roundtrip E.C hE.aesLaw _ (List.replicate 32 0) defaultIV hok (by decide) (by decide) (by decide)
    refine ⟨ek, five hj3 rfl ?_⟩
    rw [hw]
    simp only [Except.bind, jweDecrypt, hcbc.1, hcbc.2, Bool.false_eq_true, if_false, if_true]
    unfold aesCbcHmacDecrypt
    have hks : getKeysSeclenDgst (List.replicate 32 0) (List.replicate 16 1) = .ok (List.replicate 16 0, List.replicate 16 0, 16, .sha256) := by
      decide +kernel
    have hlen : 8 * (b64e (utf8Encode cbcHeader)).length < 2 ^ 64 := by decide +kernel
    simp only [hks, Bind.bind, Except.bind, cbcHmacTag, packQ, if_pos hlen]
    rw [if_neg]
    intro h
    have := congrArg List.length h
    rw [List.length_take, hE.shaLaw.hmac_length] at this
    simp [HashAlg.size] at this
  · obtain ⟨hb, hun⟩ := jweParts_unpack (five_parts hj1 (List.replicate 8 0xa6) [] [] [])
    dsimp only
    rw [single_key (five_ne _ _ _ _ _) hun rfl rfl hkind hkm huse halg, if_neg (by decide)]
    simp only [decryptTry, if_true, decryptLoop, hke, decryptBy]
    have : symDecrypt E ⟨.dict [("alg", .str "A128KW")], [b64e (utf8Encode noEncHeader), b64e (List.replicate 8 0xa6), b64e [], b64e [], b64e []],
        [hb, List.replicate 8 0xa6, [], [], []]⟩ (some (.obj (.val (.bytes ((E.H.hash .sha256 secret).take 16))))) [] = .error .keyError := by
      unfold symDecrypt
      simp only [ht, Jwt.partAt, symKek, Bind.bind, Option.getD_some, List.getElem?_cons_succ, List.getElem?_cons_zero, Except.bind,
        List.length_cons, List.length_nil, ne_eq, not_true_eq_false, if_false, Bool.true_eq_false, false_and, unwrap_a6 E.C hok]
      rfl
    rw [this]; rfl

/-- **C125.** With any EC key: missing parts, no `epk`, and four bad ones. -/
theorem C125_ecdh (E : Env) (rnd : JweRnd) {k : Key} (hty : k.kty = .str "EC") (huse : k.use.truthy = false)
    (halg : k.alg.truthy = false) :
    let call := fun token => (Jwe.decrypt E {} rnd token [k]).1
    let five := fun h => fiveToken h [] [] [] []
    call (bareToken "{\"alg\":\"ECDH-ES\"}") = .error .indexError ∧
    call (five "{\"alg\":\"ECDH-ES\"}") = .error .generic ∧
    call (five "{\"alg\":\"ECDH-ES\",\"epk\":1}") = .error .typeError ∧
    call (five "{\"alg\":\"ECDH-ES\",\"epk\":{\"crv\":\"P-256\"}}") = .error .deSerializationNotPossible ∧
    call (five "{\"alg\":\"ECDH-ES\",\"epk\":{\"crv\":\"P-256\",\"x\":1,\"y\":1,\"kid\":1}}") = .error .headerError ∧
    call (five "{\"alg\":\"ECDH-ES\",\"epk\":{\"crv\":\"P-1\",\"x\":\"AQ\",\"y\":\"AQ\"}}") = .error .eccException := by
  have hkm : ktyMatches (kindType .ec) k.kty = true := by rw [hty]; decide +kernel
  have hkind : jweKind (.str "ECDH-ES") = .ok .ec := by decide
  have step : ∀ {h hdr e}, jsonLoads h = .ok (.dict hdr) → PyDict.get? hdr "alg" = some (.str "ECDH-ES") →
      (∀ l b, ecDecSetup E ⟨.dict hdr, l, [b, [], [], [], []]⟩ k = .error e) →
      (Jwe.decrypt E {} rnd (fiveToken h [] [] [] []) [k]).1 = .error e := by
    intro h hdr e hj ha he
    obtain ⟨hb, hun⟩ := jweParts_unpack (five_parts hj [] [] [] [])
    rw [single_key (five_ne _ _ _ _ _) hun rfl ha hkind hkm huse halg, if_pos rfl, he]
    rfl
  have early : ∀ {hdr l b v e}, headerEpk (.dict hdr) = .ok v → ecKeyOfHeader v = .error e →
      ecDecSetup E ⟨.dict hdr, l, [b, [], [], [], []]⟩ k = .error e := by
    intro hdr l b v e h1 h2
    simp [ecDecSetup, Jwt.partAt, Bind.bind, Except.bind, h1, h2]
  have hj : jsonLoads "{\"alg\":\"ECDH-ES\"}" = .ok (.dict [("alg", .str "ECDH-ES")]) := by decide +kernel
  refine ⟨?_, step hj rfl fun _ _ => rfl,
    step (hdr := [("alg", .str "ECDH-ES"), ("epk", .int 1)]) (by decide +kernel) rfl fun _ _ => rfl,
    step (hdr := [("alg", .str "ECDH-ES"), ("epk", .dict [("crv", .str "P-256")])]) (by decide +kernel) rfl fun _ _ => ?_,
    step (hdr := [("alg", .str "ECDH-ES"), ("epk", .dict [("crv", .str "P-256"), ("x", .int 1), ("y", .int 1), ("kid", .int 1)])])
      (by decide +kernel) rfl fun _ _ => ?_,
    step (hdr := [("alg", .str "ECDH-ES"), ("epk", .dict [("crv", .str "P-1"), ("x", .str "AQ"), ("y", .str "AQ")])])
      (by decide +kernel) rfl fun _ _ => ?_⟩
  · obtain ⟨_, _, hu⟩ := unpack_of_token (bare_token hj)
    dsimp only
    rw [single_key (bare_ne _) hu rfl rfl hkind hkm huse halg, if_pos rfl]
    simp [ecDecSetup, Jwt.partAt, Bind.bind, Except.bind, Except.map]
  · have : ecKeyOfHeader (.dict [("crv", .str "P-256")]) = .error .deSerializationNotPossible := by decide +kernel
    exact early rfl this
  · have : ecKeyOfHeader (.dict [("crv", .str "P-256"), ("x", .int 1), ("y", .int 1), ("kid", .int 1)]) = .error .headerError := by
      decide +kernel
    exact early rfl this
  · have : ecKeyOfHeader (.dict [("crv", .str "P-1"), ("x", .str "AQ"), ("y", .str "AQ")]) = .error .eccException := by
      decide +kernel
    exact early rfl this

def oaepHeader : String := "{\"alg\":\"RSA-OAEP\",\"enc\":\"A128GCM\",\"zip\":\"DEF\"}"
def oaepOther : String := "{\"alg\":\"RSA-OAEP\",\"enc\":\"A128\"}"

/-- **C125.** With any private RSA key of at least 1040 bits: an unknown `enc`, and content that does not
decompress. -/
theorem C125_rsa {E : Env} (hE : Standard E) (rnd : JweRnd) {k : Key} {r : RsaKey} (hk : HoldsRsa k r) (hr : r.Consistent)
    (hn : (2 : Int) ^ 1039 ≤ r.n) (hty : k.kty = .str "RSA") (huse : k.use.truthy = false) (halg : k.alg.truthy = false)
    {b : Bytes} (hb : E.Z.decompress b = .error .zlibError) (hbl : b.length ≤ 16 * 2 ^ 32) :
    let call := fun token => (Jwe.decrypt E {} rnd token [k]).1
    (∃ ek, call (fiveToken oaepOther ek [] [] []) = .error .notSupportedAlgorithm) ∧
    ∃ ek iv ct tag, call (fiveToken oaepHeader ek iv ct tag) = .error .zlibError := by
  have hkm : ktyMatches (kindType .rsa) k.kty = true := by rw [hty]; decide +kernel
  have hkind : jweKind (.str "RSA-OAEP") = .ok .rsa := by decide
  have hke : k.encryptionKey E (.str "RSA-OAEP") false = .ok (.obj (.rsa r)) := holdsRsa_key hk _ _
  let rn : JweRnd := ⟨fun n => List.replicate n 7, fun n => List.replicate n 9, 0, fun _ => [], [], [], 0⟩
  obtain ⟨ek, hek⟩ := C110_rsa_key hE (rnd := rn) ⟨fun n => by simp [rn], fun n => by simp [rn]⟩ .g128 hn .oaep
  have hcek := rsaEncrypter_roundtrip hE.rsaLaw (r2 := r) (sent := rnd.sentinel 0) ⟨hr, rfl, rfl⟩ hek (by simp)
  have hrn : rn.key 16 = List.replicate 16 7 := rfl
  rw [hrn] at hcek
  refine ⟨⟨ek, ?_⟩, ek, List.replicate 12 9, ?_⟩
  · have hj : jsonLoads oaepOther = .ok (.dict [("alg", .str "RSA-OAEP"), ("enc", .str "A128")]) := by decide +kernel
    obtain ⟨hb, hun⟩ := jweParts_unpack (five_parts hj ek [] [] [])
    dsimp only
    rw [single_key (five_ne _ _ _ _ _) hun rfl rfl hkind hkm huse halg, if_neg (by decide)]
    have h1 : rsaPadOf (.str "RSA-OAEP") = .ok .oaep := by decide
    have h2 : strIn (.str "A128") jweSupportedEnc = false := by decide
    simp [decryptTry, decryptLoop, hke, decryptBy, rsaDecrypt, Jwt.partAt, PyVal.getItem, PyDict.get?, List.lookup, h1, h2, hcek,
      Bind.bind, Except.bind, Except.map, isPassed]
  · have hj : jsonLoads oaepHeader = .ok (.dict [("alg", .str "RSA-OAEP"), ("enc", .str "A128GCM"), ("zip", .str "DEF")]) := by
      decide +kernel
    obtain ⟨ct, tag, h⟩ := encSetup_total (E := E) hE.aesLaw hE.shaLaw (rnd := rn) .g128 (m := b)
      (aad := b64e (utf8Encode oaepHeader)) (key := List.replicate 16 7) (iv := List.replicate 12 9) (by simp) (by simp) hbl (by decide +kernel)
    obtain ⟨m, hm, -, hd⟩ := encSetup_roundtrip hE.aesLaw hE.shaLaw (by simp) (by simp) h
    cases hm
    refine ⟨ct, tag, ?_⟩
    obtain ⟨hb', hun⟩ := jweParts_unpack (five_parts hj ek (List.replicate 12 9) ct tag)
    dsimp only
    rw [single_key (five_ne _ _ _ _ _) hun rfl rfl hkind hkm huse halg, if_neg (by decide)]
    have hg : PyDict.get? [("alg", .str "RSA-OAEP"), ("enc", .str "A128GCM"), ("zip", .str "DEF")] "zip" = some (PyVal.str "DEF") := rfl
    simp only [decryptTry, if_true, decryptLoop, hke, decryptBy]
    rw [rsaDecrypt_parts rfl rfl .oaep rfl (by decide), if_neg (by simp)]
    simp only [Option.getD_some, hcek, Except.bind, hd, if_pos hg, hb, Except.map, isPassed]
    simp

/-! ### Examples -/

theorem std_zlib : ∀ b e, stdEnv.Z.decompress b = .error e → e = .zlibError := by
  intro b e h
  have h : toyZlib.decompress b = .error e := h
  unfold toyZlib at h
  dsimp only at h
  split at h <;> cases h
  rfl

/-- C125_decrypt: a signature of RSA keys is not among the exceptions. -/
example (token : Bytes) (h0 : token ≠ []) (hl : token.length ≤ 2 ^ 35) (rnd : JweRnd) :
    (Jwe.decrypt stdEnv {} rnd token [exShared, bigKey bigRsa]).1 ≠ .error .badSignature := by
  intro h
  have := C125_decrypt stdEnv_standard std_zlib {} rnd h0 hl (by simp)
    (by simp; exact ⟨⟨.sym rfl rfl rfl, by simp [exShared, ascii]⟩, .rsa rfl rfl rfl, by simp [bigKey]⟩) .none _ h
  revert this; decide

/-- C125_family: the exceptions of key wrapping do not include those of Python for wrong types. -/
example (token : Bytes) (h0 : token ≠ []) (hl : token.length ≤ 2 ^ 35) {j : Jwt} (hu : Jwt.unpack token = .ok j) {hdr : PyDict}
    (hj : j.headers = .dict hdr) (ha : PyDict.get? hdr "alg" = some (.str "A256KW")) (rnd : JweRnd) :
    (Jwe.decrypt stdEnv {} rnd token [exShared]).1 ≠ .error .typeError := by
  intro h
  have := C125_family stdEnv_standard std_zlib {} rfl rnd h0 hl hu hj ha (.wrap (by simp)) (by simp)
    (by simp; exact ⟨.sym rfl rfl rfl, by simp [exShared, ascii]⟩) .none _ h
  revert this; decide

/-- C125_wrap, C125_ecdh, C125_rsa. -/
example (rnd : JweRnd) : (Jwe.decrypt stdEnv {} rnd (fiveToken gcmHeader [] [] [] []) [exShared]).1 = .error .structError :=
  (C125_wrap stdEnv_standard rnd exShared_ok rfl rfl rfl).2.1

example (rnd : JweRnd) : ∃ ek iv ct tag, (Jwe.decrypt stdEnv {} rnd (fiveToken oaepHeader ek iv ct tag) [bigKey bigRsa]).1 = .error .zlibError :=
  (C125_rsa stdEnv_standard rnd (bigKey_holds _) bigRsa_consistent bigRsa_size rfl rfl rfl (b := []) rfl (by decide)).2

end Verif
