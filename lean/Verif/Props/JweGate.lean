import Verif.Props.JweAuth
/-
C61 (the unchecked algorithm name), C62 (several keys), C63 (number of segments), C64 (generated keys
and ivs), C65 (encrypting to a public EC key), C27 (`is_jwe`).
-/

namespace Verif
open Spec

/-! ### C61: a name that is not supported is accepted together with a content key -/

/-- **C61.** With a supplied content key every `alg` of the form `A…KW` is accepted. -/
theorem C61_unchecked {E : Env} {token s0 ek iv ct tag : Bytes} {h' : PyDict} {a : String} {enc : PyVal}
    (hp : JweParts token s0 (.dict h') ek iv ct tag) (hx : ∃ x, a.toList = 'A' :: x ∧ ['K', 'W'] <:+ a.toList)
    (ha : PyDict.get? h' "alg" = some (.str a)) (he : PyDict.get? h' "enc" = some enc) (rnd : JweRnd)
    {cek m : Bytes} (hc : cek ≠ []) (hd : jweDecrypt E enc cek ct s0 iv tag = .ok m) :
    (Jwe.decrypt E {} rnd token [] .none cek).1 = .ok m := by
  obtain ⟨hb, hun⟩ := jweParts_unpack hp
  have hne : token ≠ [] := by
    rintro rfl
    simp [Jwt.unpack, splitToken, Bind.bind, Except.bind] at hun
  obtain ⟨x, hx1, hx2⟩ := hx
  have hsA : startsWith a "A" = true := by
    rw [startsWith_prefix, hx1]
    exact ⟨x, rfl⟩
  have hsKW : endsWith a "KW" = true := (endsWith_suffix _ _).mpr hx2
  have hsR : startsWith a "RSA" = false := by
    rw [← Bool.not_eq_true, startsWith_prefix, hx1]
    rintro ⟨y, hy⟩
    have : ("RSA" : String).toList = ['R', 'S', 'A'] := by decide
    rw [this] at hy
    simp at hy
  have hnone : a ≠ "none" := by
    rintro rfl
    have : ("none" : String).toList = ['n', 'o', 'n', 'e'] := by decide
    rw [this] at hx1
    simp at hx1
  have hne0 : a ≠ "" := by rintro rfl; simp at hx1
  have hkind : jweKind (.str a) = .ok .sym := by
    have hr : ¬ (a = "RSA-OAEP" ∨ a = "RSA-OAEP-256" ∨ a = "RSA1_5") := by
      rintro (rfl | rfl | rfl) <;> revert hsA <;> decide
    simp only [jweKind, if_neg hr, hsA, hsKW, Bool.and_self, if_true]
  have hk : jweAlg2keytype (.str a) = .ok (some "oct") := by
    simp [jweAlg2keytype, hsR, hsA]
  have hpick := pickKeys_str (a2k := jweAlg2keytype) ({} : Jwx) a "oct" [] "enc" hne0 hnone hk (.str a) (.inl rfl) .none (by rfl)
  unfold Jwe.decrypt Jwe.tokenOf
  rw [if_pos hne, hun]
  simp only [Bind.bind, Except.bind]
  unfold Jwe.decryptJwt
  simp only [PyVal.getItem, ha, Bind.bind, Except.bind]
  rw [if_neg (by simp [none_truthy])]
  have hsrc : Jwx.keySource E ({} : Jwe).toJwx [] = .ok [] := rfl
  simp only [List.map_nil] at hpick
  rw [hsrc]
  simp only [hpick]
  rw [if_neg (by simp [hc]), hkind]
  simp only [decryptTry, if_neg hc, decryptBy, symDecrypt]
  simp [keyTrue, hc, PyVal.getItem, he, Jwt.partAt, Jwt.b64ProtectedHeader, Bind.bind, Except.bind, hd,
    Except.map]

/-! ### C62: several keys -/

/-- The external libraries raise neither `KeyError` nor `DecryptionFailed` (the latter is a class of
this package). -/
structure Spec.LibQuiet (E : Env) : Prop where
  dec15 : ∀ k ct e, E.R.dec15 k ct = .error e → e ≠ .keyError ∧ e ≠ .decryptionFailed
  oaep : ∀ h k ct e, E.R.decOaep h k ct = .error e → e ≠ .keyError ∧ e ≠ .decryptionFailed
  zlib : ∀ b e, E.Z.decompress b = .error e → e ≠ .keyError ∧ e ≠ .decryptionFailed

/-- Raises nothing that the loop over the keys swallows. -/
def Quiet {α : Type} (x : PyM α) : Prop := ∀ e, x = .error e → isPassed e = false

theorem quiet_ok {α : Type} (a : α) : Quiet (.ok a : PyM α) := fun _ h => by cases h
theorem quiet_err {α : Type} {e : Exc} (h : isPassed e = false) : Quiet (.error e : PyM α) :=
  fun _ h' => by cases h'; exact h
theorem quiet_bind {α β : Type} {x : PyM α} {f : α → PyM β} (h : Quiet x) (hf : ∀ a, Quiet (f a)) :
    Quiet (x.bind f) := by
  rcases x with e | a
  · exact quiet_err (h e rfl)
  · exact hf a
theorem quiet_bind' {α β : Type} {x : PyM α} {f : α → PyM β} (h : Quiet x) (hf : ∀ a, x = .ok a → Quiet (f a)) :
    Quiet (x.bind f) := by
  rcases x with e | a
  · exact quiet_err (h e rfl)
  · exact hf a rfl
theorem quiet_ok' {α : Type} {x : PyM α} {a : α} (h : x = .ok a) : Quiet x := h ▸ quiet_ok a
theorem quiet_ite {α : Type} {c : Prop} [Decidable c] {x y : PyM α} (hx : Quiet x) (hy : Quiet y) :
    Quiet (if c then x else y) := by split <;> assumption
theorem quiet_of_ne {α : Type} {x : PyM α} (h : ∀ e, x = .error e → e ≠ .keyError ∧ e ≠ .decryptionFailed) :
    Quiet x := by
  intro e he
  obtain ⟨h1, h2⟩ := h e he
  cases e <;> first | rfl | exact absurd rfl h1 | exact absurd rfl h2
theorem quiet_mapM {α β : Type} {f : α → PyM β} (hf : ∀ a, Quiet (f a)) : ∀ l : List α, Quiet (l.mapM f)
  | [] => by simp only [List.mapM_nil]; exact quiet_ok _
  | a :: l => by
    rw [List.mapM_cons]
    exact quiet_bind (hf a) fun b => quiet_bind (quiet_mapM hf l) fun c => quiet_ok _
theorem quiet_foldlM {α β : Type} {f : β → α → PyM β} (hf : ∀ b a, Quiet (f b a)) :
    ∀ (l : List α) (b : β), Quiet (l.foldlM f b)
  | [], b => by simp only [List.foldlM_nil]; exact quiet_ok _
  | a :: l, b => by
    rw [List.foldlM_cons]
    exact quiet_bind (hf b a) fun b' => quiet_foldlM hf l b'

theorem quiet_aesNew (k : Bytes) : Quiet (aesNew k) := quiet_ite (quiet_ok _) (quiet_err rfl)
theorem quiet_packQ (n : Nat) : Quiet (packQ n) := quiet_ite (quiet_ok _) (quiet_err rfl)
theorem quiet_unpackQ (b : Bytes) : Quiet (unpackQ b) := quiet_ite (quiet_ok _) (quiet_err rfl)
theorem quiet_partAt (j : Jwt) (i : Nat) : Quiet (j.partAt i) := by
  unfold Jwt.partAt; split
  · exact quiet_ok _
  · exact quiet_err rfl
theorem quiet_header (j : Jwt) : Quiet j.b64ProtectedHeader := by
  unfold Jwt.b64ProtectedHeader; split
  · exact quiet_ok _
  · exact quiet_err rfl

theorem quiet_gcmNew (C : BlockCipher) (n : Nat) : Quiet (Gcm.new C n) := by
  unfold Gcm.new
  refine quiet_bind (quiet_aesNew _) fun _ => quiet_bind (quiet_mapM (fun i => quiet_mapM (fun j => ?_) _) _)
    fun _ => quiet_ok _
  unfold gfMul
  exact quiet_ite (quiet_err rfl) (quiet_ite (quiet_err rfl) (quiet_ite (quiet_err rfl) (quiet_ok _)))

theorem quiet_gcmDecrypt (C : BlockCipher) (g : Gcm) (iv : Nat) (ct : Bytes) (tag : Nat) (aad : Bytes) :
    Quiet (g.decrypt C iv ct tag aad) := by
  unfold Gcm.decrypt Gcm.crypt ctrCrypt
  refine quiet_ite (quiet_err rfl) (quiet_ite (quiet_err rfl) (quiet_ite (quiet_err rfl) (quiet_ite ?_ (quiet_ok _))))
  exact quiet_bind (quiet_bind (quiet_aesNew _) fun _ => quiet_ite (quiet_err rfl) (quiet_ok _)) fun _ => quiet_ok _

theorem quiet_cbcHmac (C : BlockCipher) (H : Hashes) (key iv aad ct tag : Bytes) :
    Quiet (aesCbcHmacDecrypt C H key iv aad ct tag) := by
  unfold aesCbcHmacDecrypt getKeysSeclenDgst cbcHmacTag cbcDecrypt pkcs5trim
  refine quiet_bind (quiet_ite (quiet_err rfl) ?_) fun a => ?_
  · split
    · exact quiet_err rfl
    · exact quiet_ok _
  obtain ⟨ka, ke, seclen, dgst⟩ := a
  refine quiet_bind (quiet_bind (quiet_packQ _) fun _ => quiet_ok _) fun c => quiet_ite ?_ (quiet_err rfl)
  refine quiet_bind (quiet_bind (quiet_aesNew _) fun _ => quiet_ite (quiet_err rfl)
    (quiet_ite (quiet_err rfl) (quiet_ok _))) fun d => ?_
  split
  · exact quiet_err rfl
  · exact quiet_ite (quiet_err rfl) (quiet_ite (quiet_ok _) (quiet_ok _))

theorem quiet_jweDecrypt (E : Env) (enc : PyVal) (key ct aad iv tag : Bytes) :
    Quiet (jweDecrypt E enc key ct aad iv tag) := by
  unfold jweDecrypt
  exact quiet_ite (quiet_bind (quiet_gcmNew _ _) fun _ => quiet_gcmDecrypt _ _ _ _ _ _)
    (quiet_ite (quiet_cbcHmac _ _ _ _ _ _ _) (quiet_err rfl))

theorem quiet_unwrap (C : BlockCipher) (kek w : Bytes) : Quiet (aesUnwrapKey C kek w) := by
  unfold aesUnwrapKey aesUnwrapKeyAndIV
  refine quiet_bind (quiet_bind (quiet_unpackQ _) fun _ => quiet_bind (quiet_aesNew _) fun _ =>
    quiet_bind (quiet_foldlM (fun b a => ?_) _ _) fun _ => quiet_ok _) fun a => quiet_ite (quiet_err rfl) (quiet_ok _)
  unfold unwrapStep
  exact quiet_bind (quiet_packQ _) fun _ => quiet_bind (quiet_unpackQ _) fun _ => quiet_ok _

theorem quiet_symKek (k : KeyArg) : Quiet (symKek k) := by
  unfold symKek; split
  · exact quiet_ok _
  · exact quiet_err rfl

theorem quiet_sym {E : Env} {j : Jwt} {h' : PyDict} (hj : j.headers = .dict h') {v : PyVal}
    (hv : PyDict.get? h' "enc" = some v) (key : Option KeyArg) (cek : Bytes) : Quiet (symDecrypt E j key cek) := by
  unfold symDecrypt
  refine quiet_bind ?_ fun c => quiet_bind ?_ fun enc => quiet_bind (quiet_partAt _ _) fun _ =>
    quiet_bind (quiet_header _) fun _ => quiet_bind (quiet_partAt _ _) fun _ =>
    quiet_bind (quiet_partAt _ _) fun _ => quiet_jweDecrypt _ _ _ _ _ _ _
  · refine quiet_ite (quiet_err rfl) (quiet_ite (quiet_err rfl) (quiet_ite (quiet_ok _) ?_))
    exact quiet_bind (quiet_partAt _ _) fun _ => quiet_bind (quiet_symKek _) fun _ => quiet_unwrap _ _ _
  · rw [hj]; simp only [PyVal.getItem, hv]; exact quiet_ok _

theorem quiet_rsa {E : Env} (hq : LibQuiet E) {j : Jwt} {h' : PyDict} (hj : j.headers = .dict h') {v : PyVal}
    (hv : PyDict.get? h' "enc" = some v) {a : String} (ha : PyDict.get? h' "alg" = some (.str a))
    (h15 : a ≠ "RSA1_5") (sent : Bytes) (key : Option KeyArg) (cek : Bytes) :
    Quiet (rsaDecrypt E false sent j key cek) := by
  unfold rsaDecrypt
  rw [hj]
  have hga : (PyVal.dict h').getItem "alg" = .ok (.str a) := by simp [PyVal.getItem, ha]
  have hge : (PyVal.dict h').getItem "enc" = .ok v := by simp [PyVal.getItem, hv]
  refine quiet_bind (quiet_partAt _ _) fun jek => quiet_bind' (quiet_ok' hga) fun av hav => ?_
  have hav : .str a = av := by rw [hga] at hav; cases hav; rfl
  subst hav
  refine quiet_bind (quiet_ite (quiet_ok _) (quiet_bind' ?_ fun pad hpad => ?_)) fun c =>
    quiet_bind (quiet_ok' hge) fun enc => quiet_ite (quiet_err rfl) ?_
  · unfold rsaPadOf
    exact quiet_ite (quiet_ok _) (quiet_ite (quiet_ok _) (quiet_ite (quiet_ok _) (quiet_err rfl)))
  · unfold rsaEncrypterDecrypt
    refine quiet_bind ?_ fun k => ?_
    · unfold rsaKeyArg; split
      · exact quiet_ok _
      · exact quiet_err rfl
    · cases pad with
      | pkcs1 =>
        unfold rsaPadOf at hpad
        rw [if_neg (c := PyVal.str a = .str "RSA1_5") (by simpa using h15)] at hpad
        split at hpad
        · cases hpad
        split at hpad
        · cases hpad
        · cases hpad
      | oaep => exact quiet_of_ne (hq.oaep _ _ _)
      | oaep256 => exact quiet_of_ne (hq.oaep _ _ _)
  refine quiet_bind (quiet_partAt _ _) fun _ => quiet_bind (quiet_header _) fun _ =>
    quiet_bind (quiet_partAt _ _) fun _ => quiet_bind (quiet_partAt _ _) fun _ =>
    quiet_bind (quiet_jweDecrypt _ _ _ _ _ _ _) fun m => quiet_bind' (quiet_ok' rfl) fun hz hhz =>
    quiet_bind' ?_ fun z _ =>
    quiet_bind (quiet_ite (quiet_of_ne (hq.zlib m)) (quiet_ok _)) fun _ => quiet_ok _
  simp only [PyVal.contains, PyDict.has, Except.ok.injEq] at hhz
  subst hhz
  cases hzz : PyDict.get? h' "zip" with
  | none => exact quiet_ok _
  | some z => simp only [Option.isSome_some, if_true, PyVal.getItem, hzz]; exact quiet_ok _

/-- A stuck loop: if the failure of an attempt is swallowed, no attempt succeeds. -/
theorem loop_first {E : Env} {kind : JweKind} {rnd : JweRnd} {j : Jwt} {s : Bytes × Bytes × Bytes × Bytes}
    {alg : PyVal} (hst : ∀ sent key e, decryptBy E kind sent j s (some key) [] = .error e → isPassed e = true →
      ∀ sent' key' r, decryptBy E kind sent' j s (some key') [] ≠ .ok r) (k : Key) (rest : List Key) (i : Nat)
    (r : Bytes × PyVal) : decryptLoop E kind rnd j s alg i (k :: rest) = .ok r ↔
      ∃ key, k.encryptionKey E alg false = .ok key ∧ decryptBy E kind (rnd.sentinel i) j s (some key) [] = .ok r := by
  constructor
  · intro h
    unfold decryptLoop at h
    split at h
    · cases h
    rename_i key hkey
    split at h
    · rename_i r' hr'
      cases h
      exact ⟨key, hkey, hr'⟩
    · rename_i e he
      split at h
      · rename_i hp
        obtain ⟨k', -, ka, n, -, h2⟩ := decryptLoop_inv h
        exact absurd h2 (hst _ _ _ he hp _ _ _)
      · cases h
  · rintro ⟨key, h1, h2⟩
    simp [decryptLoop, h1, h2]

theorem sym_stuck {E : Env} {j : Jwt} {h' : PyDict} (hj : j.headers = .dict h')
    {s : Bytes × Bytes × Bytes × Bytes} (sent : Bytes) (key : KeyArg) (e : Exc)
    (he : decryptBy E .sym sent j s (some key) [] = .error e) (hp : isPassed e = true) (sent' : Bytes)
    (key' : KeyArg) (r : Bytes × PyVal) : decryptBy E .sym sent' j s (some key') [] ≠ .ok r := by
  intro hr
  obtain ⟨m, hm, -⟩ := map_ok hr
  obtain ⟨ckey, ⟨enc, _, _, _, _, hu, -⟩, -⟩ := symDecrypt_inv hm
  obtain ⟨d, hd, hv⟩ := getItem_ok hu
  rw [hj] at hd; cases hd
  have := quiet_sym (E := E) hj hv (some key) [] e (by
    simp only [decryptBy] at he
    generalize symDecrypt E j (some key) [] = x at he
    rcases x with e' | a
    · cases he; rfl
    · cases he)
  rw [hp] at this; cases this

theorem rsa_stuck {E : Env} (hq : LibQuiet E) {j : Jwt} {h' : PyDict} (hj : j.headers = .dict h')
    {a : String} (ha : PyDict.get? h' "alg" = some (.str a)) (h15 : a ≠ "RSA1_5")
    {s : Bytes × Bytes × Bytes × Bytes} (sent : Bytes) (key : KeyArg) (e : Exc)
    (he : decryptBy E .rsa sent j s (some key) [] = .error e) (hp : isPassed e = true) (sent' : Bytes)
    (key' : KeyArg) (r : Bytes × PyVal) : decryptBy E .rsa sent' j s (some key') [] ≠ .ok r := by
  intro hr
  obtain ⟨⟨m, c⟩, hm, -⟩ := map_ok hr
  obtain ⟨ckey, _, ⟨enc, _, _, _, _, hu, -⟩, -⟩ := rsaDecrypt_inv hm
  obtain ⟨d, hd, hv⟩ := getItem_ok hu
  rw [hj] at hd; cases hd
  have := quiet_rsa (E := E) hq hj hv ha h15 sent (some key) [] e (by
    simp only [decryptBy] at he
    generalize rsaDecrypt E false sent j (some key) [] = x at he
    rcases x with e' | a
    · cases he; rfl
    · cases he)
  rw [hp] at this; cases this

/-- For the Diffie-Hellman algorithms the list of keys has no influence after the set-up. -/
theorem ec_try {E : Env} {rnd : JweRnd} {j : Jwt} {s : Bytes × Bytes × Bytes × Bytes} {alg : PyVal}
    (k : Key) (rest : List Key) (hs : s.1 ≠ []) (r : Bytes × PyVal) :
    decryptTry E .ec rnd j s alg (k :: rest) s.1 = .ok r ↔ (ecDecrypt E j s).map (fun m => (m, .none)) = .ok r := by
  unfold decryptTry
  rw [if_neg hs]
  simp only [decryptBy]
  cases hx : (ecDecrypt E j s).map (fun m => (m, PyVal.none)) with
  | ok a => simp
  | error e =>
    simp only [reduceCtorEq, iff_false]
    split
    · intro h
      obtain ⟨k', -, ka, n, -, h2⟩ := decryptLoop_inv h
      simp only [decryptBy, hx] at h2
      cases h2
    · simp

theorem mgmt_ne_rsa15 {a : String} {m : KeyMgmt} (h : MgmtName a m) (h15 : m ≠ .rsa .pkcs1) : a ≠ "RSA1_5" := by
  cases h <;> first | decide | exact absurd rfl h15

/-- **C62.** Except for RSA1_5, only the first key that is not sorted out by type, `kid`, `use` or
`alg` is ever tried: decryption with a list of keys succeeds exactly if it does with this key alone. -/
theorem C62_first {E : Env} (hq : LibQuiet E) {o : Jwe} {rnd : JweRnd} {token : Bytes} {j : Jwt} {h' : PyDict}
    (ht : Jwt.unpack token = .ok j) (hj : j.headers = .dict h') {alg : String} {m : KeyMgmt}
    (halg : PyDict.get? h' "alg" = some (.str alg)) (hm : MgmtName alg m) (h15 : m ≠ .rsa .pkcs1)
    {keys l : List Key} {wk : PyVal} {k : Key} (heff : EffKeys o.toJwx keys l) (hsk : SignKid o.toJwx wk)
    (hf : FirstPicked m alg wk l k) (msg : Bytes) :
    (o.decrypt E rnd token keys).1 = .ok msg ↔ (o.decrypt E rnd token [k]).1 = .ok msg := by
  obtain ⟨rest, hd1, hd2⟩ := decrypt_single (E := E) (rnd := rnd) ht hj halg hm heff hsk hf []
  obtain ⟨pre, post, hl, hpk, hpre⟩ := hf
  obtain ⟨rest', hd1', hd2'⟩ := decrypt_single (E := E) (rnd := rnd) (o := o) (keys := [k]) (l := [k]) ht hj halg hm
    (.inl ⟨by simp, rfl⟩) hsk ⟨[], [], rfl, hpk, by simp⟩ []
  rw [hd2, hd2', hd1, hd1']
  have key : ∀ {x y : PyM (Bytes × PyVal)}, (∀ r, x = .ok r ↔ y = .ok r) →
      (x.map Prod.fst = .ok msg ↔ y.map Prod.fst = .ok msg) := by
    intro x y h
    rcases x with e | a
    · rcases y with e' | b
      · simp [Except.map]
      · have := (h b).mpr rfl; cases this
    · have := (h a).mp rfl; rw [this]
  have hec : ∀ r, ((ecDecSetup E j k).bind fun s => decryptTry E .ec rnd j s (.str alg) (k :: rest) s.1) = .ok r ↔
      ((ecDecSetup E j k).bind fun s => decryptTry E .ec rnd j s (.str alg) (k :: rest') s.1) = .ok r := by
    intro r
    rcases ecDecSetup E j k with e | s
    · rfl
    · simp only [Except.bind]
      by_cases hs : s.1 = []
      · have hst : ∀ sent key e, decryptBy E .ec sent j s (some key) [] = .error e → isPassed e = true →
            ∀ sent' key' r, decryptBy E .ec sent' j s (some key') [] ≠ .ok r := by
          intro _ _ e he _ _ _ r hr
          simp only [decryptBy] at he hr
          rw [he] at hr; cases hr
        simp only [decryptTry, if_pos hs]
        rw [loop_first hst, loop_first hst]
      · rw [ec_try _ _ hs, ec_try _ _ hs]
  cases m with
  | wrap n =>
    apply key
    intro r
    simp only [decryptTry, if_true]
    rw [loop_first (sym_stuck hj), loop_first (sym_stuck hj)]
  | rsa p =>
    apply key
    intro r
    have hne : alg ≠ "RSA1_5" := mgmt_ne_rsa15 hm h15
    simp only [decryptTry, if_true]
    rw [loop_first (rsa_stuck hq hj halg hne), loop_first (rsa_stuck hq hj halg hne)]
  | direct => exact key hec
  | agreeWrap n => exact key hec

/-- **C62.** With AES key wrap, a first key that does not unwrap the encrypted key ends the call with
that error, whatever keys follow. -/
theorem C62_abort_sym {E : Env} (hH : E.H.Lawful) {alg : String} {n : Nat}
    (hm : MgmtName alg (.wrap n)) {token s0 ek iv ct tag : Bytes} {h' : PyDict}
    (hp : JweParts token s0 (.dict h') ek iv ct tag) (ha : PyDict.get? h' "alg" = some (.str alg))
    {o : Jwe} {rnd : JweRnd} {keys l : List Key} {wk : PyVal}
    {k : Key} {secret : Bytes} (hk : SharedKey k secret) (heff : EffKeys o.toJwx keys l)
    (hsk : SignKid o.toJwx wk) (hf : FirstPicked (.wrap n) alg wk l k) {e : Exc}
    (he : aesUnwrapKey E.C ((E.H.hash .sha256 secret).take n) ek = .error e) :
    (o.decrypt E rnd token keys).1 = .error e := by
  obtain ⟨hb, hun⟩ := jweParts_unpack hp
  obtain ⟨rest, hd1, hd2⟩ := decrypt_single (E := E) (rnd := rnd) hun rfl ha hm heff hsk hf []
  rw [hd2, hd1]
  obtain ⟨hke, hok⟩ := shared_encryptionKey hH hk hm false
  have hsd : symDecrypt E (Jwt.mk (.dict h') [s0, b64e ek, b64e iv, b64e ct, b64e tag] [hb, ek, iv, ct, tag])
      (some (.obj (.val (.bytes ((E.H.hash .sha256 secret).take n))))) [] = .error e := by
    have ht : ((E.H.hash .sha256 secret).take n) ≠ [] := aesKeyOk_ne_nil hok
    simp [symDecrypt, keyTrue, KObj.truthy, PyVal.truthy, ht, Jwt.partAt, symKek, Bind.bind, Except.bind, he]
  have hpass := quiet_unwrap _ _ _ e he
  simp only [decryptTry, if_true, decryptLoop, hke, decryptBy, hsd, Except.map, hpass]
  simp

/-- **C62.** Likewise if the RSA library raises for the first key. -/
theorem C62_abort_rsa {E : Env} (hq : LibQuiet E) {alg : String} {p : RsaPad}
    (hm : MgmtName alg (.rsa p)) {token s0 ek iv ct tag : Bytes} {h' : PyDict}
    (hp : JweParts token s0 (.dict h') ek iv ct tag) (ha : PyDict.get? h' "alg" = some (.str alg))
    {o : Jwe} {rnd : JweRnd} {keys l : List Key} {wk : PyVal}
    {k : Key} {r : RsaKey} (hk : HoldsRsa k r) (heff : EffKeys o.toJwx keys l)
    (hsk : SignKid o.toJwx wk) (hf : FirstPicked (.rsa p) alg wk l k) {e : Exc}
    (he : (p = .pkcs1 ∧ E.R.dec15 r ek = .error e) ∨ (p = .oaep ∧ E.R.decOaep .sha1 r ek = .error e) ∨
      (p = .oaep256 ∧ E.R.decOaep .sha256 r ek = .error e)) :
    (o.decrypt E rnd token keys).1 = .error e := by
  obtain ⟨hb, hun⟩ := jweParts_unpack hp
  obtain ⟨rest, hd1, hd2⟩ := decrypt_single (E := E) (rnd := rnd) hun rfl ha hm heff hsk hf []
  rw [hd2, hd1]
  have hsd : ∀ sent, rsaDecrypt E false sent (Jwt.mk (.dict h') [s0, b64e ek, b64e iv, b64e ct, b64e tag] [hb, ek, iv, ct, tag])
      (some (.obj (.rsa r))) [] = .error e := by
    intro sent
    simp only [rsaDecrypt, Jwt.partAt, Bind.bind, Except.bind, PyVal.getItem, ha, rsaPadOf_name hm,
      List.getElem?_cons_zero, List.getElem?_cons_succ, rsaEncrypterDecrypt, rsaKeyArg, Option.getD_some]
    rcases he with ⟨rfl, he⟩ | ⟨rfl, he⟩ | ⟨rfl, he⟩ <;> simp [he]
  have hpass : isPassed e = false := by
    rcases he with ⟨-, he⟩ | ⟨-, he⟩ | ⟨-, he⟩
    · exact quiet_of_ne (hq.dec15 _ _) e he
    · exact quiet_of_ne (hq.oaep _ _ _) e he
    · exact quiet_of_ne (hq.oaep _ _ _) e he
  simp only [decryptTry, if_true, decryptLoop, holdsRsa_key hk, decryptBy, hsd, Except.map, hpass]
  simp

theorem pickKeys_filter {alg : String} {m : KeyMgmt} (hm : MgmtName alg m) (o : Jwx)
    {kid : PyVal} (hkid : o.wantedKid = .ok kid) (l : List Key) :
    ∃ p : Key → Bool, (∀ x, p x = true ↔ EncPicked m alg kid x) ∧
      o.pickKeys jweAlg2keytype (l.map JKey.key) "enc" (.str alg) = .ok (l.filter p) := by
  obtain ⟨hne, hn, kt, hkt, hty⟩ := mgmt_keytype hm
  refine ⟨_, picked_iff hm hty kid, ?_⟩
  rw [pickKeys_str o alg kt l "enc" hne hn hkt (.str alg) (.inl rfl) kid hkid, List.filter_filter]

/-- **C62.** For RSA1_5 the keys are tried one after the other as long as the padding is wrong: the
first key with which the padding is right is found. -/
theorem C62_pkcs1 {E : Env} {token s0 ek iv ct tag : Bytes} {h' : PyDict} {enc : String} {kl il : Nat}
    (hp : JweParts token s0 (.dict h') ek iv ct tag) (ha : PyDict.get? h' "alg" = some (.str "RSA1_5"))
    (he : PyDict.get? h' "enc" = some (.str enc)) (hen : EncName enc kl il) (hz : PyDict.get? h' "zip" = none)
    {o : Jwe} {rnd : JweRnd} {keys l pre post : List Key} {wk : PyVal} (heff : EffKeys o.toJwx keys l)
    (hsk : SignKid o.toJwx wk) {k : Key} {r : RsaKey} {c m : Bytes} (hl : l = pre ++ k :: post)
    (hpre : ∀ x ∈ pre, EncPicked (.rsa .pkcs1) "RSA1_5" wk x → ∃ q, HoldsRsa x q ∧ E.R.dec15 q ek = .ok none)
    (hk : EncPicked (.rsa .pkcs1) "RSA1_5" wk k) (hr : HoldsRsa k r) (hc : E.R.dec15 r ek = .ok (some c))
    (hs : ∀ i, rnd.sentinel i ≠ c) (hd : jweDecrypt E (.str enc) c ct s0 iv tag = .ok m) :
    (o.decrypt E rnd token keys).1 = .ok m := by
  obtain ⟨hb, hun⟩ := jweParts_unpack hp
  have hne : token ≠ [] := by
    rintro rfl
    simp [Jwt.unpack, splitToken, Bind.bind, Except.bind] at hun
  obtain ⟨f, hfp, hpick⟩ := pickKeys_filter .rsa15 o.toJwx (wantedKid_of_signKid hsk) l
  have hsup : enc ∈ jweSupportedEnc := by cases hen <;> decide
  have hloop : ∀ (ks : List Key) (i : Nat), (∀ x ∈ ks, ∃ q, HoldsRsa x q ∧ E.R.dec15 q ek = .ok none) →
      ∀ rest, decryptLoop E .rsa rnd (Jwt.mk (.dict h') [s0, b64e ek, b64e iv, b64e ct, b64e tag] [hb, ek, iv, ct, tag])
        ([], [], [], []) (.str "RSA1_5") i (ks ++ k :: rest) = .ok (m, .bytes c) := by
    intro ks
    induction ks with
    | nil =>
      intro i _ rest
      have hs' : ¬ c = rnd.sentinel i := fun h => hs i h.symm
      simp [decryptLoop, holdsRsa_key hr, decryptBy, rsaDecrypt_parts rfl ha .rsa15 he hsup,
        rsaEncrypterDecrypt, rsaKeyArg, hc, rsaCheckText, Bind.bind, Except.bind, hd, hz, Except.map, hs']
    | cons x ks ih =>
      intro i hx rest
      obtain ⟨q, hq1, hq2⟩ := hx x (by simp)
      have := ih (i + 1) (fun y hy => hx y (by simp [hy])) rest
      simp only [List.cons_append]
      rw [decryptLoop, holdsRsa_key hq1]
      simp only [decryptBy, rsaDecrypt_parts rfl ha .rsa15 he hsup,
        rsaEncrypterDecrypt, rsaKeyArg, hq2, rsaCheckText, Bind.bind, Except.bind, Except.map,
        Option.getD_some, Option.getD_none, ne_eq, not_true_eq_false, if_false, if_true, Bool.false_eq_true, isPassed]
      exact this
  have hfk : (l.filter f) = pre.filter f ++ k :: post.filter f := by
    rw [hl, List.filter_append, List.filter_cons, if_pos ((hfp k).mpr hk)]
  unfold Jwe.decrypt Jwe.tokenOf
  rw [if_pos hne, hun]
  simp only [Bind.bind, Except.bind]
  unfold Jwe.decryptJwt
  simp only [PyVal.getItem, ha, Bind.bind, Except.bind]
  rw [if_neg (by simp [none_truthy]), keySource_of_eff heff]
  simp only [hpick, hfk]
  rw [if_neg (by simp), show jweKind (.str "RSA1_5") = .ok .rsa by decide]
  simp only [decryptTry, if_true]
  rw [hloop _ 0 (fun x hx => hpre x (List.mem_of_mem_filter hx) ((hfp x).mp (List.of_mem_filter hx)))]

/-! ### C63: the number of segments -/

/-- **C63.** An accepted token has at least five segments. -/
theorem C63_five {E : Env} (hC : E.C.Lawful) {o : Jwe} {rnd : JweRnd} {token t : Bytes} {keys : List Key}
    {alg : PyVal} {cek m : Bytes} (ht : Received o token t)
    (h : (o.decrypt E rnd token keys alg cek).1 = .ok m) {segs : List Bytes} (hs : Segments t segs) :
    5 ≤ segs.length := by
  obtain ⟨_, _, _, _, _, _, _, _, _, _, hr, -⟩ := C60_authenticated hC ht h
  obtain ⟨s1, s2, s3, s4, hsg, -⟩ := hr.parts
  rw [C09_segments_unique hs hsg]
  simp

/-- **C63.** With a key wrap algorithm it has exactly five. -/
theorem C63_sym {E : Env} {o : Jwe} {rnd : JweRnd} {token t : Bytes} {keys : List Key}
    {alg : PyVal} {cek m : Bytes} (ht : Received o token t)
    (h : (o.decrypt E rnd token keys alg cek).1 = .ok m) {j : Jwt} (hj : Jwt.unpack t = .ok j) {hd : PyDict}
    (hh : j.headers = .dict hd) {a : String} (ha : PyDict.get? hd "alg" = some (.str a))
    (hA : ∃ x, a.toList = 'A' :: x) {segs : List Bytes} (hs : Segments t segs) : segs.length = 5 := by
  unfold Jwe.decrypt at h
  split at h
  swap
  · cases h
  rename_i m' c hdj
  cases h
  simp only [Bind.bind] at hdj
  obtain ⟨j', hj', hd1⟩ := bind_ok_iff.mp hdj
  have hun := tokenOf_received ht hj'
  rw [hj] at hun
  cases hun
  have hlen : segs.length = j.part.length := by
    obtain ⟨-, h2, h3, -⟩ := (C09_unpack_iff _ _).mp hj
    rw [C09_segments_unique hs h2, h3.length_eq]
  rw [hlen]
  unfold Jwe.decryptJwt at hd1
  simp only [Bind.bind] at hd1
  obtain ⟨halg, hha, hd2⟩ := bind_ok_iff.mp hd1
  obtain ⟨hd', hhd, hga⟩ := getItem_ok hha
  rw [hh] at hhd; cases hhd
  rw [ha] at hga; cases hga
  split at hd2
  · cases hd2
  obtain ⟨src, hsrc, hd3⟩ := bind_ok_iff.mp hd2
  obtain ⟨ks, hks, hd4⟩ := bind_ok_iff.mp hd3
  split at hd4
  · cases hd4
  obtain ⟨kind, hkind, hd5⟩ := bind_ok_iff.mp hd4
  have hsym : kind = .sym := by
    obtain ⟨x, hx⟩ := hA
    have hr : ¬ (a = "RSA-OAEP" ∨ a = "RSA-OAEP-256" ∨ a = "RSA1_5") := by
      rintro (rfl | rfl | rfl) <;>
      · injection hx with h1 _
        revert h1; decide
    simp only [jweKind, if_neg hr] at hkind
    split at hkind
    · cases hkind; rfl
    split at hkind
    · rename_i hec
      rw [startsWith_prefix, hx] at hec
      obtain ⟨y, hy⟩ := hec
      have : ("ECDH-ES" : String).toList = ['E', 'C', 'D', 'H', '-', 'E', 'S'] := by decide
      rw [this] at hy
      simp at hy
    · cases hkind
  subst hsym
  rcases decryptTry_inv hd5 with ⟨hc, hby⟩ | ⟨k, hk, ka, n, hka, hby⟩ <;>
  · simp only [decryptBy] at hby
    obtain ⟨r, hr, -⟩ := map_ok hby
    obtain ⟨ckey, -, hl, -⟩ := symDecrypt_inv hr
    exact hl

theorem partAt_more (j : Jwt) (b p : List Bytes) (i : Nat) (h : i < j.part.length) :
    (Jwt.mk j.headers (j.b64part ++ b) (j.part ++ p)).partAt i = j.partAt i := by
  unfold Jwt.partAt
  rw [List.getElem?_append_left h]

theorem header_more (j : Jwt) (b p : List Bytes) (h : j.b64part ≠ []) :
    (Jwt.mk j.headers (j.b64part ++ b) (j.part ++ p)).b64ProtectedHeader = j.b64ProtectedHeader := by
  unfold Jwt.b64ProtectedHeader
  rw [List.getElem?_append_left (List.length_pos_iff.mpr h)]

theorem joinDot_snoc : ∀ (l : List Bytes) (x : Bytes), l ≠ [] → joinDot (l ++ [x]) = joinDot l ++ 46 :: x
  | [], _, h => absurd rfl h
  | [s], x, _ => by simp [joinDot]
  | s :: a :: l, x, _ => by
    have := joinDot_snoc (a :: l) x (by simp)
    simp only [List.cons_append, joinDot, List.append_assoc] at this ⊢
    rw [this]

/-- **C63.** With RSA and Diffie-Hellman a further segment changes nothing. -/
theorem C63_extra {E : Env} {t x px : Bytes} {j : Jwt} (hj : Jwt.unpack t = .ok j) {segs : List Bytes}
    (hs : Segments t segs) (h5 : 5 ≤ segs.length) (hx : (46 : UInt8) ∉ x) (hpx : b64d x = .ok px)
    {hd : PyDict} (hh : j.headers = .dict hd) {a : String} (ha : PyDict.get? hd "alg" = some (.str a))
    (hA : ¬ ∃ y, a.toList = 'A' :: y) (o : Jwe) (rnd : JweRnd) (keys : List Key) (alg : PyVal) (cek : Bytes) :
    o.decrypt E rnd (t ++ 46 :: x) keys alg cek = o.decrypt E rnd t keys alg cek := by
  obtain ⟨h1, h2, h3, p0, rest, s, h4, h5', h6⟩ := (C09_unpack_iff _ _).mp hj
  have hl : j.b64part.length = j.part.length := h3.length_eq
  rw [C09_segments_unique hs h2] at h5
  have hne : j.b64part ≠ [] := h2.1
  have hu : Jwt.unpack (t ++ 46 :: x) = .ok (Jwt.mk j.headers (j.b64part ++ [x]) (j.part ++ [px])) := by
    rw [C09_unpack_iff]
    refine ⟨by simp, ⟨by simp, ?_, ?_⟩, ?_, p0, rest ++ [px], s, by simp [h4], h5', h6⟩
    · rw [← h2.2.1, joinDot_snoc _ _ hne]
    · intro y hy
      rcases List.mem_append.mp hy with hy | hy
      · exact h2.2.2 y hy
      · rw [List.mem_singleton.mp hy]; exact hx
    · exact List.rel_append h3 (.cons hpx .nil)
  refine decrypt_congr hj hu ?_
  have p1 := partAt_more j [x] [px] 1 (by omega)
  have p2 := partAt_more j [x] [px] 2 (by omega)
  have p3 := partAt_more j [x] [px] 3 (by omega)
  have p4 := partAt_more j [x] [px] 4 (by omega)
  have p0' := header_more j [x] [px] hne
  have hrsa : ∀ sent key cek, rsaDecrypt E false sent (Jwt.mk j.headers (j.b64part ++ [x]) (j.part ++ [px])) key cek =
      rsaDecrypt E false sent j key cek := by
    intro sent key cek
    unfold rsaDecrypt
    rw [p1, p2, p3, p4, p0']
  have hsetup : ∀ k, ecDecSetup E (Jwt.mk j.headers (j.b64part ++ [x]) (j.part ++ [px])) k = ecDecSetup E j k := by
    intro k
    unfold ecDecSetup
    rw [p1, p2, p3, p4]
  have hec : ∀ s, ecDecrypt E (Jwt.mk j.headers (j.b64part ++ [x]) (j.part ++ [px])) s = ecDecrypt E j s := by
    intro s
    unfold ecDecrypt
    rw [p0']
  unfold Jwe.decryptJwt
  simp only [hh, PyVal.getItem, ha, Bind.bind, Except.bind]
  split
  · rfl
  generalize o.keySource E keys = src
  rcases src with e | src
  · rfl
  simp only
  generalize o.pickKeys jweAlg2keytype src "enc" (.str a) = ks
  rcases ks with e | ks
  · rfl
  simp only
  split
  · rfl
  cases hkind : jweKind (.str a) with
  | error e => rfl
  | ok kind =>
    cases kind with
    | rsa => exact decryptTry_congr (fun sent key cek => by simp only [decryptBy]; rw [← hh, hrsa]) _ _ _
    | sym =>
      obtain ⟨s', hs', hk⟩ := jweKind_inv hkind
      cases hs'
      obtain ⟨y, hy, -⟩ := hk
      exact absurd ⟨y, hy⟩ hA
    | ec =>
      rcases ks with _ | ⟨k, l⟩
      · rfl
      simp only
      rw [← hh, hsetup]
      rcases ecDecSetup E j k with e | s
      · rfl
      · exact decryptTry_congr (fun sent key cek => by simp only [decryptBy]; rw [hec]) _ _ _

/-! ### C64: generated keys and ivs -/

theorem lookup_mem {β : Type} {s : String} {b : β} : ∀ {l : List (String × β)}, List.lookup s l = some b → (s, b) ∈ l
  | [], h => by cases h
  | (k, v) :: l, h => by
    rw [List.lookup_cons] at h
    split at h
    · rename_i hk
      cases h
      rw [beq_iff_eq] at hk
      subst hk; simp
    · exact List.mem_cons_of_mem _ (lookup_mem h)

/-- **C64.** Supplied values are kept, missing ones are drawn with the sizes of the algorithm. -/
theorem C64_sizes {rnd : JweRnd} (hr : RndLengths rnd) {enc : String} {n i : Nat} (he : EncName enc n i)
    (cek iv : Bytes) : ∃ c v, generateKeyAndIv rnd (.str enc) cek iv = .ok (c, v) ∧
      (cek ≠ [] → c = cek) ∧ (iv ≠ [] → v = iv) ∧ (cek = [] → c = rnd.key n ∧ c.length = n) ∧
      (iv = [] → v = rnd.iv i ∧ v.length = i) := by
  refine ⟨if cek ≠ [] then cek else rnd.key n, if iv ≠ [] then iv else rnd.iv i, ?_, ?_, ?_, ?_, ?_⟩
  · unfold generateKeyAndIv
    by_cases h : cek ≠ [] ∧ iv ≠ []
    · rw [if_pos h, if_pos h.1, if_pos h.2]
    · rw [if_neg h]
      cases he <;> rfl
  · intro h; rw [if_pos h]
  · intro h; rw [if_pos h]
  · intro h; rw [if_neg (by simpa using h)]; exact ⟨rfl, hr.1 n⟩
  · intro h; rw [if_neg (by simpa using h)]; exact ⟨rfl, hr.2 i⟩

/-- **C64.** Any other algorithm raises, unless both values are supplied, which are then returned
unseen, whatever their lengths. -/
theorem C64_unknown (rnd : JweRnd) (enc : PyVal) (hne : ∀ s n i, EncName s n i → enc ≠ .str s) (cek iv : Bytes) :
    (cek ≠ [] ∧ iv ≠ [] ∧ generateKeyAndIv rnd enc cek iv = .ok (cek, iv)) ∨
    ((cek = [] ∨ iv = []) ∧ ∃ e, generateKeyAndIv rnd enc cek iv = .error e ∧
      (e = .generic ∨ (e = .typeError ∧ ((∃ l, enc = .list l) ∨ ∃ d, enc = .dict d)))) := by
  unfold generateKeyAndIv
  by_cases h : cek ≠ [] ∧ iv ≠ []
  · rw [if_pos h]; exact .inl ⟨h.1, h.2, rfl⟩
  · rw [if_neg h]
    refine .inr ⟨by tauto, ?_⟩
    cases enc with
    | str s =>
      have hl : List.lookup s encAlgLen = none := by
        cases hs : List.lookup s encAlgLen with
        | none => rfl
        | some p =>
          exfalso
          have hmem : ∃ n i, (s, n, i) ∈ encAlgLen := ⟨p.1, p.2, lookup_mem hs⟩
          obtain ⟨n, i, hmem⟩ := hmem
          simp only [encAlgLen, List.mem_cons, Prod.mk.injEq, List.not_mem_nil, or_false] at hmem
          rcases hmem with ⟨rfl, rfl, rfl⟩ | ⟨rfl, rfl, rfl⟩ | ⟨rfl, rfl, rfl⟩ | ⟨rfl, rfl, rfl⟩ |
            ⟨rfl, rfl, rfl⟩ | ⟨rfl, rfl, rfl⟩
          · exact hne _ _ _ .g128 rfl
          · exact hne _ _ _ .g192 rfl
          · exact hne _ _ _ .g256 rfl
          · exact hne _ _ _ .c128 rfl
          · exact hne _ _ _ .c192 rfl
          · exact hne _ _ _ .c256 rfl
      simp only [hl]
      exact ⟨_, rfl, .inl rfl⟩
    | list l => exact ⟨_, rfl, .inr ⟨rfl, .inl ⟨_, rfl⟩⟩⟩
    | dict l => exact ⟨_, rfl, .inr ⟨rfl, .inr ⟨_, rfl⟩⟩⟩
    | _ => exact ⟨_, rfl, .inl rfl⟩

/-! ### C65: encrypting to a public key -/

theorem ec_encryptWith {E : Env} {o : Jwe} {rnd : JweRnd} {k : Key} {alg : String} {m : KeyMgmt}
    (hm : MgmtName alg m) (hec : MgmtType m = ("ec", "EC")) (cek iv : Bytes) (kid : Option PyVal) :
    o.encryptWith E rnd (.str alg) k cek iv kid =
      (o.ecEncSetup E o.symEncrypter.dict rnd k).bind fun s => (attrOf o.dict "enc").bind fun enc =>
        (k.encryptionKey E (if enc.truthy then enc else .str alg) true).bind fun _ =>
          ((o.symEncrypter.setKid k).ecEncrypt E rnd s.1 s.2.1 s.2.2.1 s.2.2.2 kid).bind fun t => .ok (t, .none) := by
  have hkind : jweKind (.str alg) = .ok .ec := by
    rw [mgmt_kind hm]
    cases m <;> first | rfl | (exfalso; simp [MgmtType] at hec)
  unfold Jwe.encryptWith
  simp only [hkind, Bind.bind, Except.bind]

/-- **C65.** Diffie-Hellman encryption to a key object without a private part never returns. -/
theorem C65_public {E : Env} {o : Jwe} {rnd : JweRnd} {keys l : List Key} {wk : PyVal} {k : Key} {alg : String}
    {m : KeyMgmt} (hm : MgmtName alg m) (hec : MgmtType m = ("ec", "EC"))
    (halg : PyDict.get? o.dict "alg" = some (.str alg)) (heff : EffKeys o.toJwx keys l)
    (hsk : SignKid o.toJwx wk) (hf : FirstPicked m alg wk l k) {crv x y : PyVal} {d : PyVal} {c : KObj}
    (hk : k.mat = .ec crv x y d c) (hd : d.truthy = false) (cek iv : Bytes) (kid : Option PyVal) (t : String) :
    (o.encrypt E rnd keys cek iv kid).1 ≠ .ok t := by
  rw [encrypt_of_first halg hm heff hsk hf, ec_encryptWith hm hec]
  have hke : ∀ a, k.encryptionKey E a true = .error .valueError := by
    intro a
    simp [Key.encryptionKey, hk, Key.getKey, hd]
  rcases o.ecEncSetup E o.symEncrypter.dict rnd k with e | s
  · simp [Except.bind, Except.map]
  · rcases attrOf o.dict "enc" with e | enc
    · simp [Except.bind, Except.map]
    · simp [Except.bind, Except.map, hke]

/-- **C65.** The missing private part is the only obstacle, and it is not used: if encryption to the
same key with any private part returns, then without it the call raises `ValueError`. -/
theorem C65_needless {E : Env} {o : Jwe} {rnd : JweRnd} {wk : PyVal} {k : Key} {alg : String}
    {m : KeyMgmt} (hm : MgmtName alg m) (hec : MgmtType m = ("ec", "EC"))
    (halg : PyDict.get? o.dict "alg" = some (.str alg)) (hsk : SignKid o.toJwx wk) (hp : EncPicked m alg wk k)
    {crv x y d d' : PyVal} {c : KObj} (hk : k.mat = .ec crv x y d c) (hd : d.truthy = false)
    {cek iv : Bytes} {kid : Option PyVal} {t : String}
    (h : (o.encrypt E rnd [{ k with mat := .ec crv x y d' c }] cek iv kid).1 = .ok t) :
    (o.encrypt E rnd [k] cek iv kid).1 = .error .valueError := by
  rw [encrypt_of_first halg hm (keys := [{ k with mat := .ec crv x y d' c }])
    (l := [{ k with mat := .ec crv x y d' c }]) (.inl ⟨by simp, rfl⟩) hsk (k := { k with mat := .ec crv x y d' c })
    ⟨[], [], rfl, hp, by simp⟩, ec_encryptWith hm hec] at h
  rw [encrypt_of_first halg hm (keys := [k]) (l := [k]) (.inl ⟨by simp, rfl⟩) hsk (k := k) ⟨[], [], rfl, hp, by simp⟩,
    ec_encryptWith hm hec]
  have hsame : o.ecEncSetup E o.symEncrypter.dict rnd { k with mat := .ec crv x y d' c } =
      o.ecEncSetup E o.symEncrypter.dict rnd k := by
    unfold Jwe.ecEncSetup
    simp only [ecAttrs, hk]
    rfl
  rw [hsame] at h
  have hke : ∀ a, k.encryptionKey E a true = .error .valueError := by
    intro a
    simp [Key.encryptionKey, hk, Key.getKey, hd]
  generalize o.ecEncSetup E o.symEncrypter.dict rnd k = w at h ⊢
  generalize attrOf o.dict "enc" = ev at h ⊢
  rcases w with e | s
  · simp [Except.bind, Except.map] at h
  · rcases ev with e | enc
    · simp [Except.bind, Except.map] at h
    · simp [Except.bind, Except.map, hke]

/-! ### C27: `is_jwe` -/

theorem strIn_alg (v : PyVal) : strIn v jweSupportedAlg = true ↔ ∃ a, v = .str a ∧ Supported a := by
  constructor
  · intro h
    cases v with
    | str s =>
      refine ⟨s, rfl, ?_⟩
      simp only [strIn, jweSupportedAlg, List.contains_iff_mem, List.mem_cons, List.not_mem_nil, or_false] at h
      rcases h with rfl | rfl | rfl | rfl | rfl | rfl | rfl | rfl | rfl | rfl
      exacts [⟨_, .rsa15⟩, ⟨_, .oaep⟩, ⟨_, .oaep256⟩, ⟨_, .a128⟩, ⟨_, .a192⟩, ⟨_, .a256⟩, ⟨_, .dir⟩,
        ⟨_, .ec128⟩, ⟨_, .ec192⟩, ⟨_, .ec256⟩]
    | _ => cases h
  · rintro ⟨a, rfl, m, h⟩
    cases h <;> decide

theorem strIn_enc (v : PyVal) : strIn v jweSupportedEnc = true ↔ ∃ a n i, v = .str a ∧ EncName a n i := by
  constructor
  · intro h
    cases v with
    | str s =>
      simp only [strIn, jweSupportedEnc, List.contains_iff_mem, List.mem_cons, List.not_mem_nil, or_false] at h
      rcases h with rfl | rfl | rfl | rfl | rfl | rfl
      exacts [⟨_, _, _, rfl, .c128⟩, ⟨_, _, _, rfl, .c192⟩, ⟨_, _, _, rfl, .c256⟩, ⟨_, _, _, rfl, .g128⟩,
        ⟨_, _, _, rfl, .g192⟩, ⟨_, _, _, rfl, .g256⟩]
    | _ => cases h
  · rintro ⟨a, n, i, rfl, h⟩
    cases h <;> decide

/-- The word JWE in any case. -/
def Spec.TypJwe (s : String) : Prop :=
  ∃ a b c, s.toList = [a, b, c] ∧ a ∈ ['j', 'J'] ∧ b ∈ ['w', 'W'] ∧ c ∈ ['e', 'E']

/-- The header names a supported key management algorithm and a content encryption algorithm. -/
def Spec.NamesJwe (h : PyDict) : Prop :=
  ∃ a e n i, PyDict.get? h "alg" = some (.str a) ∧ Supported a ∧ PyDict.get? h "enc" = some (.str e) ∧ EncName e n i

theorem toLower_toNat (c : Char) : c.toLower.toNat = if 65 ≤ c.toNat ∧ c.toNat ≤ 90 then c.toNat + 32 else c.toNat := by
  unfold Char.toLower
  have e1 : (c.val ≥ 'A'.val) ↔ 65 ≤ c.toNat := Iff.rfl
  have e2 : (c.val ≤ 'Z'.val) ↔ c.toNat ≤ 90 := Iff.rfl
  split
  · rename_i h
    rw [e1, e2] at h
    rw [if_pos h]
    show (c.val + ('a'.val - 'A'.val)).toNat = _
    rw [UInt32.toNat_add]
    show (c.toNat + 32) % 2^32 = _
    omega
  · rename_i h
    rw [e1, e2] at h
    rw [if_neg h]

theorem toLower_iff (c : Char) (lo up : Char) (h1 : 97 ≤ lo.toNat) (h2 : lo.toNat ≤ 122)
    (h3 : up.toNat + 32 = lo.toNat) : c.toLower = lo ↔ c ∈ [lo, up] := by
  simp only [List.mem_cons, List.not_mem_nil, or_false, ← Char.toNat_inj, toLower_toNat]
  split <;> omega

theorem typJwe_iff (s : String) : pyLower s = "jwe" ↔ TypJwe s := by
  unfold pyLower TypJwe
  have hj : ("jwe" : String) = String.ofList ['j', 'w', 'e'] := by decide
  rw [hj, String.ofList_inj]
  constructor
  · intro h
    rcases hs : s.toList with _ | ⟨a, _ | ⟨b, _ | ⟨c, _ | ⟨d, l⟩⟩⟩⟩ <;> rw [hs] at h <;> simp at h
    refine ⟨a, b, c, rfl, ?_, ?_, ?_⟩
    · exact (toLower_iff a 'j' 'J' (by decide) (by decide) (by decide)).mp h.1
    · exact (toLower_iff b 'w' 'W' (by decide) (by decide) (by decide)).mp h.2.1
    · exact (toLower_iff c 'e' 'E' (by decide) (by decide) (by decide)).mp h.2.2
  · rintro ⟨a, b, c, hs, ha, hb, hc⟩
    rw [hs]
    simp only [List.map_cons, List.map_nil, List.cons.injEq, and_true]
    exact ⟨(toLower_iff a 'j' 'J' (by decide) (by decide) (by decide)).mpr ha,
      (toLower_iff b 'w' 'W' (by decide) (by decide) (by decide)).mpr hb,
      (toLower_iff c 'e' 'E' (by decide) (by decide) (by decide)).mpr hc⟩

theorem isJwe_algs (h : PyDict) : ∃ b, (do
    let both ← (if ← (PyVal.dict h).contains "alg" then (PyVal.dict h).contains "enc" else .ok false)
    if both then
      let alg ← (PyVal.dict h).getItem "alg"
      if strIn alg jweSupportedAlg then
        let enc ← (PyVal.dict h).getItem "enc"
        .ok (strIn enc jweSupportedEnc)
      else .ok false
    else .ok false : PyM Bool) = .ok b ∧ (b = true ↔ NamesJwe h) := by
  have hnn : ¬ NamesJwe h ↔ ¬ ((∃ v, PyDict.get? h "alg" = some v ∧ strIn v jweSupportedAlg = true) ∧
      ∃ v, PyDict.get? h "enc" = some v ∧ strIn v jweSupportedEnc = true) := by
    rw [not_iff_not]
    constructor
    · rintro ⟨a, e, n, i, h1, h2, h3, h4⟩
      exact ⟨⟨_, h1, (strIn_alg _).mpr ⟨a, rfl, h2⟩⟩, _, h3, (strIn_enc _).mpr ⟨e, n, i, rfl, h4⟩⟩
    · rintro ⟨⟨v, h1, h2⟩, w, h3, h4⟩
      obtain ⟨a, rfl, h2'⟩ := (strIn_alg _).mp h2
      obtain ⟨e, n, i, rfl, h4'⟩ := (strIn_enc _).mp h4
      exact ⟨a, e, n, i, h1, h2', h3, h4'⟩
  have hn := not_iff_not.mp hnn
  simp only [PyVal.contains, PyVal.getItem, PyDict.has, Bind.bind, Except.bind]
  rw [hn]
  cases h1 : PyDict.get? h "alg" with
  | none => exact ⟨false, rfl, by simp⟩
  | some a =>
    cases h2 : PyDict.get? h "enc" with
    | none => exact ⟨false, rfl, by simp⟩
    | some e =>
      cases h3 : strIn a jweSupportedAlg with
      | false => exact ⟨false, by simp [h3], by simp [h3]⟩
      | true => exact ⟨strIn e jweSupportedEnc, by simp [h3], by simp [h3]⟩

/-- **C27.** `is_jwe` of a token with a JSON object as header: without `typ` it is the question for the
two algorithms; a text `typ` that is JWE in any case is enough, another one leaves it to the
algorithms; a `typ` that is no text raises `AttributeError`. -/
theorem C27_jwe (j : Jwt) (h : PyDict) (hj : j.headers = .dict h) :
    (PyDict.get? h "typ" = none → ∃ b, j.isJwe = .ok b ∧ (b = true ↔ NamesJwe h)) ∧
    (∀ s, PyDict.get? h "typ" = some (.str s) → ∃ b, j.isJwe = .ok b ∧ (b = true ↔ TypJwe s ∨ NamesJwe h)) ∧
    (∀ v, PyDict.get? h "typ" = some v → (∀ s, v ≠ .str s) → (∀ s, v ≠ .bytes s) → j.isJwe = .error .attributeError) := by
  obtain ⟨b, hb, hbi⟩ := isJwe_algs h
  unfold Jwt.isJwe
  rw [hj]
  have hc : (PyVal.dict h).contains "typ" = .ok (PyDict.get? h "typ").isSome := rfl
  refine ⟨fun ht => ⟨b, ?_, hbi⟩, fun s ht => ?_, fun v ht h1 h2 => ?_⟩
  · rw [hc, ht]
    exact hb
  · by_cases hs : TypJwe s
    · refine ⟨true, ?_, by simp [hs]⟩
      rw [hc, ht]
      simp [Bind.bind, Except.bind, PyVal.getItem, ht, PyVal.lower, (typJwe_iff s).mpr hs]
    · refine ⟨b, ?_, by simp [hs, hbi]⟩
      have hl : (PyVal.str (pyLower s) == .str "jwe") = false := by
        simpa using fun h => hs ((typJwe_iff s).mp h)
      rw [hc, ht]
      simp only [Bind.bind, Except.bind, PyVal.getItem, ht, PyVal.lower, hl, Option.isSome_some, if_true]
      exact hb
  · rw [hc, ht]
    simp only [Bind.bind, Except.bind, PyVal.getItem, ht, Option.isSome_some, if_true]
    cases v <;> first | rfl | exact absurd rfl (h1 _) | exact absurd rfl (h2 _)

/-- **C27.** `jwe.factory` gives an object that holds the token exactly if `is_jwe` says yes; anything
else is `None`, or the error of unpacking or of `is_jwe`. -/
theorem C27_jwe_factory (token : Bytes) (r : Option Jwe) :
    jweFactory token = .ok r ↔ ∃ j b, Jwt.unpack token = .ok j ∧ j.isJwe = .ok b ∧
      ((b = true ∧ ∃ o, r = some o ∧ o = { jwt := some j } ∧ Received o [] token) ∨ (b = false ∧ r = none)) := by
  unfold jweFactory
  constructor
  · intro h
    simp only [Bind.bind] at h
    obtain ⟨j, hj, h1⟩ := bind_ok_iff.mp h
    obtain ⟨b, hb, h2⟩ := bind_ok_iff.mp h1
    refine ⟨j, b, hj, hb, ?_⟩
    cases b
    · simp at h2; exact .inr ⟨rfl, h2.symm⟩
    · simp at h2; exact .inl ⟨rfl, _, h2.symm, rfl, .inr ⟨rfl, j, rfl, hj⟩⟩
  · rintro ⟨j, b, hj, hb, ⟨rfl, o, rfl, rfl, -⟩ | ⟨rfl, rfl⟩⟩ <;> simp [hj, hb, Bind.bind, Except.bind]

/-! ### Examples -/

/-- A token with a given header text. -/
def exTok (head : String) (ek iv ct tag : Bytes) : Bytes :=
  b64e (utf8Encode head) ++ 46 :: b64e ek ++ 46 :: b64e iv ++ 46 :: b64e ct ++ 46 :: b64e tag

/-- Every content key opens some ciphertext under every header. -/
theorem exContent (E : Env) (hC : E.C.Lawful) (hH : E.H.Lawful) (s0 : Bytes) (h : s0.length < 2 ^ 61) :
    ∃ ct tag, jweDecrypt E (.str "A128GCM") (List.replicate 16 7) ct s0 (List.replicate 12 9) tag = .ok (ascii "hi") := by
  obtain ⟨ct, tag, h⟩ := encSetup_total (E := E) hC hH (rnd := exRnd) .g128
    (m := ascii "hi") (aad := s0) (key := List.replicate 16 7)
    (iv := List.replicate 12 9) (by simp) (by simp) (by decide) h
  obtain ⟨m, hm, -, hd⟩ := encSetup_roundtrip hC hH (by simp) (by simp) h
  cases hm
  exact ⟨ct, tag, hd⟩

/-- C61_unchecked: the algorithm `AxKW` does not exist. -/
example : ∃ ct tag, (Jwe.decrypt toyEnv {} exRnd (exTok "{\"alg\":\"AxKW\",\"enc\":\"A128GCM\"}" [] (List.replicate 12 9) ct tag)
    [] .none (List.replicate 16 7)).1 = .ok (ascii "hi") := by
  obtain ⟨ct, tag, h⟩ := exContent toyEnv toyCipher_lawful toyHashes_lawful
    (b64e (utf8Encode "{\"alg\":\"AxKW\",\"enc\":\"A128GCM\"}")) (by decide +kernel)
  exact ⟨ct, tag, C61_unchecked (h' := [("alg", .str "AxKW"), ("enc", .str "A128GCM")]) (a := "AxKW") (ek := [])
    ⟨rfl, _, rfl, by decide +kernel⟩ ⟨['x', 'K', 'W'], by decide, by decide⟩ rfl rfl exRnd (by simp) h⟩

theorem toyEnv_quiet : LibQuiet toyEnv where
  dec15 k ct e h := by
    simp only [toyEnv, toyRsa] at h
    split at h
    · cases h
    · cases h; decide
  oaep a k ct e h := by
    simp only [toyEnv, toyRsa] at h
    split at h
    · split at h
      · cases h
      · cases h; decide
    · cases h; decide
  zlib b e h := by
    simp only [toyEnv, toyZlib] at h
    split at h
    · cases h
    · cases h; decide

/-- A second shared key. -/
def exOther : Key := { exShared with key := .val (.bytes (ascii "other")) }

theorem exOther_picked : EncPicked (.wrap 16) "A128KW" .none exOther :=
  ⟨.inl rfl, by decide, by decide, by decide⟩

theorem zipWith_add_sub : ∀ (b k : Bytes), b.length ≤ k.length →
    List.zipWith (· - ·) (List.zipWith (· + ·) b k) k = b ∧ List.zipWith (· + ·) (List.zipWith (· - ·) b k) k = b
  | [], _, _ => by simp
  | x :: b, [], h => by simp at h
  | x :: b, y :: k, h => by
    obtain ⟨h1, h2⟩ := zipWith_add_sub b k (by simpa using h)
    simp only [List.zipWith_cons_cons, List.cons.injEq, UInt8.add_sub_cancel, UInt8.sub_add_cancel, true_and]
    exact ⟨h1, h2⟩

/-- A lawful cipher for which unwrapping notices a wrong key in the example. -/
def addCipher : BlockCipher where
  enc k b := (List.zipWith (· + ·) b k).reverse
  dec k b := List.zipWith (· - ·) b.reverse k

theorem addCipher_lawful : addCipher.Lawful where
  enc_length k b hk hb := by have := aesKeyOk_length hk; simp [addCipher]; omega
  dec_length k b hk hb := by have := aesKeyOk_length hk; simp [addCipher]; omega
  dec_enc k b hk hb := by
    have := aesKeyOk_length hk
    simp [addCipher, (zipWith_add_sub b k (by omega)).1]
  enc_dec k b hk hb := by
    have := aesKeyOk_length hk
    simp [addCipher, (zipWith_add_sub b.reverse k (by simp; omega)).2]

/-- The environment with this cipher. -/
def addEnv : Env := { toyEnv with C := addCipher }

theorem addEnv_quiet : LibQuiet addEnv := ⟨toyEnv_quiet.dec15, toyEnv_quiet.oaep, toyEnv_quiet.zlib⟩

/-- C62_abort_sym, C62_first: a token for `exShared` is opened by `[exShared]` and by
`[exShared, exOther]`, while `[exOther, exShared]` raises `ValueError`. -/
example : ∃ token, (Jwe.decrypt addEnv {} exRnd token [exShared]).1 = .ok (ascii "hi") ∧
    (Jwe.decrypt addEnv {} exRnd token [exShared, exOther]).1 = .ok (ascii "hi") ∧
    (Jwe.decrypt addEnv {} exRnd token [exOther, exShared]).1 = .error .valueError := by
  obtain ⟨ct, tag, hd⟩ := exContent addEnv addCipher_lawful toyHashes_lawful (b64e (utf8Encode exJweHead)) (by decide +kernel)
  have hp := exJweParts [82, 166, 166, 166, 166, 166, 166, 166, 15, 7, 7, 7, 7, 7, 7, 179, 3, 7, 7, 7, 7, 7, 7, 179]
    (List.replicate 12 9) ct tag
  obtain ⟨hb, hun⟩ := jweParts_unpack hp
  have h := sym_decrypt_token (E := addEnv) toyHashes_lawful (o := {}) (rnd := exRnd) (keys := [exShared])
    .a128 hp rfl rfl exShared_ok (.inl ⟨by simp, rfl⟩)
    (.inr ⟨rfl, .inl ⟨rfl, rfl⟩⟩) ⟨[], [], rfl, exShared_picked, by simp⟩
    (cek := List.replicate 16 7) (by decide +kernel) hd
  refine ⟨_, h, ?_, ?_⟩
  · exact (C62_first addEnv_quiet (o := {}) (keys := [exShared, exOther]) (l := [exShared, exOther]) hun rfl rfl .a128 (by decide)
      (.inl ⟨by simp, rfl⟩) (.inr ⟨rfl, .inl ⟨rfl, rfl⟩⟩) ⟨[], [exOther], rfl, exShared_picked, by simp⟩ _).mpr h
  · exact C62_abort_sym (E := addEnv) toyHashes_lawful .a128 hp rfl (o := {})
      (keys := [exOther, exShared]) (l := [exOther, exShared]) (secret := ascii "other") ⟨⟨_, rfl⟩, rfl, by decide⟩
      (.inl ⟨by simp, rfl⟩) (.inr ⟨rfl, .inl ⟨rfl, rfl⟩⟩) ⟨[], [exShared], rfl, exOther_picked, by simp⟩
      (by decide +kernel)

/-- The header of the RSA examples. -/
def exRsaHead (alg : String) : String := "{\"alg\":\"" ++ alg ++ "\",\"enc\":\"A128GCM\"}"

/-- C62_abort_rsa: a public key in front of the private one. -/
example (iv ct tag : Bytes) : (Jwe.decrypt toyEnv {} exRnd (exTok (exRsaHead "RSA-OAEP") [4, 7] iv ct tag)
    [exRsaPub, exRsaPriv]).1 = .error .typeError :=
  C62_abort_rsa toyEnv_quiet (h' := [("alg", .str "RSA-OAEP"), ("enc", .str "A128GCM")]) .oaep
    ⟨rfl, _, rfl, by decide +kernel⟩ rfl (o := {}) (keys := [exRsaPub, exRsaPriv]) (l := [exRsaPub, exRsaPriv])
    ⟨⟨_, rfl⟩, rfl⟩ (.inl ⟨by simp, rfl⟩) (.inr ⟨rfl, .inl ⟨rfl, rfl⟩⟩)
    ⟨[], [exRsaPriv], rfl, ⟨.inr (.inl rfl), by decide, by decide, by decide⟩, by simp⟩ (.inr (.inl ⟨rfl, rfl⟩))

/-- An environment in which the padding is wrong for the key with modulus 15. -/
def pickyEnv : Env := { toyEnv with R := { toyRsa with dec15 := fun k c => if k.n = 15 then .ok none else toyRsa.dec15 k c } }

/-- An RSA key object with modulus 15. -/
def exRsa15 : Key := { exRsaPub with key := .rsa ⟨15, 3, some (3, 3, 5)⟩ }

/-- C62_pkcs1: the wrong key in front does not matter. -/
example : ∃ ct tag, (Jwe.decrypt pickyEnv {} { exRnd with sentinel := fun _ => [1] }
    (exTok (exRsaHead "RSA1_5") (3 :: List.replicate 16 7) (List.replicate 12 9) ct tag)
    [exRsa15, exRsaPriv]).1 = .ok (ascii "hi") := by
  obtain ⟨ct, tag, h⟩ := exContent pickyEnv toyCipher_lawful toyHashes_lawful
    (b64e (utf8Encode (exRsaHead "RSA1_5"))) (by decide +kernel)
  exact ⟨ct, tag, C62_pkcs1 (h' := [("alg", .str "RSA1_5"), ("enc", .str "A128GCM")])
    ⟨rfl, _, rfl, by decide +kernel⟩ rfl rfl .g128 rfl (o := {}) (keys := [exRsa15, exRsaPriv])
    (l := [exRsa15, exRsaPriv]) (pre := [exRsa15]) (post := []) (.inl ⟨by simp, rfl⟩)
    (.inr ⟨rfl, .inl ⟨rfl, rfl⟩⟩) rfl
    (by intro x hx _; rw [List.mem_singleton.mp hx]; exact ⟨_, ⟨⟨_, rfl⟩, rfl⟩, rfl⟩)
    ⟨.inr (.inl rfl), by decide, by decide, by decide⟩ ⟨⟨_, rfl⟩, rfl⟩ (c := List.replicate 16 7) (by decide)
    (by intro i; show ([1] : Bytes) ≠ _; decide) h⟩

/-- C63_five, C63_sym. -/
example : ∃ token, (Jwe.decrypt toyEnv {} exRnd token [exShared]).1 = .ok (ascii "hi") ∧
    ∀ segs, Segments token segs → segs.length = 5 ∧ 5 ≤ segs.length := by
  obtain ⟨ct, tag, h⟩ := exOpens
  have h := h 0 exRnd
  obtain ⟨hb, hun⟩ := jweParts_unpack (exJweParts exEk (List.replicate 0 0 ++ List.replicate 12 9) ct tag)
  exact ⟨_, h, fun segs hs => ⟨C63_sym (.inl ⟨exToken_ne _ _ _ _, rfl⟩) h hun rfl (a := "A128KW") rfl
    ⟨['1', '2', '8', 'K', 'W'], by decide⟩ hs, C63_five toyCipher_lawful (.inl ⟨exToken_ne _ _ _ _, rfl⟩) h hs⟩⟩

/-- C63_extra: a sixth segment `AA`. -/
example (ek iv ct tag : Bytes) (rnd : JweRnd) (keys : List Key) :
    Jwe.decrypt toyEnv {} rnd (exTok (exRsaHead "RSA-OAEP") ek iv ct tag ++ 46 :: ascii "AA") keys =
    Jwe.decrypt toyEnv {} rnd (exTok (exRsaHead "RSA-OAEP") ek iv ct tag) keys := by
  have hp : JweParts (exTok (exRsaHead "RSA-OAEP") ek iv ct tag) (b64e (utf8Encode (exRsaHead "RSA-OAEP")))
    (.dict [("alg", .str "RSA-OAEP"), ("enc", .str "A128GCM")]) ek iv ct tag := ⟨rfl, _, rfl, by decide +kernel⟩
  obtain ⟨hb, hun⟩ := jweParts_unpack hp
  obtain ⟨-, h2, -⟩ := (C09_unpack_iff _ _).mp hun
  refine C63_extra hun h2 (by simp) (by decide) (px := [0]) (by decide +kernel) rfl (a := "RSA-OAEP") rfl ?_ _ _ _ _ _
  rintro ⟨y, hy⟩
  have : ("RSA-OAEP" : String).toList = ['R', 'S', 'A', '-', 'O', 'A', 'E', 'P'] := by decide
  rw [this] at hy
  simp at hy

/-- C64_sizes, C64_unknown. -/
example : ∃ c v, generateKeyAndIv exRnd (.str "A192CBC-HS384") [] [5] = .ok (c, v) ∧ c.length = 48 ∧ v = [5] := by
  obtain ⟨c, v, h, -, h2, h3, -⟩ := C64_sizes exRnd_lengths .c192 [] [5]
  exact ⟨c, v, h, (h3 rfl).2, h2 (by simp)⟩
example : (∀ s n i, EncName s n i → PyVal.str "A128" ≠ .str s) ∧
    generateKeyAndIv exRnd (.str "A128") [1] [2] = .ok ([1], [2]) := by
  refine ⟨fun s n i h => ?_, rfl⟩
  cases h <;> decide

/-- C65_public and C65_needless: the key pair of C59's example, without its private number. -/
example : ∃ o : Jwe, (o.encrypt toyEnv exRnd [exEcKey]).1.isOk ∧ ∀ (k : Key) x y d c,
    k.mat = .ec (.str "P-256") x y .none c → exEcKey = { k with mat := .ec (.str "P-256") x y d c } →
    (o.encrypt toyEnv exRnd [k]).1 = .error .valueError ∧ ∀ t, (o.encrypt toyEnv exRnd [exShared, k]).1 ≠ .ok t := by
  obtain ⟨X, Y, h1, h2, h3⟩ := exEcKey_ok
  have h0 : ((P256.keyPair exRnd.eph).2.map fun p => decide (p.1 = 0)) = some false := by decide +kernel
  obtain ⟨o, t, ho, ht, -⟩ := C59_total (E := toyEnv) toyCipher_lawful toyHashes_lawful exRnd_lengths (by decide +kernel)
    (by decide +kernel) .ec192 trivial .c128 (msgv := .str "hello") (.inl ⟨_, rfl, rfl⟩) (by decide +kernel) h2 h3 h3
    (by decide +kernel) h1 (by intro y hy; rw [hy] at h0; cases h0)
    ⟨.inr (.inl rfl), by decide, by decide, by decide⟩ ⟨.inr (.inl rfl), by decide, by decide, by decide⟩ (by decide)
  cases ho
  refine ⟨_, by rw [ht]; rfl, ?_⟩
  intro k x y d c hmat heq
  have hpk : EncPicked (.agreeWrap 24) "ECDH-ES+A192KW" .none k := by
    have : EncPicked (.agreeWrap 24) "ECDH-ES+A192KW" .none exEcKey :=
      ⟨.inr (.inl rfl), by decide, by decide, by decide⟩
    rw [heq] at this
    exact this
  rw [heq] at ht
  constructor
  · exact C65_needless (t := t) .ec192 rfl rfl (.inr ⟨rfl, .inl ⟨rfl, rfl⟩⟩) hpk hmat rfl (d' := d) ht
  · intro t'
    refine C65_public .ec192 rfl rfl (keys := [exShared, k]) (l := [exShared, k]) (.inl ⟨by simp, rfl⟩)
      (.inr ⟨rfl, .inl ⟨rfl, rfl⟩⟩) ⟨[exShared], [], rfl, hpk, ?_⟩ hmat rfl [] [] none t'
    intro x hx
    rw [List.mem_singleton.mp hx]
    rintro ⟨h, -⟩
    rcases h with h | h | h <;> simp [exShared, MgmtType] at h

/-- C27_jwe, C27_jwe_factory. -/
example : (Jwt.mk (.dict [("typ", .str "jWe")]) [] []).isJwe = .ok true ∧
    (Jwt.mk (.dict [("typ", .int 1)]) [] []).isJwe = .error .attributeError ∧
    (∃ o, jweFactory (exJweToken [1] [2] [3] [4]) = .ok (some o)) := by
  refine ⟨?_, (C27_jwe _ _ rfl).2.2 _ rfl (by simp) (by simp), ?_⟩
  · obtain ⟨b, h1, h2⟩ := (C27_jwe (Jwt.mk (.dict [("typ", .str "jWe")]) [] []) _ rfl).2.1 "jWe" rfl
    rw [h1, h2.mpr (.inl ⟨'j', 'W', 'e', by decide, by simp, by simp, by simp⟩)]
  · obtain ⟨hb, hun⟩ := jweParts_unpack (exJweParts [1] [2] [3] [4])
    obtain ⟨b, h1, h2⟩ := (C27_jwe (Jwt.mk (.dict exJweDict) _ _) _ rfl).1 rfl
    refine ⟨_, (C27_jwe_factory _ _).mpr ⟨_, b, hun, h1, .inl ⟨h2.mpr ?_, _, rfl, rfl, .inr ⟨rfl, _, rfl, hun⟩⟩⟩⟩
    exact ⟨_, _, _, _, rfl, ⟨_, .a128⟩, rfl, .g128⟩

end Verif
