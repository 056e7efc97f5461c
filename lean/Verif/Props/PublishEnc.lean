import Verif.Props.Publish
import Verif.Props.JweRsa
import Verif.Props.JweSym
import Verif.Props.JweGate
import Verif.Props.JweTotal
import Verif.Props.JwsTotal
/-
C109: publish a key set, receive encrypted messages.
-/

namespace Verif
open Spec

theorem picked_labels {lo up alg use : String} {kid : PyVal} {a b : Key} (h : SameLabels a b) :
    Picked lo up alg use kid a ↔ Picked lo up alg use kid b := by
  unfold Picked
  rw [h.kty, h.alg, h.use, h.kid]

/-- The key picked from the published set is the published half of the key picked from the set. -/
theorem firstPicked_exported {E : Env} {m : KeyMgmt} {alg : String} {wk : PyVal} {ks ks' : List Key} {k' : Key}
    (hx : List.Forall₂ (Exported E) ks ks') (h : FirstPicked m alg wk ks' k') :
    ∃ k, FirstPicked m alg wk ks k ∧ Exported E k k' := by
  obtain ⟨pre', post', rfl, hp, hn⟩ := h
  induction pre' generalizing ks with
  | nil =>
    cases hx with
    | @cons k _ l _ h1 h2 =>
      exact ⟨k, ⟨[], l, rfl, (picked_labels (exported_labels h1)).mp hp, by simp⟩, h1⟩
  | cons x pre' ih =>
    cases hx with
    | @cons y _ l _ h1 h2 =>
      obtain ⟨k, ⟨pre, post, rfl, h3, h4⟩, h5⟩ := ih h2 fun z hz => hn z (List.mem_cons_of_mem _ hz)
      refine ⟨k, ⟨y :: pre, post, rfl, h3, ?_⟩, h5⟩
      intro z hz
      rcases List.mem_cons.mp hz with rfl | hz
      · exact fun hc => hn x (by simp) ((picked_labels (exported_labels h1)).mpr hc)
      · exact h4 z hz

/-- An RSA key with its private half: the `key` object goes with the parameters and is consistent. -/
def Spec.WholeRsa (k : Key) : Prop :=
  ∃ m N r, k.mat = .rsa m ∧ RsaHolds m N ∧ k.key = .rsa r ∧ r.n = N.n ∧ r.e = N.e ∧ r.Consistent

/-- The values in the header of a message to a published set are real Python values. -/
theorem real_published {E : Env} {o : Jwe} {ks ks' : List Key} {kid : Option PyVal}
    (hex : ∀ k ∈ ks, Exportable E k) (hx : List.Forall₂ (Exported E) ks ks') (hv : RealValues o [] kid) :
    RealValues o ks' kid := by
  refine ⟨hv.dict, hv.jwk, fun k hk => ?_, hv.own_kid, hv.kid⟩
  obtain ⟨y, hy, hyx⟩ := forall₂_right hx k hk
  obtain ⟨s, hs⟩ := exportable_kid (hex y hy)
  rw [(exported_labels hyx).kid, hs]
  trivial

theorem effKeys_given {o : Jwx} {keys l : List Key} (hne : keys ≠ []) (h : EffKeys o keys l) : l = keys := by
  rcases h with ⟨-, h⟩ | ⟨h, -⟩
  · exact h
  · exact absurd h hne

/-- **C109.** The owner of a key set publishes it with `dump_jwks`; someone loads it and encrypts a message with
an RSA algorithm and the loaded set.  The owner decrypts it with the set that has the private halves. -/
theorem C109_rsa {E : Env} (hC : E.C.Lawful) (hH : E.H.Lawful) (hR : E.R.Lawful) (hZ : E.Z.Lawful)
    (ks : List Key) (hkne : ks ≠ []) (hex : ∀ k ∈ ks, Exportable E k) :
    ∃ s ks', Keys.dumpJwks ks = .ok s ∧ Keys.loadJwks E [] s = (.ok (), ks') ∧
      ∀ (o : Jwe) rnd iv kid t alg p, RndLengths rnd → PyDict.get? o.dict "alg" = some (.str alg) →
        MgmtName alg (.rsa p) → RealValues o [] kid →
        (∀ k v, o.jwk = some (.key k) → k.serializeDflt = .ok v → Distinct v) →
        (∀ wk, ∀ k ∈ ks, EncPicked (.rsa p) alg wk k → WholeRsa k) →
        (o.encrypt E rnd ks' [] iv kid).1 = .ok t →
        ∃ wk c m, SignKid o.toJwx wk ∧ MsgBytes o.msg m ∧
          PyDict.get? (o.encrypt E rnd ks' [] iv kid).2.dict "cek" = some (.bytes c) ∧
          ∀ (o2 : Jwe) rnd2, SignKid o2.toJwx wk → (p = .pkcs1 → rnd2.sentinel 0 ≠ c) →
            (o2.decrypt E rnd2 (utf8Encode t) ks).1 = .ok m := by
  obtain ⟨s, ks', hs1, hs2, hx⟩ := C84_jwks E ks [] hex
  have hne' : ks' ≠ [] := by
    rintro rfl
    cases hx
    exact hkne rfl
  refine ⟨s, ks', hs1, hs2, ?_⟩
  intro o rnd iv kid t alg p hr halg hm hv hser hwhole h
  obtain ⟨l, wk, k', c, m, heff, hsk, hf, hc, hmsg, hdec⟩ := C58_roundtrip hC hH hR hZ hr halg hm
    (real_published hex hx hv) hser h
  obtain rfl := effKeys_given hne' heff
  obtain ⟨k, hfk, hkx⟩ := firstPicked_exported hx hf
  refine ⟨wk, c, m, hsk, hmsg, hc, fun o2 rnd2 hsk2 hse => ?_⟩
  have hkm : k ∈ ks := by obtain ⟨pre, post, rfl, -⟩ := hfk; simp
  have hpk : EncPicked (.rsa p) alg wk k := by obtain ⟨pre, post, rfl, h, -⟩ := hfk; exact h
  obtain ⟨mm, N, r, h1, h2, h3, h4, h5, h6⟩ := hwhole wk k hkm hpk
  cases hkx with
  | ec ha => rw [h1] at ha; cases ha
  | sym ha => rw [h1] at ha; cases ha
  | rsa ha hN' hb hm' hr' hk' hl =>
    rw [h1] at ha
    cases ha
    have e1 := Holds.unique h2.n hN'.n
    have e2 := Holds.unique h2.e hN'.e
    obtain ⟨g1, g2, -⟩ := hR.construct_ne _ _ _ hr'
    exact hdec o2 rnd2 ks ks wk k _ r ⟨⟨_, hb⟩, hk'⟩ ⟨⟨_, h1⟩, h3⟩ ⟨h6, by rw [g1, h4, e1], by rw [g2, h5, e2]⟩
      (.inl ⟨hkne, rfl⟩) hsk2 hfk hse

/-- The key picked from the set is published as the key picked from the published set. -/
theorem firstPicked_published {E : Env} {m : KeyMgmt} {alg : String} {wk : PyVal} {ks ks' : List Key} {k : Key}
    (hx : List.Forall₂ (Exported E) ks ks') (h : FirstPicked m alg wk ks k) :
    ∃ k', FirstPicked m alg wk ks' k' ∧ Exported E k k' := by
  obtain ⟨pre, post, rfl, hp, hn⟩ := h
  induction pre generalizing ks' with
  | nil =>
    cases hx with
    | @cons _ k' _ l h1 h2 =>
      exact ⟨k', ⟨[], l, rfl, (picked_labels (exported_labels h1)).mpr hp, by simp⟩, h1⟩
  | cons x pre ih =>
    cases hx with
    | @cons _ y _ l h1 h2 =>
      obtain ⟨k', ⟨pre', post', rfl, h3, h4⟩, h5⟩ := ih h2 fun z hz => hn z (List.mem_cons_of_mem _ hz)
      refine ⟨k', ⟨y :: pre', post', rfl, h3, ?_⟩, h5⟩
      intro z hz
      rcases List.mem_cons.mp hz with rfl | hz
      · exact fun hc => hn x (by simp) ((picked_labels (exported_labels h1)).mp hc)
      · exact h4 z hz

theorem short_writable {msg : PyVal} {alg enc : String} {m : KeyMgmt} (hm : MgmtName alg m) {kl il : Nat}
    (he : EncName enc kl il) : EntriesWritable { msg := msg, dict := [("alg", .str alg), ("enc", .str enc)] } := by
  intro n v hv _ _
  have : v = .str alg ∨ v = .str enc := by
    simp only [PyDict.get?, List.lookup_cons, List.lookup_nil] at hv
    split at hv
    · cases hv; simp
    · split at hv
      · cases hv; simp
      · cases hv
  rcases this with rfl | rfl
  · exact writable_str (by cases hm <;> decide)
  · exact writable_str (by cases he <;> decide)

theorem short_real {msg : PyVal} {alg enc : String} :
    RealValues { msg := msg, dict := [("alg", .str alg), ("enc", .str enc)] } [] none where
  dict n v hv := (realValues_short msg alg enc (k := exShared) rfl).dict n v hv
  jwk v hv := by cases hv
  kids x hx := by cases hx
  own_kid v hv := by cases hv
  kid v hv := by cases hv

theorem short_signKid {msg : PyVal} {alg enc : String} {wk : PyVal}
    (h : SignKid { msg := msg, dict := [("alg", .str alg), ("enc", .str enc)] } wk) : wk = .none := by
  rcases h with h | ⟨-, ⟨-, h⟩ | ⟨j, hdr, h, -⟩⟩
  · cases h
  · exact h
  · cases h

/-- **C109.** With the standard algorithms this always works: whoever has the published set encrypts any message for an
RSA key of 1040 bits or more, and the owner decrypts it. -/
theorem C109_rsa_total {E : Env} (hE : Standard E) (hZ : E.Z.Lawful) (ks : List Key) (hkne : ks ≠ [])
    (hex : ∀ k ∈ ks, Exportable E k) {alg enc : String} {p : RsaPad} (hm : MgmtName alg (.rsa p)) {kl il : Nat}
    (he : EncName enc kl il) {k : Key} (hf : FirstPicked (.rsa p) alg .none ks k)
    (hwhole : ∀ wk, ∀ x ∈ ks, EncPicked (.rsa p) alg wk x → WholeRsa x)
    (hsize : ∀ r, k.key = .rsa r → (2 : Int) ^ 1039 ≤ r.n) (hkid : ∀ s, k.kid = .str s → s.length ≤ 2 ^ 40) :
    ∃ s ks', Keys.dumpJwks ks = .ok s ∧ Keys.loadJwks E [] s = (.ok (), ks') ∧
      ∀ msg m rnd, MsgBytes msg m → m.length ≤ 16 * 2 ^ 32 → RndLengths rnd →
        ∃ o t c, Jwe.new E msg [("alg", .str alg), ("enc", .str enc)] = .ok o ∧ (o.encrypt E rnd ks').1 = .ok t ∧
          PyDict.get? (o.encrypt E rnd ks').2.dict "cek" = some (.bytes c) ∧
          ∀ rnd2, (p = .pkcs1 → rnd2.sentinel 0 ≠ c) →
            (Jwe.decrypt E {} rnd2 (utf8Encode t) ks).1 = .ok m := by
  obtain ⟨s, ks', hs1, hs2, hall⟩ := C109_rsa hE.aesLaw hE.shaLaw hE.rsaLaw hZ ks hkne hex
  obtain ⟨s', ks'', hs1', hs2', hx⟩ := C84_jwks E ks [] hex
  rw [hs1] at hs1'
  cases hs1'
  obtain rfl : ks' = ks'' := by
    rw [hs2] at hs2'
    exact (Prod.mk.inj hs2').2
  refine ⟨s, ks', hs1, hs2, fun msg m rnd hmsg hl hr => ?_⟩
  have hne' : ks' ≠ [] := by
    rintro rfl
    cases hx
    exact hkne rfl
  obtain ⟨k', hf', hkx⟩ := firstPicked_published hx hf
  have hkm : k ∈ ks := by obtain ⟨pre, post, rfl, -⟩ := hf; simp
  have hpk : EncPicked (.rsa p) alg .none k := by obtain ⟨pre, post, rfl, h, -⟩ := hf; exact h
  obtain ⟨mm, N, r, h1, h2, h3, h4, h5, h6⟩ := hwhole _ k hkm hpk
  cases hkx with
  | ec ha => rw [h1] at ha; cases ha
  | sym ha => rw [h1] at ha; cases ha
  | rsa ha hN' hb hm' hr' hk' hlab =>
    rw [h1] at ha
    cases ha
    have e1 := Holds.unique h2.n hN'.n
    obtain ⟨g1, -⟩ := hE.rsaLaw.construct_ne _ _ _ hr'
    obtain ⟨t, ht⟩ := C110_rsa (E := E) hE.aesLaw hE.shaLaw (o := { msg := msg, dict := [("alg", .str alg), ("enc", .str enc)] })
      hr (keys := ks') (cek := []) (iv := []) (kid := none) rfl hm rfl he (.inl ⟨hne', rfl⟩) (.inr ⟨rfl, .inl ⟨rfl, rfl⟩⟩) hf'
      ⟨⟨_, hb⟩, hk'⟩ (fun _ => C110_rsa_key hE hr he (by rw [g1, ← e1, ← h4]; exact hsize r h3) p) hmsg (.inl ⟨rfl, hl⟩) rfl (.inl rfl)
      (short_writable hm he)
      (by
        obtain ⟨kt, hkt⟩ := exportable_kid (hex k hkm)
        intro _
        exact ⟨kt, by rw [hlab.kid, hkt], hkid kt hkt⟩)
      (by intro v hv; cases hv) (.inl rfl) (.inl rfl)
    obtain ⟨wk, c, m', hsk, hmsg', hc, hdec⟩ := hall _ rnd [] none t alg p hr rfl hm short_real (by intro k v hk; cases hk)
      hwhole ht
    have hwk : wk = .none := short_signKid hsk
    have hmm : m' = m := by
      have hmsg' : MsgBytes msg m' := hmsg'
      rcases hmsg' with ⟨s, rfl, rfl⟩ | rfl <;> rcases hmsg with ⟨s', h, rfl⟩ | h <;> cases h <;> rfl
    subst hwk hmm
    exact ⟨_, t, c, jwe_new_short E _ alg enc, ht, hc, fun rnd2 hs => hdec {} rnd2 (.inr ⟨rfl, .inl ⟨rfl, rfl⟩⟩) hs⟩

/-- **C109.** The same with a symmetric key and AES key wrap. -/
theorem C109_wrap {E : Env} (hC : E.C.Lawful) (hH : E.H.Lawful) (ks : List Key) (hkne : ks ≠ [])
    (hex : ∀ k ∈ ks, Exportable E k) :
    ∃ s ks', Keys.dumpJwks ks = .ok s ∧ Keys.loadJwks E [] s = (.ok (), ks') ∧
      ∀ (o : Jwe) rnd cek iv kid t alg n, RndLengths rnd → PyDict.get? o.dict "alg" = some (.str alg) →
        MgmtName alg (.wrap n) → RealValues o [] kid → cek.length % 8 = 0 ∧ cek.length < 2 ^ 61 →
        (∀ wk, ∀ k ∈ ks, EncPicked (.wrap n) alg wk k → ∃ secret, SharedKey k secret) →
        (o.encrypt E rnd ks' cek iv kid).1 = .ok t →
        ∃ wk m, SignKid o.toJwx wk ∧ o.msg = .str m ∧
          ∀ (o2 : Jwe) rnd2, SignKid o2.toJwx wk →
            (o2.decrypt E rnd2 (utf8Encode t) ks).1 = .ok (utf8Encode m) := by
  obtain ⟨s, ks', hs1, hs2, hx⟩ := C84_jwks E ks [] hex
  have hne' : ks' ≠ [] := by
    rintro rfl
    cases hx
    exact hkne rfl
  refine ⟨s, ks', hs1, hs2, ?_⟩
  intro o rnd cek iv kid t alg n hr halg hm hv hcek hwhole h
  obtain ⟨l, wk, k', m, heff, hsk, hf, hmsg, hdec⟩ := wrap_roundtrip hC hH hr halg hm
    (real_published hex hx hv) hcek h
  obtain rfl := effKeys_given hne' heff
  obtain ⟨k, hfk, hkx⟩ := firstPicked_exported hx hf
  refine ⟨wk, m, hsk, hmsg, fun o2 rnd2 hsk2 => ?_⟩
  have hkm : k ∈ ks := by obtain ⟨pre, post, rfl, -⟩ := hfk; simp
  have hpk : EncPicked (.wrap n) alg wk k := by obtain ⟨pre, post, rfl, h, -⟩ := hfk; exact h
  obtain ⟨secret, hsh⟩ := hwhole wk k hkm hpk
  obtain ⟨⟨kk, h1⟩, h2, h3⟩ := id hsh
  cases hkx with
  | ec ha => rw [h1] at ha; cases ha
  | rsa ha => rw [h1] at ha; cases ha
  | sym ha hk hb hk' hl =>
    rw [h2] at hk
    cases hk
    refine hdec o2 rnd2 ks ks wk k ?_ (.inl ⟨hkne, rfl⟩) hsk2 hfk
    rw [(shared_encryptionKey hH hsh hm false).1, (shared_encryptionKey hH ⟨⟨_, hb⟩, hk', h3⟩ hm true).1]

/-- **C109.** With the standard algorithms this always works, for every text. -/
theorem C109_wrap_total {E : Env} (hE : Standard E) (ks : List Key) (hkne : ks ≠ [])
    (hex : ∀ k ∈ ks, Exportable E k) {alg enc : String} {n : Nat} (hm : MgmtName alg (.wrap n)) {kl il : Nat}
    (he : EncName enc kl il) {k : Key} (hf : FirstPicked (.wrap n) alg .none ks k)
    (hwhole : ∀ wk, ∀ x ∈ ks, EncPicked (.wrap n) alg wk x → ∃ secret, SharedKey x secret)
    (hkid : ∀ s, k.kid = .str s → s.length ≤ 2 ^ 40) :
    ∃ s ks', Keys.dumpJwks ks = .ok s ∧ Keys.loadJwks E [] s = (.ok (), ks') ∧
      ∀ (m : String) rnd, (utf8Encode m).length ≤ 16 * 2 ^ 32 → RndLengths rnd →
        ∃ o t, Jwe.new E (.str m) [("alg", .str alg), ("enc", .str enc)] = .ok o ∧ (o.encrypt E rnd ks').1 = .ok t ∧
          ∀ rnd2, (Jwe.decrypt E {} rnd2 (utf8Encode t) ks).1 = .ok (utf8Encode m) := by
  obtain ⟨s, ks', hs1, hs2, hall⟩ := C109_wrap hE.aesLaw hE.shaLaw ks hkne hex
  obtain ⟨s', ks'', hs1', hs2', hx⟩ := C84_jwks E ks [] hex
  rw [hs1] at hs1'
  cases hs1'
  obtain rfl : ks' = ks'' := by
    rw [hs2] at hs2'
    exact (Prod.mk.inj hs2').2
  refine ⟨s, ks', hs1, hs2, fun m rnd hl hr => ?_⟩
  have hne' : ks' ≠ [] := by
    rintro rfl
    cases hx
    exact hkne rfl
  obtain ⟨k', hf', hkx⟩ := firstPicked_published hx hf
  have hkm : k ∈ ks := by obtain ⟨pre, post, rfl, -⟩ := hf; simp
  have hpk : EncPicked (.wrap n) alg .none k := by obtain ⟨pre, post, rfl, h, -⟩ := hf; exact h
  obtain ⟨secret, ⟨kk, h1⟩, h2, h3⟩ := hwhole _ k hkm hpk
  cases hkx with
  | ec ha => rw [h1] at ha; cases ha
  | rsa ha => rw [h1] at ha; cases ha
  | sym ha hk hb hk' hlab =>
    rw [h2] at hk
    cases hk
    obtain ⟨t, ht⟩ := C110_wrap (E := E) hE.aesLaw hE.shaLaw
      (o := { msg := .str m, dict := [("alg", .str alg), ("enc", .str enc)] })
      hr (keys := ks') (cek := []) (iv := []) (kid := none) rfl hm rfl he (.inl ⟨hne', rfl⟩) (.inr ⟨rfl, .inl ⟨rfl, rfl⟩⟩) hf'
      ⟨⟨_, hb⟩, hk', h3⟩ rfl hl rfl (short_writable hm he)
      (by
        obtain ⟨kt, hkt⟩ := exportable_kid (hex k hkm)
        intro _
        rw [hlab.kid, hkt]
        exact writable_str (hkid kt hkt))
      (by intro v hv; cases hv) (.inl rfl) (.inl rfl)
    obtain ⟨wk, m', hsk, hmsg', hdec⟩ := hall _ rnd [] [] none t alg n hr rfl hm short_real (by simp) hwhole ht
    cases short_signKid hsk
    cases hmsg'
    exact ⟨_, t, jwe_new_short E _ alg enc, ht, fun rnd2 => hdec {} rnd2 (.inr ⟨rfl, .inl ⟨rfl, rfl⟩⟩)⟩

/-- **C109.** With key agreement nobody can write to the owner: the published EC keys have no private half, which
the code asks of the recipient's key (C65). -/
theorem C109_ecdh {E : Env} (ks : List Key) (hkne : ks ≠ []) (hex : ∀ k ∈ ks, Exportable E k) :
    ∃ s ks', Keys.dumpJwks ks = .ok s ∧ Keys.loadJwks E [] s = (.ok (), ks') ∧
      ∀ (o : Jwe) rnd cek iv kid t alg m, PyDict.get? o.dict "alg" = some (.str alg) →
        MgmtName alg m → MgmtType m = ("ec", "EC") → (o.encrypt E rnd ks' cek iv kid).1 ≠ .ok t := by
  obtain ⟨s, ks', hs1, hs2, hx⟩ := C84_jwks E ks [] hex
  have hne' : ks' ≠ [] := by
    rintro rfl
    cases hx
    exact hkne rfl
  refine ⟨s, ks', hs1, hs2, ?_⟩
  intro o rnd cek iv kid t alg m halg hm hec h
  obtain ⟨l, wk, k', c, heff, hsk, hf, -⟩ := jwe_encrypt_ok halg hm h
  have heff' := heff
  obtain rfl := effKeys_given hne' heff
  obtain ⟨k, hfk, hkx⟩ := firstPicked_exported hx hf
  have hpk : EncPicked m alg wk k := by obtain ⟨pre, post, rfl, h, -⟩ := hfk; exact h
  have hkm : k ∈ ks := by obtain ⟨pre, post, rfl, -⟩ := hfk; simp
  have hty := hpk.1
  rw [hec] at hty
  cases hkx with
  | ec ha hx' hy' hb hl =>
    exact C65_public hm hec halg heff' hsk hf hb rfl cek iv kid t h
  | rsa ha hN' hb hm' hr' hk' hl =>
    cases hex k hkm with
    | rsa _ _ ht => rw [ht.kty] at hty; rcases spelled_str hty with h | h <;> exact absurd h (by decide)
    | ec hm' => rw [ha] at hm'; cases hm'
    | sym hm' => rw [ha] at hm'; cases hm'
  | sym ha hk hb hk' hl =>
    cases hex k hkm with
    | sym _ _ _ ht => rw [ht.kty] at hty; rcases spelled_str hty with h | h <;> exact absurd h (by decide)
    | ec hm' => rw [ha] at hm'; cases hm'
    | rsa hm' => rw [ha] at hm'; cases hm'

/-! ### Examples -/

/-- The key of 1042 bits under an identifier. -/
def exRsaKid : Key := { bigKey bigRsa with kid := .str "r1" }

/-- A symmetric key for any algorithm. -/
def exSymAny : Key := { exSym with alg := .str "" }

@[inherit_doc exRsaKid]
def exEncSet : List Key := [exEc, exRsaKid, exSymAny]

theorem exEncSet_exportable : ∀ k ∈ exEncSet, Exportable stdEnv k := by
  intro k hk
  simp only [exEncSet, List.mem_cons, List.not_mem_nil, or_false] at hk
  rcases hk with rfl | rfl | rfl
  · exact .ec rfl (.number (by decide)) (.number (by decide)) (.number (n := 1) (by decide))
      (by decide +kernel) exEc_text
  · exact .rsa (N := ⟨bigP * bigQ, 65537, none, none, none, none, none, none, none⟩) rfl
      ⟨.number (by decide +kernel), .number (by decide), .absent rfl, .absent rfl, .absent rfl, .absent rfl, .absent rfl, .absent rfl,
        .absent rfl⟩ ⟨rfl, ⟨_, rfl⟩, ⟨_, rfl⟩, ⟨_, rfl⟩⟩ rfl bigPublic_construct
  · exact .sym rfl rfl (by decide) ⟨rfl, ⟨_, rfl⟩, ⟨_, rfl⟩, ⟨_, rfl⟩⟩

/-- A set of an EC, an RSA and a symmetric key: every message encrypted for it with RSA-OAEP is read. -/
example : ∃ s ks', Keys.dumpJwks exEncSet = .ok s ∧ Keys.loadJwks stdEnv [] s = (.ok (), ks') ∧
    ∀ m rnd, m.length ≤ 16 * 2 ^ 32 → RndLengths rnd → ∃ o t, (Jwe.encrypt stdEnv o rnd ks').1 = .ok t ∧
      o.msg = .bytes m ∧ (Jwe.decrypt stdEnv {} exRnd (utf8Encode t) exEncSet).1 = .ok m := by
  obtain ⟨s, ks', h1, h2, h3⟩ := C109_rsa_total stdEnv_standard toyZlib_lawful exEncSet (by simp [exEncSet]) exEncSet_exportable
    .oaep .g256 (k := exRsaKid)
    ⟨[exEc], [exSymAny], rfl, ⟨.inr (.inl rfl), by decide, by decide, by decide⟩, by
      intro x hx hc
      rw [List.mem_singleton.mp hx] at hc
      rcases spelled_str hc.1 with h | h <;> exact absurd h (by decide)⟩
    (by
      intro wk x hx hp
      simp only [exEncSet, List.mem_cons, List.not_mem_nil, or_false] at hx
      rcases hx with rfl | rfl | rfl
      · rcases spelled_str hp.1 with h | h <;> exact absurd h (by decide)
      · exact ⟨_, ⟨bigP * bigQ, 65537, none, none, none, none, none, none, none⟩, bigRsa, rfl,
          ⟨.number (by decide +kernel), .number (by decide), .absent rfl, .absent rfl, .absent rfl, .absent rfl, .absent rfl, .absent rfl,
            .absent rfl⟩, rfl, rfl, rfl, bigRsa_consistent⟩
      · rcases spelled_str hp.1 with h | h <;> exact absurd h (by decide))
    (by intro r hr; cases hr; exact bigRsa_size) (by intro s hs; cases hs; decide)
  refine ⟨s, ks', h1, h2, fun m rnd hl hr => ?_⟩
  obtain ⟨o, t, c, ho, ht, -, hd⟩ := h3 (.bytes m) m rnd (.inr rfl) hl hr
  rw [jwe_new_short] at ho
  cases ho
  exact ⟨_, t, ht, rfl, hd exRnd (by intro h; cases h)⟩

/-- The same set and key wrap. -/
example : ∃ s ks', Keys.dumpJwks exEncSet = .ok s ∧ Keys.loadJwks stdEnv [] s = (.ok (), ks') ∧
    ∀ (m : String) rnd, (utf8Encode m).length ≤ 16 * 2 ^ 32 → RndLengths rnd → ∃ o t,
      (Jwe.encrypt stdEnv o rnd ks').1 = .ok t ∧ o.msg = .str m ∧
      (Jwe.decrypt stdEnv {} exRnd (utf8Encode t) exEncSet).1 = .ok (utf8Encode m) := by
  obtain ⟨s, ks', h1, h2, h3⟩ := C109_wrap_total stdEnv_standard exEncSet (by simp [exEncSet]) exEncSet_exportable
    .a192 .c256 (k := exSymAny)
    ⟨[exEc, exRsaKid], [], rfl, ⟨.inl rfl, by decide, by decide, by decide⟩, by
      intro x hx hc
      simp only [List.mem_cons, List.not_mem_nil, or_false] at hx
      rcases hx with rfl | rfl <;> rcases spelled_str hc.1 with h | h <;> exact absurd h (by decide)⟩
    (by
      intro wk x hx hp
      simp only [exEncSet, List.mem_cons, List.not_mem_nil, or_false] at hx
      rcases hx with rfl | rfl | rfl
      · rcases spelled_str hp.1 with h | h <;> exact absurd h (by decide)
      · rcases spelled_str hp.1 with h | h <;> exact absurd h (by decide)
      · exact ⟨_, ⟨_, rfl⟩, rfl, by decide⟩)
    (by intro s hs; cases hs; decide)
  refine ⟨s, ks', h1, h2, fun m rnd hl hr => ?_⟩
  obtain ⟨o, t, ho, ht, hd⟩ := h3 m rnd hl hr
  rw [jwe_new_short] at ho
  cases ho
  exact ⟨_, t, ht, rfl, hd exRnd⟩

/-- The same set and key agreement. -/
example : ∃ s ks', Keys.dumpJwks exEncSet = .ok s ∧ Keys.loadJwks stdEnv [] s = (.ok (), ks') ∧
    ∀ t, (Jwe.encrypt stdEnv exAgreer exRnd ks').1 ≠ .ok t := by
  obtain ⟨s, ks', h1, h2, h3⟩ := C109_ecdh exEncSet (by simp [exEncSet]) exEncSet_exportable
  exact ⟨s, ks', h1, h2, fun t => h3 exAgreer exRnd [] [] none t _ _ rfl .ec192 rfl⟩

end Verif
