import Verif.Props.Jwk
/-
C129: which half of a key `get_key` and `encryption_key` hand out.
-/

namespace Verif
open Spec

/-- What a caller gets who asks for the public half. -/
def Spec.GivesPoint (E : Env) (k : Key) (X Y : Nat) : Prop :=
  k.getKey false = .ok (.point (.int X) (.int Y)) ∧ ∀ alg, k.encryptionKey E alg false = .ok (.point (.int X) (.int Y))

/-- What a caller gets who asks for the private half. -/
def Spec.GivesPrivate (E : Env) (k : Key) (r : PyM KeyArg) : Prop := k.getKey true = r ∧ ∀ alg, k.encryptionKey E alg true = r

theorem gives_point (E : Env) {k : Key} {crv x y d : PyVal} {cv : KObj} {X Y : Nat} (hm : k.mat = .ec crv x y d cv) (hx : Holds x (some X))
    (hy : Holds y (some Y)) : GivesPoint E k X Y := by
  cases hx with | number px => ?_
  cases hy with | number py => ?_
  have tx : (PyVal.int (X : Int)).truthy = true := by simp [PyVal.truthy]; omega
  have ty : (PyVal.int (Y : Int)).truthy = true := by simp [PyVal.truthy]; omega
  have h : k.getKey false = .ok (.point (.int X) (.int Y)) := by simp [Key.getKey, hm, tx, ty]
  exact ⟨h, fun alg => by simp only [Key.encryptionKey, hm]; exact h⟩

theorem gives_private (E : Env) {k : Key} {crv x y d : PyVal} {cv : KObj} (hm : k.mat = .ec crv x y d cv) :
    GivesPrivate E k (if d.truthy then .ok (.obj (.val d)) else .error .valueError) := by
  have h : k.getKey true = (if d.truthy then .ok (.obj (.val d)) else .error .valueError) := by simp [Key.getKey, hm]
  exact ⟨h, fun alg => by simp only [Key.encryptionKey, hm]; exact h⟩

/-- **C129.** An EC key, and the key read from its JWK with or without the private part, give the same point; the key
read from the public JWK refuses to give a private half with a `ValueError`. -/
theorem C129_ec_public (E : Env) (k : Key) (crv x y d : PyVal) (c : NistCurve) (X Y : Nat) (D : Option Nat)
    (hm : k.mat = .ec crv x y d (.curve c)) (hx : Holds x (some X)) (hy : Holds y (some Y)) (hd : Holds d D)
    (hc : curveByName c.name = .ok c) (ht : TextLabels k "EC") (priv : Bool) :
    GivesPoint E k X Y ∧ ∃ dict k', k.serialize priv = .ok (.dict dict) ∧ keyrep E dict = .ok k' ∧ GivesPoint E k' X Y ∧
      (priv = false ∨ D = none → GivesPrivate E k' (.error .valueError)) := by
  obtain ⟨dict, k', d', h1, h2, -, h3, h4, -⟩ := C28_ec_keyrep E k crv x y d c X Y D hm hx hy hd hc ht priv
  refine ⟨gives_point E hm hx hy, dict, k', h1, h2, gives_point E h3 (.number (hx.pos _ rfl)) (.number (hy.pos _ rfl)), fun h => ?_⟩
  have := gives_private E h3
  rw [h4 h] at this
  exact this

/-- **C129.** The private half of a key made from the private JWK by the constructor is the number. -/
theorem C129_ec_private (E : Env) (k : Key) (crv x y d : PyVal) (c : NistCurve) (X Y D : Nat)
    (hm : k.mat = .ec crv x y d (.curve c)) (hx : Holds x (some X)) (hy : Holds y (some Y)) (hd : Holds d (some D))
    (hc : curveByName c.name = .ok c) (ht : TextLabels k "EC") (rnd : Nat) :
    GivesPrivate E k (.ok (.obj (.val (.int D)))) ∧
    ∃ dict k', k.serialize true = .ok (.dict dict) ∧ ecKeyNew dict (.val .none) (.val .none) rnd = .ok k' ∧
      GivesPrivate E k' (.ok (.obj (.val (.int D)))) := by
  obtain ⟨dict, k', d', h1, h2, -, h3, h4⟩ := C28_ec k crv x y d c X Y (some D) hm hx hy hd hc ht rnd
  cases hd with | number pd => ?_
  cases h4 with | number _ => ?_
  have td : (PyVal.int (D : Int)).truthy = true := by simp [PyVal.truthy]; omega
  have a := gives_private E hm
  have b := gives_private E h3
  rw [if_pos td] at a b
  exact ⟨a, dict, k', h1, h2, b⟩

/-- **C129.** The public half tells nothing about the rest: keys with the same point give the same, whatever private number, curve
and labels they have, and no private number comes out. -/
theorem C129_ec_blind (E : Env) {k k' : Key} {crv crv' x y d d' : PyVal} {cv cv' : KObj} (hm : k.mat = .ec crv x y d cv)
    (hm' : k'.mat = .ec crv' x y d' cv') (alg alg' : PyVal) : k.encryptionKey E alg false = k'.encryptionKey E alg' false := by
  simp [Key.encryptionKey, Key.getKey, hm, hm']

/-- **C129.** An RSA key hands out the whole key object for both requests: the one read from a private JWK gives the key with
the private exponent to a caller who asks for `private=False`. -/
theorem C129_rsa (E : Env) (k : Key) (m : RsaMat) (N : RsaNums) (hm : k.mat = .rsa m) (hN : RsaHolds m N) (ht : TextLabels k "RSA")
    (hk : k.key.truthy = true) (r : RsaKey) (hr : E.R.construct N.tuple = .ok r) :
    ∃ d k', k.serialize true = .ok (.dict d) ∧ keyrep E d = .ok k' ∧
      ∀ alg priv, k'.encryptionKey E alg priv = .ok (.obj (.rsa r)) ∧ k'.getKey priv = .ok (.obj (.rsa r)) := by
  obtain ⟨d, k', m', h1, h2, -, h3, h4, -⟩ := C28_rsa E k m N hm hN ht hk r hr
  refine ⟨d, k', h1, h2, fun alg priv => ⟨?_, ?_⟩⟩
  · simp [Key.encryptionKey, h4, h3, KObj.truthy]
  · simp [Key.getKey, h4, h3]

/-! ### Examples -/

example : GivesPrivate toyEnv exEc (.ok (.obj (.val (.int (1 : Nat))))) ∧ ∃ dict k', exEc.serialize false = .ok (.dict dict) ∧
    keyrep toyEnv dict = .ok k' ∧ GivesPoint toyEnv k' P256.G.1.toNat P256.G.2.toNat ∧ GivesPrivate toyEnv k' (.error .valueError) := by
  obtain ⟨-, d, k', h1, h2, h3, h4⟩ := C129_ec_public toyEnv exEc _ _ _ _ P256 _ _ (some 1) rfl (.number (by decide)) (.number (by decide))
    (.number (by decide)) rfl ⟨rfl, ⟨_, rfl⟩, ⟨_, rfl⟩, ⟨_, rfl⟩⟩ false
  exact ⟨(C129_ec_private toyEnv exEc _ _ _ _ P256 _ _ 1 rfl (.number (by decide)) (.number (by decide)) (.number (by decide)) rfl
    ⟨rfl, ⟨_, rfl⟩, ⟨_, rfl⟩, ⟨_, rfl⟩⟩ 0).1, d, k', h1, h2, h3, h4 (.inl rfl)⟩

example : ∃ d k', exRsa.serialize true = .ok (.dict d) ∧ keyrep toyEnv d = .ok k' ∧
    k'.encryptionKey toyEnv (.str "RSA-OAEP") false = .ok (.obj (.rsa ⟨3233, 17, some (2753, 61, 53)⟩)) := by
  obtain ⟨m, hm, hN⟩ := exRsa_holds
  obtain ⟨d, k', h1, h2, h3⟩ := C129_rsa toyEnv exRsa m exNums hm hN exRsa_text rfl _ rfl
  exact ⟨d, k', h1, h2, (h3 _ false).1⟩

end Verif
