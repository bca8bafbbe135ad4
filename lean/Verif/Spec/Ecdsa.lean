import Mathlib.AlgebraicGeometry.EllipticCurve.Affine.Point
import Verif.Lemmas.Pratt
import Verif.Spec.Base64
import Verif.Spec.KeyFiles
import Verif.Spec.Rsa
/-
Specification vocabulary for ECDSA on P-256 (C138): the group is that of Mathlib.
-/
namespace Httpsig

/-- The curve `y² = x³ - 3x + b` over the field with `p` elements. -/
abbrev curve : WeierstrassCurve.Affine (ZMod P256.p) := ⟨0, 0, 0, -3, P256.b⟩

/-- The first coordinate of a point, as a number below `p`. -/
def xCoord : curve.Point → Option Nat
  | .zero => none
  | .some x _ _ => some x.val

/-- The point has these coordinates. -/
def HasCoords (A : curve.Point) (x y : Nat) : Prop := ∃ h, A = .some (x : ZMod P256.p) (y : ZMod P256.p) h

/-- `(r, s)` is a signature on the hash `h` for the public key `A` (FIPS 186-4, 6.4): with `w` the inverse of `s`, the first coordinate of
`(h w) G + (r w) A` is `r` modulo the order, where `G` is the base point. -/
def EcdsaValid (A : curve.Point) (h r s : Nat) : Prop :=
  0 < r ∧ r < P256.q ∧ 0 < s ∧ s < P256.q ∧
  ∃ G w x, HasCoords G P256.gx P256.gy ∧ s * w % P256.q = 1 ∧ xCoord ((h * w) • G + (r * w) • A) = some x ∧ x % P256.q = r

/-- A nonnegative number in DER: no superfluous zeros, and the first bit is 0. -/
def DerNat (n : Nat) (der : Bytes) : Prop :=
  ∃ x c, bigEndian (x :: c) = n ∧ x.toNat < 128 ∧ (x = 0 → ∀ y, c.head? = some y → 128 ≤ y.toNat) ∧ DerValue 0x02 (x :: c) der

/-- The two numbers of a signature in DER. -/
def EcdsaSig (r s : Nat) (der : Bytes) : Prop := ∃ a b, DerNat r a ∧ DerNat s b ∧ DerValue 0x30 (a ++ b) der

/-- A public key: the byte 4 and the coordinates, of 32 bytes each. -/
def EcKey (A : curve.Point) (key : Bytes) : Prop :=
  ∃ a b, a.length = 32 ∧ b.length = 32 ∧ bigEndian a < P256.p ∧ bigEndian b < P256.p ∧ HasCoords A (bigEndian a) (bigEndian b) ∧ key = 4 :: (a ++ b)

/-- The ECDSA primitive is that of FIPS 186-4 with SHA-256 and some choice of nonces. `priv` tells what number a private key is, `none`
for files that the library refuses. -/
structure RealEcdsa [Deps] (priv : Bytes → Option Nat) : Prop where
  sign : ∀ key d rnd m, priv key = some d →
    ∃ k r s, P256.sign d k (Der.ofBytes (Deps.sha256 m)) = some (r, s) ∧ Deps.asymSign .ecdsaP256Sha256Asn1 key rnd m = P256.derSig r s
  verify : ∀ key m t, Deps.asymVerify .ecdsaP256Sha256Asn1 key m t = P256.verify Deps.sha256 key m t

/-- Two signature texts that have the same first number, and second numbers that sum up to the order. -/
def OtherForm (text text' : Str) : Prop :=
  ∃ r s t t', 0 < s ∧ s < P256.q ∧ EcdsaSig r s t ∧ EcdsaSig r (P256.q - s) t' ∧ IsBase64 text t ∧ IsBase64 text' t'

end Httpsig
