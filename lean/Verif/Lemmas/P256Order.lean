import Mathlib.GroupTheory.Perm.Cycle.Type
import Mathlib.SetTheory.Cardinal.Finite
import Mathlib.GroupTheory.SpecificGroups.Cyclic
import Verif.Lemmas.P256
/-
The group of P-256 has `q` elements: `q` divides the number of elements, which is at most `2p + 1`, and there is no point of order 2.
-/
namespace Httpsig.P256
open WeierstrassCurve.Affine
open Rsa (force_eq)

/-! ### There is no point of order 2 -/

/-- A polynomial of degree 2, modulo `X³ - 3X + b`. -/
abbrev Quad := Nat × Nat × Nat

def Quad.mul : Quad → Quad → Quad
  | (a2, a1, a0), (b2, b1, b0) =>
    ((a2 * b0 + a1 * b1 + a0 * b2 + 3 * (a2 * b2)) % p,
     (a1 * b0 + a0 * b1 + 3 * (a2 * b1 + a1 * b2) + (p - b) * (a2 * b2)) % p,
     (a0 * b0 + (p - b) * (a2 * b1 + a1 * b2)) % p)

def Quad.force {α : Type} (a : Quad) (f : Quad → α) : α :=
  match a with
  | (a2, a1, a0) => Rsa.force a2 fun a2 => Rsa.force a1 fun a1 => Rsa.force a0 fun a0 => f (a2, a1, a0)

/-- `acc * a ^ k`, with `bits` binary digits of the exponent. -/
def Quad.pow : (bits k : Nat) → (a acc : Quad) → Quad
  | 0, _, _, acc => acc
  | n + 1, k, a, acc =>
    Quad.force (if k % 2 = 1 then Quad.mul acc a else acc) fun acc => Quad.force (Quad.mul a a) fun a => Rsa.force (k / 2) fun k => Quad.pow n k a acc

/-- `X ^ p - X`. -/
def frob : Quad :=
  match Quad.pow 256 p (0, 1, 0) (0, 0, 1) with
  | (a2, a1, a0) => (a2, a1 + p - 1, a0)

/-- The inverse of `X ^ p - X`. -/
def frobInv : Quad :=
  (0x4cde11cf86cb876cd59cf0115813c55af0ecd3cda667d98bb9a347a56aa74a6d,
   0xa4a08891884100c13323460107a8d28eede4387fa3e6e9bfebec9f6d72d0b5cc,
   0xa969487079f1744798bf0de6fded091b66e9d328eb0645fe5d979d1339b7f47f)

theorem frob_inverse : Quad.mul frobInv frob = (0, 0, 1) := by decide +kernel

theorem g_order : mul q g = none := by decide +kernel
theorem g_onCurve : onCurve gx gy = true := by decide +kernel
theorem p_odd : p % 2 = 1 := by decide
theorem q_odd : q % 2 = 1 := by decide
theorem q_near : q < p ∧ 2 * p + 1 < 3 * q := by decide
theorem p_bits : p < 2 ^ 256 := by decide
theorem b_lt : b < p := by decide
attribute [local irreducible] p q b gx gy

def Quad.eval (c : ZMod p) : Quad → ZMod p
  | (a2, a1, a0) => a2 * c ^ 2 + a1 * c + a0

theorem Quad.eval_mul {c : ZMod p} (hc : c ^ 3 - 3 * c + (b : Nat) = 0) (a a' : Quad) :
    (Quad.mul a a').eval c = a.eval c * a'.eval c := by
  obtain ⟨a2, a1, a0⟩ := a
  obtain ⟨b2, b1, b0⟩ := a'
  have hb : ((p - b : Nat) : ZMod p) = -(b : Nat) := by rw [Nat.cast_sub b_lt.le, ZMod.natCast_self, zero_sub]
  simp only [Quad.mul, Quad.eval, ZMod.natCast_mod]
  push_cast
  rw [hb]
  linear_combination (-(a2 * b2 : ZMod p) * c - (a2 * b1 + a1 * b2)) * hc

theorem Quad.force_eq {α : Type} (a : Quad) (f : Quad → α) : Quad.force a f = f a := by
  obtain ⟨a2, a1, a0⟩ := a
  simp only [Quad.force, Rsa.force_eq]

theorem Quad.eval_pow {c : ZMod p} (hc : c ^ 3 - 3 * c + (b : Nat) = 0) (n k : Nat) (a acc : Quad) (hk : k < 2 ^ n) :
    (Quad.pow n k a acc).eval c = acc.eval c * a.eval c ^ k := by
  induction n generalizing k a acc with
  | zero => rw [show k = 0 by omega, pow_zero, mul_one]; rfl
  | succ n ih =>
    simp only [Quad.pow, Quad.force_eq, Rsa.force_eq]
    have hk2 : k / 2 < 2 ^ n := by rw [pow_succ] at hk; omega
    have hsq : (a.eval c * a.eval c) ^ (k / 2) = a.eval c ^ (2 * (k / 2)) := by rw [← pow_two, ← pow_mul]
    rw [ih _ _ _ hk2, Quad.eval_mul hc, hsq]
    split
    · rename_i h1
      rw [Quad.eval_mul hc, mul_assoc, ← pow_succ', show 2 * (k / 2) + 1 = k by omega]
    · rw [show 2 * (k / 2) = k by omega]

theorem no_root (c : ZMod p) : c ^ 3 - 3 * c + (b : Nat) ≠ 0 := by
  intro hc
  have h1 := Quad.eval_mul hc frobInv frob
  rw [frob_inverse] at h1
  have h2 : frob.eval c = 0 := by
    have h3 := Quad.eval_pow hc 256 p (0, 1, 0) (0, 0, 1) p_bits
    unfold frob
    generalize Quad.pow 256 p (0, 1, 0) (0, 0, 1) = t at h3
    obtain ⟨a2, a1, a0⟩ := t
    simp only [Quad.eval] at h3 ⊢
    rw [Nat.cast_sub (by have := p_large; omega), Nat.cast_add, ZMod.natCast_self]
    simp only [Nat.cast_zero, Nat.cast_one, zero_mul, zero_add, one_mul, add_zero, ZMod.pow_card] at h3 ⊢
    linear_combination h3
  rw [h2, mul_zero] at h1
  simp [Quad.eval] at h1

theorem y_ne {x y : ZMod p} (h : curve.Equation x y) : y ≠ -y := by
  intro hy
  rw [equation_iff'] at h
  have h2 : (2 : ZMod p) ≠ 0 := by
    intro h2
    have : ((2 : Nat) : ZMod p) = 0 := by exact_mod_cast h2
    rw [ZMod.natCast_eq_zero_iff] at this
    have := Nat.le_of_dvd (by decide) this
    have := p_large
    omega
  have hy0 : y = 0 := by
    have : 2 * y = 0 := by linear_combination hy
    rcases mul_eq_zero.1 this with h0 | h0
    · exact absurd h0 h2
    · exact h0
  subst hy0
  exact no_root x (by linear_combination -h)

theorem nonsingular {x y : ZMod p} (h : curve.Equation x y) : curve.Nonsingular x y := by
  rw [WeierstrassCurve.Affine.nonsingular_iff]
  exact ⟨h, .inr (by change y ≠ curve.negY x y; rw [negY_eq]; exact y_ne h)⟩

/-- The base point. -/
def G : curve.Point := .some (gx : ZMod p) (gy : ZMod p) (nonsingular ((onCurve_iff gx gy).1 g_onCurve).2.2)

theorem val_cast {x : Nat} (h : x < p) : (x : ZMod p).val = x := by rw [ZMod.val_natCast, Nat.mod_eq_of_lt h]

theorem ofPoint_G : ofPoint G = g := by
  obtain ⟨h1, h2, _⟩ := (onCurve_iff gx gy).1 g_onCurve
  simp only [G, ofPoint, g, val_cast h1, val_cast h2]

theorem hasCoords_G (A : curve.Point) : HasCoords A gx gy ↔ A = G :=
  ⟨fun ⟨_, e⟩ => e, fun e => ⟨_, e⟩⟩

theorem order_G : addOrderOf G = q := by
  refine addOrderOf_eq_prime (ofPoint_inj ?_) (Point.some_ne_zero _)
  rw [← mul_eq, ofPoint_G, g_order]
  rfl

/-! ### The number of points -/

/-- A point is determined by its first coordinate and the half in which the second is. -/
def half : curve.Point → Option (ZMod p × Bool)
  | .zero => none
  | .some x y _ => some (x, decide (2 * y.val < p))

theorem half_inj : Function.Injective half := by
  intro A B h
  match A, B, h with
  | .zero, .zero, _ => rfl
  | .some x₁ y₁ h₁, .some x₂ y₂ h₂, h =>
    simp only [half, Option.some.injEq, Prod.mk.injEq] at h
    obtain ⟨rfl, h⟩ := h
    rcases Y_eq_of_X_eq h₁.1 h₂.1 rfl with rfl | he
    · rfl
    · exfalso
      rw [negY_eq] at he
      have h0 : y₂ ≠ 0 := fun e => y_ne h₂.1 (by rw [e, neg_zero])
      have hv : y₁.val = p - y₂.val := by
        have : NeZero y₂ := ⟨h0⟩
        rw [he, ZMod.val_neg_of_ne_zero]
      have hlt := ZMod.val_lt y₂
      have hodd := p_odd
      have := decide_eq_decide.1 h
      omega

instance : Finite curve.Point := Finite.of_injective half half_inj

theorem card_le : Nat.card curve.Point ≤ 2 * p + 1 := by
  refine (Nat.card_le_card_of_injective half half_inj).trans ?_
  rw [Nat.card_eq_fintype_card, Fintype.card_option, Fintype.card_prod, ZMod.card, Fintype.card_bool]
  omega

theorem card_eq : Nat.card curve.Point = q := by
  obtain ⟨k, hk⟩ : q ∣ Nat.card curve.Point := order_G ▸ addOrderOf_dvd_natCard G
  have h1 := card_le
  have h2 := q_near
  have h3 : 0 < Nat.card curve.Point := Nat.card_pos
  have hq := q_large
  have hk3 : k < 3 := by
    by_contra hc
    have : q * 3 ≤ q * k := Nat.mul_le_mul_left _ (by omega)
    omega
  rcases (show k = 0 ∨ k = 1 ∨ k = 2 by omega) with rfl | rfl | rfl
  · omega
  · omega
  · exfalso
    obtain ⟨A, hA⟩ := exists_prime_addOrderOf_dvd_card' (G := curve.Point) 2 (by rw [hk]; exact Dvd.intro_left q rfl)
    match A, hA with
    | .zero, hA => rw [← Point.zero_def, addOrderOf_zero] at hA; omega
    | .some x y h, hA =>
      have hs : 2 • (Point.some x y h) = 0 := by rw [← hA]; exact addOrderOf_nsmul_eq_zero _
      rw [two_nsmul, Point.add_self_of_Y_ne (by rw [negY_eq]; exact y_ne h.1)] at hs
      exact Point.some_ne_zero _ hs

/-- Every point has order `q`. -/
theorem q_smul (A : curve.Point) : q • A = 0 := by rw [← card_eq]; exact card_nsmul_eq_zero'

/-- Every point is a multiple of the base point. -/
theorem multiple (A : curve.Point) : ∃ d, d < q ∧ A = d • G := by
  obtain ⟨d, hd⟩ := mem_multiples_of_prime_card card_eq (g := G) (g' := A) (Point.some_ne_zero _)
  refine ⟨d % q, Nat.mod_lt _ (by have := q_large; omega), ?_⟩
  rw [← hd]
  have := mod_addOrderOf_nsmul G d
  rw [order_G] at this
  exact this.symm

end Httpsig.P256
