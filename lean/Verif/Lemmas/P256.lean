import Mathlib.FieldTheory.Finite.Basic
import Verif.Spec.Ecdsa
/-
The arithmetic of the model is the group law of Mathlib.
-/
namespace Httpsig.P256
open WeierstrassCurve.Affine
open Rsa (force_eq)

/-- The point with its coordinates as numbers. -/
def ofPoint : curve.Point → Point
  | .zero => none
  | .some x y _ => some (x.val, y.val)

theorem p_pos : 0 < p := by decide
theorem p_large : 3 < p := by decide
theorem q_large : 3 < q := by decide
attribute [local irreducible] p q b gx gy

theorem inv_eq {n : Nat} [Fact n.Prime] (h2 : 2 < n) (x : Nat) : ((inv n x : Nat) : ZMod n) = (x : ZMod n)⁻¹ := by
  rw [inv, Rsa.powMod_eq, ZMod.natCast_mod, Nat.cast_pow]
  by_cases h0 : (x : ZMod n) = 0
  · rw [h0, inv_zero]
    exact zero_pow (by omega)
  · apply eq_inv_of_mul_eq_one_left
    have := ZMod.pow_card_sub_one_eq_one h0
    rw [← pow_succ, show n - 2 + 1 = n - 1 by omega, this]

theorem negY_eq (x y : ZMod p) : curve.negY x y = -y := by
  simp [WeierstrassCurve.Affine.negY]

theorem cast_sub {a b : Nat} (h : b ≤ a + p) : ((a + p - b : Nat) : ZMod p) = a - b := by
  rw [Nat.cast_sub h, Nat.cast_add, ZMod.natCast_self, add_zero]

theorem slope_eq {x₁ y₁ x₂ y₂ : ZMod p} (h₁ : curve.Nonsingular x₁ y₁) (h₂ : curve.Nonsingular x₂ y₂) (h : ¬ (x₁ = x₂ ∧ y₁ = -y₂)) :
    ((slope x₁.val y₁.val x₂.val y₂.val : Nat) : ZMod p) = curve.slope x₁ x₂ y₁ y₂ := by
  unfold slope
  have hy₁ := ZMod.val_lt y₁
  have hx₁ := ZMod.val_lt x₁
  split
  · rename_i hx
    have hx : x₁ = x₂ := ZMod.val_injective _ hx
    have hy : y₁ ≠ curve.negY x₂ y₂ := by rw [negY_eq]; exact fun hc => h ⟨hx, hc⟩
    rw [slope_of_Y_ne hx hy, ZMod.natCast_mod, Nat.cast_mul, inv_eq (by have := p_large; omega),
      cast_sub (by have := p_large; omega), div_eq_mul_inv]
    have hyy : y₁ = y₂ := by
      subst hx
      rcases Y_eq_of_X_eq h₁.1 h₂.1 rfl with he | he
      · exact he
      · exact absurd he hy
    simp only [negY_eq]
    congr 1
    · push_cast
      simp only [ZMod.natCast_val, ZMod.cast_id', id]
      ring
    · push_cast
      simp only [ZMod.natCast_val, ZMod.cast_id', id]
      congr 1
      ring
  · rename_i hx
    have hx : x₁ ≠ x₂ := fun e => hx (by rw [e])
    rw [slope_of_X_ne hx, ZMod.natCast_mod, Nat.cast_mul, inv_eq (by have := p_large; omega), cast_sub (by omega), cast_sub (by omega), div_eq_mul_inv]
    simp only [ZMod.natCast_val, ZMod.cast_id', id]
    rw [← neg_sub y₁ y₂, ← neg_sub x₁ x₂, inv_neg, neg_mul_neg]

theorem add_eq (A B : curve.Point) : add (ofPoint A) (ofPoint B) = ofPoint (A + B) := by
  match A, B with
  | .zero, B => rw [← Point.zero_def, zero_add]; rfl
  | .some _ _ _, .zero => rw [← Point.zero_def, add_zero]; rfl
  | .some x₁ y₁ h₁, .some x₂ y₂ h₂ =>
    have hx : (x₁.val = x₂.val) ↔ x₁ = x₂ := ⟨fun h => ZMod.val_injective _ h, fun h => by rw [h]⟩
    have hy : ((y₁.val + y₂.val) % p = 0) ↔ y₁ = -y₂ := by
      rw [← Nat.dvd_iff_mod_eq_zero, ← ZMod.natCast_eq_zero_iff, Nat.cast_add, ZMod.natCast_val, ZMod.natCast_val, ZMod.cast_id', id,
        eq_neg_iff_add_eq_zero, id]
    simp only [ofPoint, add]
    split
    · rename_i hc
      rw [Point.add_of_Y_eq (hx.1 hc.1) (by rw [negY_eq]; exact hy.1 hc.2)]
    · rename_i hc
      have hne : ¬ (x₁ = x₂ ∧ y₁ = -y₂) := fun e => hc ⟨hx.2 e.1, hy.2 e.2⟩
      rw [Point.add_some (by rw [negY_eq]; exact hne)]
      simp only [force_eq]
      have hs := slope_eq h₁ h₂ hne
      generalize slope x₁.val y₁.val x₂.val y₂.val = l at hs
      have a1 := ZMod.val_lt x₁
      have a2 := ZMod.val_lt x₂
      have a3 := ZMod.val_lt y₁
      have hX : (((l * l + 2 * p - x₁.val - x₂.val) % p : Nat) : ZMod p) = curve.addX x₁ x₂ (curve.slope x₁ x₂ y₁ y₂) := by
        rw [ZMod.natCast_mod, Nat.cast_sub (by omega), Nat.cast_sub (by omega)]
        push_cast
        rw [ZMod.natCast_self, hs]
        simp only [ZMod.natCast_val, ZMod.cast_id', id, WeierstrassCurve.Affine.addX]
        ring
      have hXv : (l * l + 2 * p - x₁.val - x₂.val) % p = (curve.addX x₁ x₂ (curve.slope x₁ x₂ y₁ y₂)).val := by
        rw [← hX, ZMod.val_natCast, Nat.mod_mod]
      have hXlt := Nat.mod_lt (l * l + 2 * p - x₁.val - x₂.val) p_pos
      rw [hXv] at hX hXlt ⊢
      have hY : (((l * (x₁.val + p - (curve.addX x₁ x₂ (curve.slope x₁ x₂ y₁ y₂)).val) + p - y₁.val) % p : Nat) : ZMod p) =
          curve.addY x₁ x₂ y₁ (curve.slope x₁ x₂ y₁ y₂) := by
        rw [ZMod.natCast_mod, cast_sub (by omega), Nat.cast_mul, cast_sub (by omega), hs]
        simp only [ZMod.natCast_val, ZMod.cast_id', id, WeierstrassCurve.Affine.addY, WeierstrassCurve.Affine.negAddY, negY_eq]
        ring
      rw [← hY, ZMod.val_natCast, Nat.mod_mod]

theorem forceP_eq {α : Type} (P : Point) (f : Point → α) : forceP P f = f P := by
  unfold forceP
  split <;> rfl

theorem mulAdd_eq (A B : curve.Point) (n k : Nat) (hk : k < 2 ^ n) : mulAdd n k (ofPoint A) (ofPoint B) = ofPoint (B + k • A) := by
  induction n generalizing k A B with
  | zero => rw [show k = 0 by omega, zero_nsmul, add_zero]; rfl
  | succ n ih =>
    simp only [mulAdd, forceP_eq, force_eq]
    have hk2 : k / 2 < 2 ^ n := by rw [pow_succ] at hk; omega
    have hdouble : (k / 2) • (A + A) = (2 * (k / 2)) • A := by rw [← two_nsmul, ← mul_nsmul]
    rw [add_eq]
    split
    · rename_i h1
      rw [add_eq, ih _ _ _ hk2, hdouble, add_assoc, ← succ_nsmul', show 2 * (k / 2) + 1 = k by omega]
    · rw [ih _ _ _ hk2, hdouble, show 2 * (k / 2) = k by omega]

theorem mul_eq (k : Nat) (A : curve.Point) : mul k (ofPoint A) = ofPoint (k • A) := by
  have := mulAdd_eq A 0 _ k Nat.lt_log2_self
  rw [zero_add] at this
  exact this

theorem ofPoint_inj {A B : curve.Point} (h : ofPoint A = ofPoint B) : A = B := by
  match A, B, h with
  | .zero, .zero, _ => rfl
  | .some x₁ y₁ h₁, .some x₂ y₂ h₂, h =>
    simp only [ofPoint, Option.some.injEq, Prod.mk.injEq] at h
    obtain rfl := ZMod.val_injective _ h.1
    obtain rfl := ZMod.val_injective _ h.2
    rfl

/-! ### The equation of the curve -/

theorem equation_iff' (x y : ZMod p) : curve.Equation x y ↔ y * y = x * x * x - 3 * x + (b : Nat) := by
  rw [WeierstrassCurve.Affine.equation_iff]
  constructor <;> intro h <;> linear_combination h

theorem onCurve_iff (x y : Nat) : onCurve x y = true ↔ x < p ∧ y < p ∧ curve.Equation (x : ZMod p) (y : ZMod p) := by
  have h3 : 3 * x ≤ x * x * x + p * x := Nat.le_trans (Nat.mul_le_mul_right x (by have := p_large; omega)) (Nat.le_add_left _ _)
  simp only [onCurve, Bool.and_eq_true, decide_eq_true_eq, beq_iff_eq, and_assoc, equation_iff']
  refine and_congr_right fun _ => and_congr_right fun _ => ?_
  rw [show (y * y % p = (x * x * x + p * x - 3 * x + b) % p) ↔ y * y ≡ x * x * x + p * x - 3 * x + b [MOD p] from Iff.rfl,
    ← ZMod.natCast_eq_natCast_iff, Nat.cast_add, Nat.cast_sub h3]
  push_cast
  rw [ZMod.natCast_self, zero_mul, add_zero]

end Httpsig.P256
