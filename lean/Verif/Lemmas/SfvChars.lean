import Verif.Spec.Sfv
import Verif.Lemmas.Lists
import Verif.Lemmas.Base64
/- Character-class facts for structured fields. -/
namespace Httpsig.Sfv

theorem isLower_iff (c : Char) : c.isLower = true ↔ 97 ≤ c.toNat ∧ c.toNat ≤ 122 := by
  simp only [Char.isLower, Bool.and_eq_true, decide_eq_true_eq, ge_iff_le, UInt32.le_iff_toNat_le]; exact Iff.rfl

theorem isUpper_iff (c : Char) : c.isUpper = true ↔ 65 ≤ c.toNat ∧ c.toNat ≤ 90 := by
  simp only [Char.isUpper, decide_eq_true_eq, ge_iff_le, UInt32.le_iff_toNat_le]; exact Iff.rfl

theorem isDigit_iff (c : Char) : c.isDigit = true ↔ 48 ≤ c.toNat ∧ c.toNat ≤ 57 := by
  simp only [Char.isDigit, Bool.and_eq_true, decide_eq_true_eq, ge_iff_le, UInt32.le_iff_toNat_le]; exact Iff.rfl

theorem char_eq_iff (c d : Char) : c = d ↔ c.toNat = d.toNat :=
  ⟨fun h => by rw [h], fun h => Char.ext (UInt32.toNat_inj.1 h)⟩

/-- Turn membership in any of the character classes into arithmetic on code points. -/
macro "charcls" : tactic => `(tactic| (
  simp only [isKeyChar, isKeyStart, isTchar, isTokenChar, isTokenStart, isStringChar, isB64Char,
    Char.isAlphanum, Char.isAlpha, Bool.or_eq_true, Bool.and_eq_true, beq_iff_eq, decide_eq_true_eq,
    isLower_iff, isUpper_iff, isDigit_iff, char_eq_iff, ne_eq, bne_iff_ne, Bool.not_eq_true, Char.reduceToNat] at *
  ) )

example (c : Char) (h : isKeyChar c = true) : c ≠ '=' ∧ isStringChar c = true := by
  charcls; omega

end Httpsig.Sfv
