import Verif.Spec.Grammar
import Verif.Lemmas.Strings
import Verif.Lemmas.SfvChars
/-
Header names and methods are what the grammar says.
-/
namespace Httpsig
open Sfv Grammar

instance (c : Char) : Decidable (Tchar c) := by unfold Tchar Alpha Lcalpha Digit; exact inferInstance

theorem of_ascii {p : Char → Prop} (h : ∀ n < 128, p (Char.ofNat n)) {c : Char} (hc : c.toNat < 128) : p c := by
  have := h _ hc
  rwa [Char.ofNat_toNat] at this

theorem tchar_small {c : Char} (h : Tchar c) : c.toNat < 128 := by
  rcases h with (h | h) | h | h
  · have := h.2; omega
  · have := h.2; omega
  · have := h.2; omega
  · revert h
    have : ∀ d ∈ (str% "!#$%&'*+-.^_`|~"), d.toNat < 128 := by decide
    exact this c

theorem isTchar_small {c : Char} (h : Sfv.isTchar c = true) : c.toNat < 128 := by
  simp only [Sfv.isTchar, Char.isAlphanum, Char.isAlpha, Bool.or_eq_true, beq_iff_eq, isLower_iff, isUpper_iff, isDigit_iff, char_eq_iff] at h
  rcases h with (((((((((((((((h | h) | h) | h) | h) | h) | h) | h) | h) | h) | h) | h) | h) | h) | h) | h) <;>
    first | omega | (rw [h]; decide)

theorem tchar_iff (c : Char) : Sfv.isTchar c = true ↔ Tchar c := by
  have key : ∀ n < 128, (Sfv.isTchar (Char.ofNat n) = true ↔ Tchar (Char.ofNat n)) := by decide
  have key := @of_ascii (fun c => Sfv.isTchar c = true ↔ Tchar c) key c
  exact ⟨fun h => (key (isTchar_small h)).1 h, fun h => (key (tchar_small h)).2 h⟩

theorem asciiLower_big {c : Char} (h : 128 ≤ c.toNat) : asciiLower c = c := by
  unfold asciiLower
  rw [if_neg]
  rw [isUpper_iff]; omega

variable [Deps]

set_option maxRecDepth 4000 in
theorem headerNameChar_lower (c : Char) :
    isHeaderNameChar (asciiLower c) = true ↔ Tchar c ∨ (c = '"' ∧ Deps.dquoteHeaderChar = true) := by
  by_cases hc : c.toNat < 128
  · have key : ∀ b : Bool, ∀ n < 128, (((Sfv.isTchar (asciiLower (Char.ofNat n)) && !(asciiLower (Char.ofNat n)).isUpper) ||
        (asciiLower (Char.ofNat n) == '"' && b)) = true ↔ Tchar (Char.ofNat n) ∨ (Char.ofNat n = '"' ∧ b = true)) := by decide
    exact of_ascii (p := fun c => isHeaderNameChar (asciiLower c) = true ↔ Tchar c ∨ (c = '"' ∧ Deps.dquoteHeaderChar = true))
      (key Deps.dquoteHeaderChar) hc
  · rw [asciiLower_big (by omega)]
    have h2 : c ≠ '"' := by rintro rfl; exact hc (by decide)
    simp only [isHeaderNameChar, Bool.or_eq_true, Bool.and_eq_true, beq_iff_eq, h2, false_and, or_false]
    exact ⟨fun h => absurd (isTchar_small h.1) hc, fun h => absurd (tchar_small h) hc⟩

theorem names_iff {s : Str} {h : HeaderName} : Names s h ↔ HeaderName.fromStr s = some h := by
  have key : validHeaderName (s.map asciiLower) = true ↔ FieldName s := by
    simp only [validHeaderName, FieldName, Bool.and_eq_true, List.all_map, List.all_eq_true, List.length_map, decide_eq_true_eq,
      Function.comp, headerNameChar_lower, and_assoc]
    cases s <;> simp
  unfold Names HeaderName.fromStr
  rw [lowered_eq]
  constructor
  · rintro ⟨h1, h2⟩
    rw [dif_pos (key.2 h1)]
    cases h; simp only at h2; subst h2; rfl
  · intro e
    split at e
    · rename_i hv; cases e; exact ⟨key.1 hv, rfl⟩
    · cases e

theorem fieldName_iff {s : Str} : FieldName s ↔ (HeaderName.fromStr s).isSome = true := by
  rw [Option.isSome_iff_exists]
  constructor
  · intro h
    have : validHeaderName (s.map asciiLower) = true := by
      obtain ⟨h1, h2, h3⟩ := h
      simp only [validHeaderName, Bool.and_eq_true, List.all_map, List.all_eq_true, List.length_map, decide_eq_true_eq,
        Function.comp, headerNameChar_lower, and_assoc]
      exact ⟨by cases s <;> simp_all, h2, h3⟩
    exact ⟨⟨_, this⟩, by unfold HeaderName.fromStr; rw [dif_pos this]⟩
  · rintro ⟨n, hn⟩; exact (names_iff.2 hn).1

end Httpsig
