import Verif.Basic
/- Lemmas about lists and characters. -/
namespace Httpsig

theorem takeWhile_append_stop {p : Char → Bool} {k rest : Str}
    (hk : k.all p = true) (hr : ∀ c ∈ rest.head?, p c = false) :
    (k ++ rest).takeWhile p = k := by
  induction k with
  | nil => cases rest <;> simp_all
  | cons a as ih => simp_all

theorem dropWhile_append_stop {p : Char → Bool} {k rest : Str}
    (hk : k.all p = true) (hr : ∀ c ∈ rest.head?, p c = false) :
    (k ++ rest).dropWhile p = rest := by
  induction k with
  | nil => cases rest <;> simp_all
  | cons a as ih => simp_all

theorem dropWhile_eq_self {p : Char → Bool} {rest : Str} (hr : ∀ c ∈ rest.head?, p c = false) :
    rest.dropWhile p = rest := by
  cases rest <;> simp_all

/-- UTF-8 encoding is injective. -/
theorem utf8_injective {a b : Str} (h : utf8 a = utf8 b) : a = b := by
  apply String.ofList_injective
  apply String.toByteArray_inj.1
  simp only [utf8] at h
  simp [List.utf8Encode, h]

theorem utf8_append (a b : Str) : utf8 (a ++ b) = utf8 a ++ utf8 b := by simp [utf8]

theorem utf8EncodeChar_ascii {c : Char} (h : c.toNat < 128) :
    String.utf8EncodeChar c = [UInt8.ofNat c.toNat] := by
  have h' : c.utf8Size = 1 := by
    rw [Char.utf8Size_eq_one_iff]
    exact Nat.le_of_lt_succ h
  rw [String.utf8EncodeChar_eq_singleton h']
  rfl

theorem charToNat_ofNat {n : Nat} (h : n.isValidChar) : (Char.ofNat n).toNat = n := by
  unfold Char.ofNat
  rw [dif_pos h]
  rfl

theorem isValidChar_of_lt {n : Nat} (h : n < 0xd800) : n.isValidChar := Or.inl h

end Httpsig
