import Verif.Http
import Verif.Lemmas.Lists
/- Decoding UTF-8 undoes encoding. -/
namespace Httpsig

theorem char_ofNat_toNat (c : Char) : Char.ofNat c.toNat = c := Char.ofNat_toNat c

theorem utf8Lossy_char (c : Char) (rest : Bytes) :
    utf8Lossy (String.utf8EncodeChar c ++ rest) = c :: utf8Lossy rest := by
  have hv : c.val.toNat < 0xd800 ∨ (0xdfff < c.val.toNat ∧ c.val.toNat < 0x110000) := c.valid
  have hc : Char.ofNat c.val.toNat = c := Char.ofNat_toNat c
  generalize hn : c.val.toNat = v at hv hc
  unfold String.utf8EncodeChar
  rw [hn]
  by_cases h1 : v ≤ 0x7f
  · rw [if_pos h1]
    have e1 : (UInt8.ofNat v).toNat = v := by simp; omega
    rw [List.singleton_append, utf8Lossy.eq_def]
    simp only [e1]
    rw [if_pos (by omega), hc]
  rw [if_neg h1]
  by_cases h2 : v ≤ 0x7ff
  · rw [if_pos h2]
    have e1 : (UInt8.ofNat (v / 64 % 0x20 + 0xc0)).toNat = v / 64 + 0xc0 := by simp; omega
    have e2 : (UInt8.ofNat (v % 0x40 + 0x80)).toNat = v % 64 + 0x80 := by simp; omega
    rw [List.cons_append, List.cons_append, List.nil_append, utf8Lossy.eq_def]
    simp only [e1, isCont, e2]
    rw [if_neg (by omega), if_pos (by omega), if_pos (by simp; omega)]
    have : (v / 64 + 192 - 192) * 64 + (v % 64 + 128 - 128) = v := by omega
    rw [this, hc]
  rw [if_neg h2]
  by_cases h3 : v ≤ 0xffff
  · rw [if_pos h3]
    have e1 : (UInt8.ofNat (v / 4096 % 0x10 + 0xe0)).toNat = v / 4096 + 0xe0 := by simp; omega
    have e2 : (UInt8.ofNat (v / 64 % 0x40 + 0x80)).toNat = v / 64 % 64 + 0x80 := by simp; omega
    have e3 : (UInt8.ofNat (v % 0x40 + 0x80)).toNat = v % 64 + 0x80 := by simp; omega
    rw [List.cons_append, List.cons_append, List.cons_append, List.nil_append, utf8Lossy.eq_def]
    simp only [e1, isCont, e2, e3]
    rw [if_neg (by omega), if_neg (by omega), if_pos (by omega)]
    rw [if_pos (by split <;> (try split) <;> omega), if_pos (by simp; omega)]
    have : (v / 4096 + 224 - 224) * 4096 + (v / 64 % 64 + 128 - 128) * 64 + (v % 64 + 128 - 128) = v := by omega
    rw [this, hc]
  · rw [if_neg h3]
    have e1 : (UInt8.ofNat (v / 262144 % 0x08 + 0xf0)).toNat = v / 262144 + 0xf0 := by simp; omega
    have e2 : (UInt8.ofNat (v / 4096 % 0x40 + 0x80)).toNat = v / 4096 % 64 + 0x80 := by simp; omega
    have e3 : (UInt8.ofNat (v / 64 % 0x40 + 0x80)).toNat = v / 64 % 64 + 0x80 := by simp; omega
    have e4 : (UInt8.ofNat (v % 0x40 + 0x80)).toNat = v % 64 + 0x80 := by simp; omega
    rw [List.cons_append, List.cons_append, List.cons_append, List.cons_append, List.nil_append, utf8Lossy.eq_def]
    simp only [e1, isCont, e2, e3, e4]
    rw [if_neg (by omega), if_neg (by omega), if_neg (by omega), if_pos (by omega)]
    rw [if_pos (by split <;> (try split) <;> omega), if_pos (by simp; omega), if_pos (by simp; omega)]
    have : (v / 262144 + 240 - 240) * 262144 + (v / 4096 % 64 + 128 - 128) * 4096 + (v / 64 % 64 + 128 - 128) * 64 +
        (v % 64 + 128 - 128) = v := by omega
    rw [this, hc]

/-- Decoding what was encoded gives the text back. -/
theorem utf8Lossy_utf8 (s : Str) : utf8Lossy (utf8 s) = s := by
  induction s with
  | nil => rw [show utf8 [] = [] from rfl, utf8Lossy.eq_def]
  | cons c s ih =>
    have : utf8 (c :: s) = String.utf8EncodeChar c ++ utf8 s := by simp [utf8]
    rw [this, utf8Lossy_char, ih]

end Httpsig
