import Verif.Spec.Query
import Verif.Lemmas.Utf8
/- The model's lossy decoder meets the specification. -/
namespace Httpsig

/-- Second byte of a character of three bytes. -/
def ok3 (a b : Nat) : Prop := 0x80 ≤ b ∧ b ≤ 0xBF ∧ (a = 0xE0 → 0xA0 ≤ b) ∧ (a = 0xED → b ≤ 0x9F)
/-- Second byte of a character of four bytes. -/
def ok4 (a b : Nat) : Prop := 0x80 ≤ b ∧ b ≤ 0xBF ∧ (a = 0xF0 → 0x90 ≤ b) ∧ (a = 0xF4 → b ≤ 0x8F)

/-- The four shapes of the bytes of a character. -/
def CharShape (l : Bytes) : Prop :=
  match l with
  | [a] => a.toNat < 0x80
  | [a, b] => 0xC2 ≤ a.toNat ∧ a.toNat ≤ 0xDF ∧ 0x80 ≤ b.toNat ∧ b.toNat ≤ 0xBF
  | [a, b, c] => 0xE0 ≤ a.toNat ∧ a.toNat ≤ 0xEF ∧ ok3 a.toNat b.toNat ∧ 0x80 ≤ c.toNat ∧ c.toNat ≤ 0xBF
  | [a, b, c, d] => 0xF0 ≤ a.toNat ∧ a.toNat ≤ 0xF4 ∧ ok4 a.toNat b.toNat ∧ 0x80 ≤ c.toNat ∧ c.toNat ≤ 0xBF ∧
      0x80 ≤ d.toNat ∧ d.toNat ≤ 0xBF
  | _ => False

theorem charShape_enc (c : Char) : CharShape (String.utf8EncodeChar c) := by
  have hv : c.val.toNat < 0xd800 ∨ (0xdfff < c.val.toNat ∧ c.val.toNat < 0x110000) := c.valid
  unfold String.utf8EncodeChar
  generalize c.val.toNat = v at hv
  by_cases h1 : v ≤ 0x7f
  · rw [if_pos h1]
    simp only [CharShape, UInt8.toNat_ofNat']
    omega
  rw [if_neg h1]
  by_cases h2 : v ≤ 0x7ff
  · rw [if_pos h2]
    simp only [CharShape, UInt8.toNat_ofNat']
    omega
  rw [if_neg h2]
  by_cases h3 : v ≤ 0xffff
  · rw [if_pos h3]
    simp only [CharShape, UInt8.toNat_ofNat', ok3]
    omega
  · rw [if_neg h3]
    simp only [CharShape, UInt8.toNat_ofNat', ok4]
    omega

theorem uint8_eq {a : UInt8} {n : Nat} (h : n % 256 = a.toNat) : UInt8.ofNat n = a :=
  UInt8.toNat_inj.1 (by rw [UInt8.toNat_ofNat']; exact h)

theorem char_toNat {v : Nat} (h : Nat.isValidChar v) : (Char.ofNat v).toNat = v := by
  unfold Char.ofNat
  rw [dif_pos h]
  rfl

theorem enc_three {a b c : UInt8} (ha : 0xE0 ≤ a.toNat ∧ a.toNat ≤ 0xEF) (hb : ok3 a.toNat b.toNat)
    (hc : 0x80 ≤ c.toNat ∧ c.toNat ≤ 0xBF) :
    String.utf8EncodeChar (Char.ofNat ((a.toNat - 0xE0) * 4096 + (b.toNat - 0x80) * 64 + (c.toNat - 0x80))) = [a, b, c] := by
  unfold ok3 at hb
  generalize hv : (a.toNat - 0xE0) * 4096 + (b.toNat - 0x80) * 64 + (c.toNat - 0x80) = v
  have hval : Nat.isValidChar v := by unfold Nat.isValidChar; omega
  have e : (Char.ofNat v).val.toNat = v := by
    have : (Char.ofNat v).toNat = v := char_toNat hval
    exact this
  unfold String.utf8EncodeChar
  rw [e]
  rw [if_neg (by omega), if_neg (by omega), if_pos (by omega)]
  rw [uint8_eq (a := a) (by omega), uint8_eq (a := b) (by omega), uint8_eq (a := c) (by omega)]

theorem enc_four {a b c d : UInt8} (ha : 0xF0 ≤ a.toNat ∧ a.toNat ≤ 0xF4) (hb : ok4 a.toNat b.toNat)
    (hc : 0x80 ≤ c.toNat ∧ c.toNat ≤ 0xBF) (hd : 0x80 ≤ d.toNat ∧ d.toNat ≤ 0xBF) :
    String.utf8EncodeChar (Char.ofNat ((a.toNat - 0xF0) * 262144 + (b.toNat - 0x80) * 4096 + (c.toNat - 0x80) * 64 +
      (d.toNat - 0x80))) = [a, b, c, d] := by
  unfold ok4 at hb
  generalize hv : (a.toNat - 0xF0) * 262144 + (b.toNat - 0x80) * 4096 + (c.toNat - 0x80) * 64 + (d.toNat - 0x80) = v
  have hval : Nat.isValidChar v := by unfold Nat.isValidChar; omega
  have e : (Char.ofNat v).val.toNat = v := by
    have : (Char.ofNat v).toNat = v := char_toNat hval
    exact this
  unfold String.utf8EncodeChar
  rw [e]
  rw [if_neg (by omega), if_neg (by omega), if_neg (by omega)]
  rw [uint8_eq (a := a) (by omega), uint8_eq (a := b) (by omega), uint8_eq (a := c) (by omega), uint8_eq (a := d) (by omega)]

theorem enc_one {a : UInt8} (ha : a.toNat < 0x80) : String.utf8EncodeChar (Char.ofNat a.toNat) = [a] := by
  have hval : Nat.isValidChar a.toNat := by unfold Nat.isValidChar; omega
  have e : (Char.ofNat a.toNat).val.toNat = a.toNat := by
    have : (Char.ofNat a.toNat).toNat = a.toNat := char_toNat hval
    exact this
  unfold String.utf8EncodeChar
  rw [e, if_pos (by omega), uint8_eq (a := a) (by omega)]

theorem enc_two {a b : UInt8} (ha : 0xC2 ≤ a.toNat ∧ a.toNat ≤ 0xDF) (hb : 0x80 ≤ b.toNat ∧ b.toNat ≤ 0xBF) :
    String.utf8EncodeChar (Char.ofNat ((a.toNat - 0xC0) * 64 + (b.toNat - 0x80))) = [a, b] := by
  generalize hv : (a.toNat - 0xC0) * 64 + (b.toNat - 0x80) = v
  have hval : Nat.isValidChar v := by unfold Nat.isValidChar; omega
  have e : (Char.ofNat v).val.toNat = v := by
    have : (Char.ofNat v).toNat = v := char_toNat hval
    exact this
  unfold String.utf8EncodeChar
  rw [e, if_neg (by omega), if_pos (by omega), uint8_eq (a := a) (by omega), uint8_eq (a := b) (by omega)]

theorem not_begins {p : Bytes} (h : ∀ l, CharShape l → ¬ p <+: l) : ¬ BeginsChar p :=
  fun ⟨c, hc⟩ => h _ (charShape_enc c) hc

theorem not_complete {l : Bytes} (h : ∀ m, CharShape m → ¬ m <+: l) (c : Char) : ¬ String.utf8EncodeChar c <+: l :=
  h _ (charShape_enc c)

/-- The shapes, one by one. -/
theorem CharShape.cases {l : Bytes} (h : CharShape l) {Q : Prop}
    (h1 : ∀ a, l = [a] → a.toNat < 0x80 → Q)
    (h2 : ∀ a b, l = [a, b] → 0xC2 ≤ a.toNat ∧ a.toNat ≤ 0xDF → 0x80 ≤ b.toNat ∧ b.toNat ≤ 0xBF → Q)
    (h3 : ∀ a b c, l = [a, b, c] → 0xE0 ≤ a.toNat ∧ a.toNat ≤ 0xEF → ok3 a.toNat b.toNat → 0x80 ≤ c.toNat ∧ c.toNat ≤ 0xBF → Q)
    (h4 : ∀ a b c d, l = [a, b, c, d] → 0xF0 ≤ a.toNat ∧ a.toNat ≤ 0xF4 → ok4 a.toNat b.toNat →
      0x80 ≤ c.toNat ∧ c.toNat ≤ 0xBF → 0x80 ≤ d.toNat ∧ d.toNat ≤ 0xBF → Q) : Q := by
  match l, h with
  | [], h => exact h.elim
  | [a], h => exact h1 a rfl h
  | [a, b], h => exact h2 a b rfl ⟨h.1, h.2.1⟩ ⟨h.2.2.1, h.2.2.2⟩
  | [a, b, c], h => exact h3 a b c rfl ⟨h.1, h.2.1⟩ h.2.2.1 ⟨h.2.2.2.1, h.2.2.2.2⟩
  | [a, b, c, d], h => exact h4 a b c d rfl ⟨h.1, h.2.1⟩ h.2.2.1 ⟨h.2.2.2.1, h.2.2.2.2.1⟩ ⟨h.2.2.2.2.2.1, h.2.2.2.2.2.2⟩
  | _ :: _ :: _ :: _ :: _ :: _, h => exact h.elim

/-- What does not begin a character cannot be continued to do so. -/
theorem not_begins_append {p q : Bytes} (h : ¬ BeginsChar p) : ¬ BeginsChar (p ++ q) :=
  fun ⟨c, hc⟩ => h ⟨c, (List.prefix_append p q).trans hc⟩

/-- One byte more is enough to see that a piece is longest. -/
theorem longest {p rest : Bytes} (h : ∀ b r, rest = b :: r → ¬ BeginsChar (p ++ [b])) :
    ∀ q, q <+: rest → q ≠ [] → ¬ BeginsChar (p ++ q) := by
  rintro q ⟨r, rfl⟩ hq
  cases q with
  | nil => exact absurd rfl hq
  | cons b q =>
    have := not_begins_append (q := q) (h b (q ++ r) rfl)
    simpa using this

/-- Replacing a piece of which one byte more shows that it is longest. -/
theorem LossyText.bad {p rest : Bytes} {s : Str} (hne : p ≠ []) (hb : BeginsChar p ∨ p.length = 1)
    (hinc : ∀ m, CharShape m → ¬ m <+: p) (h : ∀ b r, rest = b :: r → ¬ BeginsChar (p ++ [b])) (hs : LossyText rest s) :
    LossyText (p ++ rest) ('\uFFFD' :: s) := by
  refine .replaced ?_ hne hb (longest h) hs
  intro c hc
  by_cases hl : (String.utf8EncodeChar c).length ≤ p.length
  · exact hinc _ (charShape_enc c) (List.prefix_of_prefix_length_le hc (List.prefix_append _ _) hl)
  · obtain ⟨q, hq⟩ := List.prefix_of_prefix_length_le (List.prefix_append p rest) hc (by omega)
    rw [← hq] at hc
    refine longest h q ((List.prefix_append_right_inj p).1 hc) ?_ ⟨c, by rw [hq]; exact List.prefix_refl _⟩
    rintro rfl
    rw [← hq] at hl
    simp at hl

theorem CharShape.first {l : Bytes} (h : CharShape l) : ∃ a r, l = a :: r ∧ (r = [] → a.toNat < 0x80) ∧
    (a.toNat < 0x80 ∨ (0xC2 ≤ a.toNat ∧ a.toNat ≤ 0xF4)) := by
  refine h.cases ?_ ?_ ?_ ?_
  · rintro a rfl h; exact ⟨a, _, rfl, fun _ => h, .inl h⟩
  · rintro a b rfl h _; exact ⟨a, _, rfl, (nomatch ·), .inr (by omega)⟩
  · rintro a b c rfl h _ _; exact ⟨a, _, rfl, (nomatch ·), .inr (by omega)⟩
  · rintro a b c d rfl h _ _ _; exact ⟨a, _, rfl, (nomatch ·), .inr (by omega)⟩

theorem begins2 {a b : UInt8} (h : BeginsChar [a, b]) :
    (0xC2 ≤ a.toNat ∧ a.toNat ≤ 0xDF ∧ 0x80 ≤ b.toNat ∧ b.toNat ≤ 0xBF) ∨
    (0xE0 ≤ a.toNat ∧ a.toNat ≤ 0xEF ∧ ok3 a.toNat b.toNat) ∨ (0xF0 ≤ a.toNat ∧ a.toNat ≤ 0xF4 ∧ ok4 a.toNat b.toNat) := by
  obtain ⟨ch, t, ht⟩ := h
  refine (charShape_enc ch).cases ?_ ?_ ?_ ?_
  · intro x e _; rw [e] at ht; cases ht
  · intro x y e h1 h2; rw [e] at ht; cases ht; exact .inl ⟨h1.1, h1.2, h2⟩
  · intro x y z e h1 h2 _; rw [e] at ht; cases ht; exact .inr (.inl ⟨h1.1, h1.2, h2⟩)
  · intro x y z w e h1 h2 _ _; rw [e] at ht; cases ht; exact .inr (.inr ⟨h1.1, h1.2, h2⟩)

theorem begins3 {a b c : UInt8} (h : BeginsChar [a, b, c]) :
    0xE0 ≤ a.toNat ∧ 0x80 ≤ c.toNat ∧ c.toNat ≤ 0xBF := by
  obtain ⟨ch, t, ht⟩ := h
  refine (charShape_enc ch).cases ?_ ?_ ?_ ?_
  · intro x e _; rw [e] at ht; cases ht
  · intro x y e h1 h2; rw [e] at ht; cases ht
  · intro x y z e h1 h2 h3; rw [e] at ht; cases ht; exact ⟨h1.1, h3⟩
  · intro x y z w e h1 h2 h3 _; rw [e] at ht; cases ht; exact ⟨by omega, h3⟩

theorem begins4 {a b c d : UInt8} (h : BeginsChar [a, b, c, d]) : 0x80 ≤ d.toNat ∧ d.toNat ≤ 0xBF := by
  obtain ⟨ch, t, ht⟩ := h
  refine (charShape_enc ch).cases ?_ ?_ ?_ ?_
  · intro x e _; rw [e] at ht; cases ht
  · intro x y e h1 h2; rw [e] at ht; cases ht
  · intro x y z e h1 h2 h3; rw [e] at ht; cases ht
  · intro x y z w e h1 h2 h3 h4; rw [e] at ht; cases ht; exact h4

theorem LossyText.bad1 {a : UInt8} {rest : Bytes} {s : Str} (ha : 0x80 ≤ a.toNat)
    (h : ∀ b r, rest = b :: r → ¬ BeginsChar [a, b]) (hs : LossyText rest s) : LossyText (a :: rest) ('\uFFFD' :: s) := by
  refine .bad (p := [a]) (by simp) (.inr rfl) ?_ h hs
  intro m hm hp
  obtain ⟨x, r, rfl, h1, _⟩ := hm.first
  rw [List.cons_prefix_cons] at hp
  obtain ⟨rfl, hr⟩ := hp
  have := h1 (List.prefix_nil.1 hr)
  omega

theorem LossyText.bad2 {a b : UInt8} {rest : Bytes} {s : Str} (ha : 0xE0 ≤ a.toNat) (hb : BeginsChar [a, b])
    (h : ∀ c r, rest = c :: r → ¬ BeginsChar [a, b, c]) (hs : LossyText rest s) :
    LossyText (a :: b :: rest) ('\uFFFD' :: s) := by
  refine .bad (p := [a, b]) (by simp) (.inl hb) ?_ h hs
  rintro m hm ⟨t, ht⟩
  refine hm.cases ?_ ?_ ?_ ?_
  · rintro x rfl h; cases ht; omega
  · rintro x y rfl h _; cases ht; omega
  · rintro x y z rfl _ _ _; cases ht
  · rintro x y z w rfl _ _ _ _; cases ht

theorem LossyText.bad3 {a b c : UInt8} {rest : Bytes} {s : Str} (ha : 0xF0 ≤ a.toNat) (hb : BeginsChar [a, b, c])
    (h : ∀ d r, rest = d :: r → ¬ BeginsChar [a, b, c, d]) (hs : LossyText rest s) :
    LossyText (a :: b :: c :: rest) ('\uFFFD' :: s) := by
  refine .bad (p := [a, b, c]) (by simp) (.inl hb) ?_ h hs
  rintro m hm ⟨t, ht⟩
  refine hm.cases ?_ ?_ ?_ ?_
  · rintro x rfl h; cases ht; omega
  · rintro x y rfl h _; cases ht; omega
  · rintro x y z rfl h _ _; cases ht; omega
  · rintro x y z w rfl _ _ _ _; cases ht

theorem LossyText.encoded {c : Char} {e rest : Bytes} {s : Str} (h : String.utf8EncodeChar c = e) (hs : LossyText rest s) :
    LossyText (e ++ rest) (c :: s) := h ▸ .char c hs

theorem isCont_iff {b : UInt8} : isCont b = true ↔ 0x80 ≤ b.toNat ∧ b.toNat ≤ 0xBF := by
  simp [isCont]

theorem begins_three {a b : UInt8} (ha : 0xE0 ≤ a.toNat ∧ a.toNat ≤ 0xEF) (hb : ok3 a.toNat b.toNat) : BeginsChar [a, b] :=
  ⟨_, by rw [enc_three (c := 0x80) ha hb (by decide)]; exact ⟨[0x80], rfl⟩⟩

theorem begins_four {a b : UInt8} (ha : 0xF0 ≤ a.toNat ∧ a.toNat ≤ 0xF4) (hb : ok4 a.toNat b.toNat) : BeginsChar [a, b] :=
  ⟨_, by rw [enc_four (c := 0x80) (d := 0x80) ha hb (by decide) (by decide)]; exact ⟨[0x80, 0x80], rfl⟩⟩

theorem begins_four' {a b c : UInt8} (ha : 0xF0 ≤ a.toNat ∧ a.toNat ≤ 0xF4) (hb : ok4 a.toNat b.toNat)
    (hc : 0x80 ≤ c.toNat ∧ c.toNat ≤ 0xBF) : BeginsChar [a, b, c] :=
  ⟨_, by rw [enc_four (d := 0x80) ha hb hc (by decide)]; exact ⟨[0x80], rfl⟩⟩

/-- The decoder decodes with replacement. -/
theorem lossyText_utf8Lossy (b : Bytes) : LossyText b (utf8Lossy b) := by
  fun_induction utf8Lossy b with
  | case1 => exact .nil
  | case2 a rest n h ih => have := LossyText.char (Char.ofNat a.toNat) ih; rwa [enc_one h] at this
  | case3 a n h1 h2 b rest h3 ih => exact .encoded (enc_two h2 (isCont_iff.1 h3)) ih
  | case4 a n bad h1 h2 b rest h3 ih =>
    refine .bad1 (by omega) (fun x r e => ?_) ih
    cases e
    intro hb
    rw [isCont_iff] at h3
    rcases begins2 hb with h | h | h <;> omega
  | case5 a n bad h1 h2 => exact .bad1 (by omega) (fun x r e => nomatch e) .nil
  | case6 a n h1 h2 h3 b ok2 h4 c rest h5 ih =>
    exact .encoded (enc_three h3 (by simp only [ok2] at h4; unfold ok3; split at h4 <;> (try split at h4) <;> omega) (isCont_iff.1 h5)) ih
  | case7 a n bad h1 h2 h3 b ok2 h4 c rest h5 ih =>
    refine .bad2 h3.1 (begins_three h3 (by simp only [ok2] at h4; unfold ok3; split at h4 <;> (try split at h4) <;> omega)) (fun x r e => ?_) ih
    cases e
    exact fun hb => h5 (isCont_iff.2 (begins3 hb).2)
  | case8 a n bad h1 h2 h3 b ok2 h4 =>
    exact .bad2 h3.1 (begins_three h3 (by simp only [ok2] at h4; unfold ok3; split at h4 <;> (try split at h4) <;> omega)) (fun x r e => nomatch e) .nil
  | case9 a n bad h1 h2 h3 b rest ok2 h4 ih =>
    refine .bad1 (by omega) (fun x r e => ?_) ih
    cases e
    intro hb
    simp only [ok2] at h4
    rcases begins2 hb with h | h | h
    · omega
    · unfold ok3 at h; split at h4 <;> (try split at h4) <;> omega
    · omega
  | case10 a n bad h1 h2 h3 => exact .bad1 (by omega) (fun x r e => nomatch e) .nil
  | case11 a n h1 h2 h3 h4 b ok2 h5 c h6 d rest h7 ih =>
    exact .encoded (enc_four h4 (by simp only [ok2] at h5; unfold ok4; split at h5 <;> (try split at h5) <;> omega) (isCont_iff.1 h6) (isCont_iff.1 h7)) ih
  | case12 a n bad h1 h2 h3 h4 b ok2 h5 c h6 d rest h7 ih =>
    refine .bad3 h4.1 (begins_four' h4 (by simp only [ok2] at h5; unfold ok4; split at h5 <;> (try split at h5) <;> omega) (isCont_iff.1 h6)) (fun x r e => ?_) ih
    cases e
    exact fun hb => h7 (isCont_iff.2 (begins4 hb))
  | case13 a n bad h1 h2 h3 h4 b ok2 h5 c h6 =>
    exact .bad3 h4.1 (begins_four' h4 (by simp only [ok2] at h5; unfold ok4; split at h5 <;> (try split at h5) <;> omega) (isCont_iff.1 h6)) (fun x r e => nomatch e) .nil
  | case14 a n bad h1 h2 h3 h4 b ok2 h5 c rest h6 ih =>
    refine .bad2 (by omega) (begins_four h4 (by simp only [ok2] at h5; unfold ok4; split at h5 <;> (try split at h5) <;> omega)) (fun x r e => ?_) ih
    cases e
    exact fun hb => h6 (isCont_iff.2 (begins3 hb).2)
  | case15 a n bad h1 h2 h3 h4 b ok2 h5 =>
    exact .bad2 (by omega) (begins_four h4 (by simp only [ok2] at h5; unfold ok4; split at h5 <;> (try split at h5) <;> omega)) (fun x r e => nomatch e) .nil
  | case16 a n bad h1 h2 h3 h4 b rest ok2 h5 ih =>
    refine .bad1 (by omega) (fun x r e => ?_) ih
    cases e
    intro hb
    simp only [ok2] at h5
    rcases begins2 hb with h | h | h
    · omega
    · omega
    · unfold ok4 at h; split at h5 <;> (try split at h5) <;> omega
  | case17 a n bad h1 h2 h3 h4 => exact .bad1 (by omega) (fun x r e => nomatch e) .nil
  | case18 a rest n bad h1 h2 h3 h4 ih =>
    refine .bad1 (by omega) (fun x r e => ?_) ih
    intro hb
    rcases begins2 hb with h | h | h <;> omega

theorem lossyText_nil {s : Str} (h : LossyText [] s) : s = [] := by
  generalize hb : ([] : Bytes) = b at h
  cases h with
  | nil => rfl
  | char c h =>
    obtain ⟨a, r, e, _⟩ := (charShape_enc c).first
    rw [e] at hb
    cases hb
  | replaced _ hne _ _ _ => simp at hb; exact absurd hb.1 hne

theorem lossyText_unique {b : Bytes} {s t : Str} (h : LossyText b s) (h' : LossyText b t) : s = t := by
  induction h generalizing t with
  | nil => exact (lossyText_nil h').symm
  | @char c rest s h ih =>
    generalize hb : String.utf8EncodeChar c ++ rest = b at h'
    cases h' with
    | nil =>
      obtain ⟨a, r, e, _⟩ := (charShape_enc c).first
      rw [e] at hb
      cases hb
    | @char d rest' s' h' =>
      have e1 := utf8Lossy_char c rest
      rw [hb, utf8Lossy_char] at e1
      obtain rfl : d = c := (List.cons.inj e1).1
      have := List.append_cancel_left hb
      subst this
      rw [ih h']
    | replaced hno _ _ _ _ => exact absurd (by rw [← hb]; exact List.prefix_append _ _) (hno c)
  | @replaced p rest s hno hne hb hl h ih =>
    generalize he : p ++ rest = b at h'
    cases h' with
    | nil => simp at he; exact absurd he.1 hne
    | @char d rest' s' h' => exact absurd (by rw [he]; exact List.prefix_append _ _) (hno d)
    | @replaced p' rest' s' hno' hne' hb' hl' h' =>
      have key : ∀ {p rest p' rest' : Bytes}, p ≠ [] → p ++ rest = p' ++ rest' → (BeginsChar p' ∨ p'.length = 1) →
          (∀ q, q <+: rest → q ≠ [] → ¬ BeginsChar (p ++ q)) → p'.length ≤ p.length := by
        intro p rest p' rest' hne he hb' hl
        have hpos := List.length_pos_iff.2 hne
        rcases hb' with hb' | hb'
        · by_cases hlt : p'.length ≤ p.length
          · exact hlt
          · obtain ⟨q, hq⟩ := List.prefix_of_prefix_length_le (l₁ := p) (l₂ := p') (he ▸ List.prefix_append p rest) (List.prefix_append p' rest') (by omega)
            rw [← hq] at hb' he
            refine absurd hb' (hl q ⟨rest', ?_⟩ ?_)
            · rw [List.append_assoc] at he
              exact (List.append_cancel_left he).symm
            · rintro rfl
              rw [← hq] at hlt
              simp at hlt
        · omega
      have e1 := key hne he hb' hl
      have e2 := key hne' he.symm hb hl'
      have e3 := List.append_inj he (by omega)
      obtain ⟨rfl, rfl⟩ := e3
      rw [ih h']

theorem lossyText_iff {b : Bytes} {s : Str} : LossyText b s ↔ s = utf8Lossy b :=
  ⟨fun h => lossyText_unique h (lossyText_utf8Lossy b), fun h => h ▸ lossyText_utf8Lossy b⟩

end Httpsig
