import Verif.Lemmas.SfvBare
import Verif.Spec.Render
/- The serialiser writes exactly the texts of `Spec/Render`. -/
namespace Httpsig.Grammar
open Sfv Base64

/-! ### Characters and keys -/

theorem keyStart_iff (c : Char) : isKeyStart c = true ↔ Lcalpha c ∨ c = '*' := by
  simp only [isKeyStart, Bool.or_eq_true, beq_iff_eq, isLower_iff, Lcalpha]

theorem keyChar_iff (c : Char) : isKeyChar c = true ↔ Lcalpha c ∨ Digit c ∨ c ∈ (str% "_-.*") := by
  simp only [isKeyChar, Bool.or_eq_true, beq_iff_eq, isLower_iff, isDigit_iff, Lcalpha, Digit, List.mem_cons, List.not_mem_nil,
    or_false]
  constructor
  · rintro (((((h | h) | h) | h) | h) | h) <;> simp [h]
  · rintro (h | h | h | h | h | h) <;> simp [h]

theorem tokenStart_iff (c : Char) : isTokenStart c = true ↔ Alpha c ∨ c = '*' := by
  simp only [isTokenStart, Char.isAlpha, Bool.or_eq_true, beq_iff_eq, isLower_iff, isUpper_iff, Alpha, Lcalpha]
  constructor
  · rintro ((h | h) | h) <;> simp [h]
  · rintro ((h | h) | h) <;> simp [h]

theorem tokenChar_iff (c : Char) : isTokenChar c = true ↔ Alpha c ∨ Digit c ∨ c ∈ (str% "!#$%&'*+-.^_`|~:/") := by
  simp only [isTokenChar, isTchar, Char.isAlphanum, Char.isAlpha, Bool.or_eq_true, beq_iff_eq, isLower_iff, isUpper_iff,
    isDigit_iff, Alpha, Lcalpha, Digit, List.mem_cons, List.not_mem_nil, or_false]
  constructor
  · intro h
    simp only [or_assoc] at h ⊢
    rcases h with h | h | h | h | h | h | h | h | h | h | h | h | h | h | h | h | h | h | h | h <;> simp [h]
  · intro h
    simp only [or_assoc] at h ⊢
    rcases h with h | h | h | h | h | h | h | h | h | h | h | h | h | h | h | h | h | h | h | h <;> simp [h]

theorem key_iff (k : Str) : KeyOk k ↔ Key k := by
  constructor
  · rintro ⟨c, cs, rfl, h1, h2⟩
    refine ⟨(keyStart_iff c).1 h1, fun d hd => (keyChar_iff d).1 ?_⟩
    rw [List.all_eq_true] at h2
    exact h2 d hd
  · rintro ⟨h1, h2⟩
    refine ⟨_, _, rfl, (keyStart_iff _).2 h1, ?_⟩
    rw [List.all_eq_true]
    exact fun d hd => (keyChar_iff d).2 (h2 d hd)

theorem digits_extend {a : Str} {n : Nat} (h : Digits a n) : ∀ (b : Str), (∀ c ∈ b, c.isDigit = true) →
    Digits (a ++ b) (b.foldl (fun n c => n * 10 + (c.toNat - 48)) n) := by
  intro b
  induction b generalizing a n with
  | nil => intro _; simpa using h
  | cons c b ih =>
    intro hb
    have := ih (Digits.snoc h ((isDigit_iff c).1 (hb c (by simp)))) (fun d hd => hb d (by simp [hd]))
    simpa [List.append_assoc, Nat.mul_comm] using this

theorem digits_iff (s : Str) (n : Nat) : Digits s n ↔ (∀ c ∈ s, c.isDigit = true) ∧ digitsVal s = n := by
  constructor
  · intro h
    induction h with
    | nil => simp [digitsVal]
    | @snoc s n c _ hc ih =>
      refine ⟨?_, ?_⟩
      · intro d hd
        rcases List.mem_append.1 hd with hd | hd
        · exact ih.1 d hd
        · rw [List.mem_singleton.1 hd]; exact (isDigit_iff c).2 hc
      · rw [digitsVal_append, ih.2]
        simp [digitsVal, Nat.mul_comm]
  · rintro ⟨h, rfl⟩
    exact digits_extend .nil s h

theorem token_iff (c : Char) (cs : Str) :
    (isTokenStart c && cs.all isTokenChar) = true ↔ Token (c :: cs) := by
  simp only [Bool.and_eq_true, List.all_eq_true, tokenStart_iff, tokenChar_iff]
  exact ⟨fun h => ⟨h.1, h.2⟩, fun h => by cases h with | mk h1 h2 => exact ⟨h1, h2⟩⟩

theorem digits_inj {s t : Str} {n : Nat} (hs : Digits s n) (ht : Digits t n) (hl : s.length = t.length) : s = t := by
  induction hs generalizing t with
  | nil => exact (List.length_eq_zero_iff.1 hl.symm).symm
  | @snoc s n c hs hc ih =>
    generalize hm : 10 * n + (c.toNat - 48) = m at ht
    cases ht with
    | nil => simp at hl
    | @snoc t k d ht hd =>
      have hc' := hc; have hd' := hd
      simp only [Digit] at hc' hd'
      have e1 : n = k := by omega
      have e2 : c = d := (char_eq_iff c d).2 (by omega)
      subst e1 e2
      rw [ih ht (by simpa using hl)]

/-! ### Rounding -/

theorem rounded_round3' (d : Decimal) : Rounded d (Decimal.round3 d) ∧ (Decimal.round3 d).scale = min d.scale 3 := by
  by_cases hs : d.scale ≤ 3
  · rw [Decimal.round3, if_pos hs]
    refine ⟨⟨rfl, d.mant * 10 ^ (3 - d.scale), ?_, ?_⟩, by omega⟩
    · rw [Nat.mul_assoc, ← Nat.pow_add, Nat.sub_add_cancel hs]
    · have hpow : d.mant * 10 ^ (3 - d.scale) * 10 ^ d.scale = d.mant * 1000 := by
        rw [Nat.mul_assoc, ← Nat.pow_add, Nat.sub_add_cancel hs]
      have hp : 0 < 10 ^ d.scale := Nat.pow_pos (by omega)
      rw [hpow]
      refine ⟨by omega, by omega, ?_⟩
      intro h; omega
  · obtain ⟨n, hn⟩ : ∃ n, d.scale = n + 3 := ⟨d.scale - 3, by omega⟩
    have hp : 0 < 10 ^ n := Nat.pow_pos (by omega)
    have hdm := Nat.div_add_mod d.mant (10 ^ n)
    have hlt := Nat.mod_lt d.mant hp
    have hsize : 10 ^ d.scale = 10 ^ n * 1000 := by rw [hn, Nat.pow_add]
    have e : Decimal.round3 d = ⟨d.neg, (if 2 * (d.mant % 10 ^ n) > 10 ^ n ∨ (2 * (d.mant % 10 ^ n) = 10 ^ n ∧ d.mant / 10 ^ n % 2 = 1)
        then d.mant / 10 ^ n + 1 else d.mant / 10 ^ n), 3⟩ := by
      rw [Decimal.round3, if_neg hs]
      simp only [hn, Nat.add_sub_cancel]
    rw [e]
    refine ⟨⟨rfl, _, rfl, ?_⟩, by simp only; omega⟩
    rw [hsize]
    simp only
    generalize d.mant / 10 ^ n = q at *
    generalize d.mant % 10 ^ n = r at *
    generalize 10 ^ n = p at *
    have hm : d.mant = p * q + r := hdm.symm
    rw [hm]
    have h1 : q * (p * 1000) = 1000 * (p * q) := by
      rw [Nat.mul_left_comm, ← Nat.mul_assoc, Nat.mul_comm]
    have h2 : (q + 1) * (p * 1000) = 1000 * (p * q) + 1000 * p := by
      rw [Nat.add_mul, h1, Nat.one_mul, Nat.mul_comm p 1000]
    split
    · rename_i h
      rw [h2]
      generalize p * q = x at *
      refine ⟨by omega, by omega, ?_⟩
      intro h'; omega
    · rename_i h
      rw [h1]
      generalize p * q = x at *
      refine ⟨by omega, by omega, ?_⟩
      intro h'; omega

theorem rounded_unique {a b c : Decimal} (hb : Rounded a b) (hc : Rounded a c) (h : b.scale = c.scale) : b = c := by
  obtain ⟨nb, mb, sb⟩ := b
  obtain ⟨nc, mc, sc⟩ := c
  obtain ⟨b0, t, b1, b2, b3, b4⟩ := hb
  obtain ⟨c0, u, c1, c2, c3, c4⟩ := hc
  simp only at *
  subst h b0 c0
  have hp : 0 < 10 ^ a.scale := Nat.pow_pos (by omega)
  have key : ∀ t u : Nat, t < u → t * 10 ^ a.scale + 10 ^ a.scale ≤ u * 10 ^ a.scale ∧
      (t + 1 < u → t * 10 ^ a.scale + 2 * 10 ^ a.scale ≤ u * 10 ^ a.scale) := by
    intro t u htu
    refine ⟨?_, fun h => ?_⟩
    · rw [← Nat.succ_mul]; exact Nat.mul_le_mul_right _ htu
    · rw [← Nat.add_mul]; exact Nat.mul_le_mul_right _ h
  have htu : t = u := by
    rcases Nat.lt_trichotomy t u with hlt | rfl | hlt
    · obtain ⟨k1, k2⟩ := key t u hlt
      generalize t * 10 ^ a.scale = x at *
      generalize u * 10 ^ a.scale = y at *
      generalize 10 ^ a.scale = p at *
      omega
    · rfl
    · obtain ⟨k1, k2⟩ := key u t hlt
      generalize t * 10 ^ a.scale = x at *
      generalize u * 10 ^ a.scale = y at *
      generalize 10 ^ a.scale = p at *
      omega
  subst htu
  have : mb = mc := by omega
  subst this
  rfl

end Httpsig.Grammar

namespace Httpsig
open Sfv Base64 Grammar

theorem round3_scale (d : Decimal) : (Decimal.round3 d).scale ≤ 3 := by
  unfold Decimal.round3
  split
  · assumption
  · simp

/-! ### Base 64 -/

theorem sym_spec {n : Nat} (h : n < 64) : sym n ∈ base64Alphabet ∧ base64Alphabet.idxOf (sym n) = n := by
  have : ∀ m : Fin 64, sym m.1 ∈ base64Alphabet ∧ base64Alphabet.idxOf (sym m.1) = m.1 := by decide
  exact this ⟨n, h⟩

theorem bits_three {a b c : Nat} (_ha : a < 256) (hb : b < 256) (hc : c < 256) :
    bits 6 (a / 4) ++ (bits 6 (a % 4 * 16 + b / 16) ++ (bits 6 (b % 16 * 4 + c / 64) ++ bits 6 (c % 64))) =
      bits 8 a ++ (bits 8 b ++ bits 8 c) := by
  simp only [bits, List.cons_append, List.nil_append, List.cons.injEq, and_true]
  refine ⟨?_, ?_, ?_, ?_, ?_, ?_, ?_, ?_, ?_, ?_, ?_, ?_, ?_, ?_, ?_, ?_, ?_, ?_, ?_, ?_, ?_, ?_, ?_, ?_⟩ <;> omega

theorem isBase64_encode (b : Bytes) : IsBase64 (encode b) b := by
  induction b using encode.induct with
  | case1 => exact ⟨[], 0, rfl, by omega, rfl, by simp, rfl⟩
  | case2 a =>
    have ha := a.toNat_lt
    have h1 := sym_spec (n := a.toNat / 4) (by omega)
    have h2 := sym_spec (n := a.toNat % 4 * 16) (by omega)
    refine ⟨[sym (a.toNat / 4), sym (a.toNat % 4 * 16)], 2, rfl, by omega, by simp [encode], ?_, ?_⟩
    · simp [h1.1, h2.1]
    · simp only [List.flatMap_cons, List.flatMap_nil, h1.2, h2.2, bits, List.append_nil, List.cons_append, List.nil_append,
        List.replicate, List.cons.injEq, and_true]
      omega
  | case3 a b =>
    have ha := a.toNat_lt
    have hb := b.toNat_lt
    have h1 := sym_spec (n := a.toNat / 4) (by omega)
    have h2 := sym_spec (n := a.toNat % 4 * 16 + b.toNat / 16) (by omega)
    have h3 := sym_spec (n := b.toNat % 16 * 4) (by omega)
    refine ⟨[sym (a.toNat / 4), sym (a.toNat % 4 * 16 + b.toNat / 16), sym (b.toNat % 16 * 4)], 1, rfl, by omega, by simp [encode], ?_, ?_⟩
    · simp [h1.1, h2.1, h3.1]
    · simp only [List.flatMap_cons, List.flatMap_nil, h1.2, h2.2, h3.2, bits, List.append_nil, List.cons_append, List.nil_append,
        List.replicate, List.cons.injEq, and_true]
      generalize a.toNat = a, b.toNat = b at *
      omega
  | case4 a b c rest ih =>
    obtain ⟨syms, pad, i1, i2, i3, i4, i5⟩ := ih
    have ha := a.toNat_lt
    have hb := b.toNat_lt
    have hc := c.toNat_lt
    have h1 := sym_spec (n := a.toNat / 4) (by omega)
    have h2 := sym_spec (n := a.toNat % 4 * 16 + b.toNat / 16) (by omega)
    have h3 := sym_spec (n := b.toNat % 16 * 4 + c.toNat / 64) (by omega)
    have h4 := sym_spec (n := c.toNat % 64) (by omega)
    refine ⟨sym (a.toNat / 4) :: sym (a.toNat % 4 * 16 + b.toNat / 16) :: sym (b.toNat % 16 * 4 + c.toNat / 64) ::
      sym (c.toNat % 64) :: syms, pad, ?_, i2, ?_, ?_, ?_⟩
    · simp [encode, i1]
    · simp only [encode, List.length_cons]; omega
    · intro x hx
      simp only [List.mem_cons] at hx
      rcases hx with rfl | rfl | rfl | rfl | hx
      · exact h1.1
      · exact h2.1
      · exact h3.1
      · exact h4.1
      · exact i4 x hx
    · simp only [List.flatMap_cons, h1.2, h2.2, h3.2, h4.2]
      rw [i5]
      have := congrArg (· ++ (rest.flatMap (fun x => bits 8 x.toNat) ++ List.replicate (2 * pad) 0)) (bits_three ha hb hc)
      simpa only [List.append_assoc] using this

theorem bits_length (w n : Nat) : (bits w n).length = w := by
  induction w with
  | zero => rfl
  | succ w ih => simp [bits, ih]

theorem bits6_inj {m n : Nat} (hm : m < 64) (hn : n < 64) (h : bits 6 m = bits 6 n) : m = n := by
  simp only [bits, List.cons.injEq, and_true] at h
  omega

theorem flatMap_bits_length {α : Type _} (w : Nat) (f : α → Nat) (l : List α) :
    (l.flatMap fun x => bits w (f x)).length = w * l.length := by
  induction l with
  | nil => rfl
  | cons x l ih => rw [List.flatMap_cons, List.length_append, ih, bits_length, List.length_cons, Nat.mul_succ, Nat.add_comm]

theorem symbols_inj : ∀ {s t : Str}, (∀ c ∈ s, c ∈ base64Alphabet) → (∀ c ∈ t, c ∈ base64Alphabet) →
    s.flatMap (fun c => bits 6 (base64Alphabet.idxOf c)) = t.flatMap (fun c => bits 6 (base64Alphabet.idxOf c)) → s = t
  | [], [], _, _, _ => rfl
  | [], c :: t, _, _, h => by
    have := congrArg List.length h
    rw [flatMap_bits_length, flatMap_bits_length] at this
    simp at this
  | c :: s, [], _, _, h => by
    have := congrArg List.length h
    rw [flatMap_bits_length, flatMap_bits_length] at this
    simp at this
  | c :: s, d :: t, hs, ht, h => by
    rw [List.flatMap_cons, List.flatMap_cons] at h
    obtain ⟨h1, h2⟩ := List.append_inj h (by rw [bits_length, bits_length])
    have hc := List.idxOf_lt_length_of_mem (hs c (by simp))
    have hd := List.idxOf_lt_length_of_mem (ht d (by simp))
    have e := bits6_inj hc hd h1
    have hcd : c = d := by
      have ec := List.getElem_idxOf hc
      have ed := List.getElem_idxOf hd
      rw [← ec, ← ed]
      simp only [e]
    rw [hcd, symbols_inj (fun c h => hs c (by simp [h])) (fun c h => ht c (by simp [h])) h2]

theorem isBase64_unique {s t : Str} {b : Bytes} (hs : IsBase64 s b) (ht : IsBase64 t b) : s = t := by
  obtain ⟨x, p, rfl, hp, hl, hx, hb⟩ := hs
  obtain ⟨y, q, rfl, hq, hm, hy, hc⟩ := ht
  have l1 := congrArg List.length hb
  have l2 := congrArg List.length hc
  rw [flatMap_bits_length, List.length_append, flatMap_bits_length, List.length_replicate] at l1 l2
  have : p = q := by omega
  subst this
  rw [symbols_inj hx hy (hb.trans hc.symm)]

theorem isBase64_iff {t : Str} {b : Bytes} : IsBase64 t b ↔ t = encode b :=
  ⟨fun h => isBase64_unique h (isBase64_encode b), fun h => h ▸ isBase64_encode b⟩

/-! ### Values -/

theorem isStringChar_iff {c : Char} : isStringChar c = true ↔ 32 ≤ c.toNat ∧ c.toNat < 127 := by
  simp [isStringChar]

theorem escape_eq (s : Str) : '"' :: escape s ++ ['"'] = quoted s := by
  unfold quoted
  congr 2
  induction s with
  | nil => rfl
  | cons c cs ih =>
    rw [escape, List.flatMap_cons, ih]
    by_cases h : c = '"' ∨ c = '\\'
    · rw [if_pos h, if_pos (Or.comm.1 h)]; rfl
    · rw [if_neg h, if_neg (fun h' => h (Or.comm.1 h'))]; rfl

theorem serString_some_iff {s t : Str} : serString s = some t ↔ (∀ c ∈ s, 32 ≤ c.toNat ∧ c.toNat < 127) ∧ t = quoted s := by
  unfold serString
  rw [escape_eq]
  have e : s.all isStringChar = true ↔ ∀ c ∈ s, 32 ≤ c.toNat ∧ c.toNat < 127 := by
    simp only [List.all_eq_true, isStringChar_iff]
  by_cases h : s.all isStringChar = true
  · rw [if_pos h, Option.some.injEq]; exact ⟨fun h' => ⟨e.1 h, h'.symm⟩, fun h' => h'.2.symm⟩
  · rw [if_neg h]; simp only [reduceCtorEq, false_iff]; exact fun h' => h (e.2 h'.1)

theorem serInteger_some_iff {i : Int} {t : Str} :
    serInteger i = some t ↔ (-999999999999999 ≤ i ∧ i ≤ 999999999999999) ∧ t = timeText i := by
  have e : intStr i = timeText i := intStr_eq i
  unfold serInteger maxInt
  rw [e]
  split
  · rename_i h; simp [h, eq_comm]
  · rename_i h; simp only [reduceCtorEq, false_iff]; exact fun h' => h h'.1

theorem serTokenText_iff {n t : Str} : serToken n = some t ↔ TokenText n ∧ t = n := by
  unfold serToken TokenText
  cases n with
  | nil => simp [eq_comm]
  | cons c cs =>
    simp only
    split
    · rename_i h; simp [(token_iff c cs).1 h, eq_comm]
    · rename_i h
      have : ¬ Token (c :: cs) := fun h' => h ((token_iff c cs).2 h')
      simp [this]

theorem serName_iff {k t : Str} : serKey k = some t ↔ NameText k ∧ t = k := by
  unfold serKey NameText
  cases k with
  | nil => simp [eq_comm]
  | cons c cs =>
    have e : Key (c :: cs) ↔ isKeyStart c = true ∧ cs.all isKeyChar = true := by
      rw [← key_iff]
      exact ⟨fun ⟨_, _, e, h⟩ => by cases e; exact h, fun h => ⟨c, cs, rfl, h⟩⟩
    have hk : isKeyStart c = true → isKeyChar c = true := by
      simp only [keyStart_iff, keyChar_iff]
      rintro (h | rfl)
      · exact .inl h
      · simp
    simp only [List.all_cons, Bool.and_eq_true, reduceCtorEq, false_or, e]
    by_cases h1 : isKeyStart c = true
    · by_cases h2 : cs.all isKeyChar = true
      · simp [h1, h2, hk h1, eq_comm]
      · simp [h2]
    · simp [h1]

theorem serDecimal_iff {d : Decimal} {t : Str} : serDecimal d = some t ↔ BareText (.decimal d) t := by
  obtain ⟨hr, hs⟩ := rounded_round3' d
  have hp : 0 < 10 ^ (Decimal.round3 d).scale := Nat.pow_pos (by omega)
  have hsign : ∀ b : Bool, (if b = true then ['-'] else []) = sign b := fun b => by cases b <;> rfl
  simp only [serDecimal, hsign]
  constructor
  · intro h
    split at h
    · cases h
    · rename_i hip
      split at h
      · rename_i hf
        cases h
        have := BareText.decimal hr hs (by omega) (.zero hf)
        simpa [natStr] using this
      · rename_i hf
        cases h
        refine BareText.decimal hr hs (by omega) (.digits hf ?_ ?_)
        · have hlt := Nat.mod_lt (Decimal.round3 d).mant hp
          have hpos : 0 < (Decimal.round3 d).scale := by
            rcases Nat.eq_zero_or_pos (Decimal.round3 d).scale with h0 | h0
            · rw [h0] at hf; omega
            · exact h0
          have := natStr_length_le hpos hlt
          simp only [padZero, List.length_append, List.length_replicate]
          omega
        · rw [digits_iff]
          refine ⟨?_, digitsVal_padZero _ _⟩
          intro c hc
          rcases List.mem_append.1 hc with hc | hc
          · rw [List.eq_of_mem_replicate hc]; rfl
          · exact natStr_all _ c hc
  · intro h
    cases h with
    | @decimal _ b f h1 h2 h3 h4 =>
      have e := rounded_unique h1 hr (h2.trans hs.symm)
      subst e
      rw [if_neg (by omega)]
      cases h4 with
      | zero h0 => rw [if_pos h0]; simp [natStr]
      | digits h0 hl hd =>
        rw [if_neg h0]
        have hlt := Nat.mod_lt (Decimal.round3 d).mant hp
        have hpos : 0 < (Decimal.round3 d).scale := by
          rcases Nat.eq_zero_or_pos (Decimal.round3 d).scale with h0' | h0'
          · rw [h0'] at h0; omega
          · exact h0'
        have hle := natStr_length_le hpos hlt
        have : f = padZero (Decimal.round3 d).scale (natStr ((Decimal.round3 d).mant % 10 ^ (Decimal.round3 d).scale)) := by
          refine digits_inj hd ?_ ?_
          · rw [digits_iff]
            refine ⟨?_, digitsVal_padZero _ _⟩
            intro c hc
            rcases List.mem_append.1 hc with hc | hc
            · rw [List.eq_of_mem_replicate hc]; rfl
            · exact natStr_all _ c hc
          · simp only [padZero, List.length_append, List.length_replicate]
            omega
        rw [this]
        rfl

theorem serBare_iff {b : BareItem} {t : Str} : serBare b = some t ↔ BareText b t := by
  cases b with
  | decimal d => exact serDecimal_iff
  | boolean b =>
    cases b
    · exact ⟨fun h => by cases h; exact .false, fun h => by cases h; rfl⟩
    · exact ⟨fun h => by cases h; exact .true, fun h => by cases h; rfl⟩
  | string s =>
    rw [serBare, serString_some_iff]
    exact ⟨fun ⟨h, e⟩ => e ▸ .string h, fun h => by cases h with | string h => exact ⟨h, rfl⟩⟩
  | byteSeq b =>
    rw [serBare]
    exact ⟨fun h => by cases h; exact .binary (isBase64_encode b),
      fun h => by cases h with | binary h => rw [isBase64_iff.1 h]⟩
  | token n =>
    rw [serBare, serTokenText_iff]
    exact ⟨fun ⟨h, e⟩ => by subst e; exact .token h, fun h => by cases h with | token h => exact ⟨h, rfl⟩⟩
  | integer i =>
    rw [serBare, serInteger_some_iff]
    exact ⟨fun ⟨h, e⟩ => e ▸ .integer h.1 h.2, fun h => by cases h with | integer h1 h2 => exact ⟨⟨h1, h2⟩, rfl⟩⟩

theorem serParams_iff {ps : Params} {t : Str} : serParams ps = some t ↔ ParamsText ps t := by
  induction ps generalizing t with
  | nil => exact ⟨fun h => by cases h; exact .nil, fun h => by cases h; rfl⟩
  | cons e ps ih =>
    obtain ⟨k, v⟩ := e
    simp only [serParams, serParam, Option.bind_eq_bind, Option.bind_eq_some_iff, serName_iff]
    constructor
    · rintro ⟨a, ⟨k', ⟨hk, rfl⟩, ha⟩, b, hb, hab⟩
      cases hab
      split at ha
      · rename_i hv
        subst hv
        cases ha
        exact .flag hk (ih.1 hb)
      · rename_i hv
        rw [Option.bind_eq_some_iff] at ha
        obtain ⟨x, hx, ha⟩ := ha
        cases ha
        exact .value hk hv (serBare_iff.1 hx) (ih.1 hb)
    · intro h
      cases h with
      | flag hk hs => exact ⟨_, ⟨_, ⟨hk, rfl⟩, by rw [if_pos rfl]⟩, _, ih.2 hs, rfl⟩
      | value hk hv ht hs =>
        exact ⟨_, ⟨_, ⟨hk, rfl⟩, by rw [if_neg hv, serBare_iff.2 ht]; rfl⟩, _, ih.2 hs, rfl⟩

theorem ParamsText.det {ps : Params} {s t : Str} (h1 : ParamsText ps s) (h2 : ParamsText ps t) : s = t :=
  Option.some.inj ((serParams_iff.2 h1).symm.trans (serParams_iff.2 h2))

/-- The serialiser writes exactly the texts of the specification. -/
theorem serItem_iff {i : Item} {t : Str} : serItem i = some t ↔ WrittenItem i t := by
  obtain ⟨b, ps⟩ := i
  simp only [serItem, Option.bind_eq_bind, Option.bind_eq_some_iff]
  constructor
  · rintro ⟨a, ha, p, hp, h⟩
    cases h
    exact .mk (serBare_iff.1 ha) (serParams_iff.1 hp)
  · rintro ⟨ha, hp⟩
    exact ⟨_, serBare_iff.2 ha, _, serParams_iff.2 hp, rfl⟩

end Httpsig
