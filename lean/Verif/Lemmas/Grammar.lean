import Verif.Lemmas.Base64Text
import Verif.Lemmas.SfvFuel
import Verif.Props.Builder
/- The structured-field parser accepts exactly the texts of `Grammar` and returns the values they denote. -/
namespace Httpsig.Grammar
open Sfv Base64

/-! ### Characters and keys -/

theorem parseKey_sound {cs k r : Str} (h : parseKey cs = some (k, r)) : Key k ∧ cs = k ++ r := by
  refine ⟨(key_iff k).1 (parseKey_spec h).1, ?_⟩
  cases cs with
  | nil => simp [parseKey] at h
  | cons c cs =>
    simp only [parseKey] at h
    split at h
    · simp only [Option.some.injEq, Prod.mk.injEq] at h
      obtain ⟨rfl, rfl⟩ := h
      exact List.takeWhile_append_dropWhile.symm
    · cases h

/-! ### Strings -/

theorem chars_sound : ∀ (cs t r : Str), isAscii cs = true → parseStringBody cs = some (t, r) →
    ∃ s, cs = s ++ '"' :: r ∧ Chars s t
  | [], t, r, _, h => by rw [parseStringBody.eq_def] at h; cases h
  | c :: cs, t, r, ha, h => by
    have ha' := ascii_of_suffix (List.suffix_cons c cs) ha
    have hc128 : c.toNat < 128 := by
      simp only [isAscii, List.all_cons, Bool.and_eq_true, decide_eq_true_eq] at ha; exact ha.1
    rw [parseStringBody.eq_def] at h
    simp only at h
    split at h
    · rename_i hc
      cases h; subst hc; exact ⟨[], rfl, .nil⟩
    split at h
    · cases h
    rename_i hq hctl
    split at h
    · rename_i hb
      cases cs with
      | nil => cases h
      | cons d ds =>
        simp only at h
        split at h
        · rename_i hd
          rw [Option.map_eq_some_iff] at h
          obtain ⟨⟨t', r'⟩, h1, h2⟩ := h
          cases h2
          obtain ⟨s, rfl, hs⟩ := chars_sound ds t' _ (ascii_of_suffix (List.suffix_cons d ds) ha') h1
          exact ⟨c :: d :: s, rfl, by rw [hb]; exact .escaped hd.symm hs⟩
        · cases h
    · rename_i hb
      rw [Option.map_eq_some_iff] at h
      obtain ⟨⟨t', r'⟩, h1, h2⟩ := h
      cases h2
      obtain ⟨s, rfl, hs⟩ := chars_sound cs t' _ ha' h1
      exact ⟨c :: s, rfl, .unescaped (by omega) (by omega) hq hb hs⟩

theorem chars_complete {s t : Str} (h : Chars s t) (r : Str) : parseStringBody (s ++ '"' :: r) = some (t, r) := by
  induction h with
  | nil => rw [List.nil_append, parseStringBody.eq_def]; simp
  | unescaped h1 h2 h3 h4 _ ih =>
    rw [List.cons_append, parseStringBody.eq_def]
    simp only
    rw [if_neg h3, if_neg (by omega), if_neg h4, ih]
    rfl
  | escaped hc _ ih =>
    rw [List.cons_append, List.cons_append, parseStringBody.eq_def]
    simp only
    rw [if_neg (by decide), if_neg (by decide), if_pos trivial, if_pos hc.symm, ih]
    rfl

/-! ### Numbers -/

theorem splitSign_eq (cs : Str) : cs = sign (splitSign cs).1 ++ (splitSign cs).2 := by
  unfold splitSign
  split
  · rfl
  · split
    · rename_i h; subst h; rfl
    · rfl

/-- What may follow a bare item. -/
def End' (rest : Str) : Prop := ∀ c ∈ rest.head?, c = ';' ∨ c = ' ' ∨ c = ')' ∨ c = ',' ∨ c = '\t'
/-- What may follow parameters. -/
def End (rest : Str) : Prop := ∀ c ∈ rest.head?, c = ' ' ∨ c = ')' ∨ c = ',' ∨ c = '\t'

theorem End.end' {rest : Str} (h : End rest) : End' rest := fun c hc => .inr (h c hc)

theorem End'.not {p : Char → Bool} {rest : Str} (h : End' rest)
    (hp : p ';' = false ∧ p ' ' = false ∧ p ')' = false ∧ p ',' = false ∧ p '\t' = false) :
    ∀ c ∈ rest.head?, p c = false := by
  intro c hc
  rcases h c hc with rfl | rfl | rfl | rfl | rfl <;> simp [hp]

theorem extractDigits_end {isInt : Bool} {acc rest : Str} (h : End' rest) :
    extractDigits isInt acc rest = some (isInt, acc, rest) := by
  cases rest with
  | nil => rfl
  | cons c cs =>
    have h1 := h.not (p := Char.isDigit) (by decide) c (by simp)
    have h2 := h.not (p := (· == '.')) (by decide) c (by simp)
    simp at h2
    rw [extractDigits, if_neg (by simp [h1]), if_neg (by simp [h2])]

theorem extractDigits_split {isInt : Bool} : ∀ {cs acc : Str} {b : Bool} {num r : Str},
    extractDigits isInt acc cs = some (b, num, r) → ∃ x, num = acc ++ x ∧ cs = x ++ r := by
  intro cs
  induction cs generalizing isInt with
  | nil => intro acc b num r h; simp [extractDigits] at h; obtain ⟨-, rfl, rfl⟩ := h; exact ⟨[], by simp⟩
  | cons c cs ih =>
    intro acc b num r h
    rw [extractDigits] at h
    split at h
    · split at h
      · cases h
      split at h
      · cases h
      obtain ⟨x, rfl, rfl⟩ := ih h
      exact ⟨c :: x, by simp⟩
    · split at h
      · split at h
        · cases h
        obtain ⟨x, rfl, rfl⟩ := ih h
        exact ⟨c :: x, by simp⟩
      · cases h; exact ⟨[], by simp⟩

theorem extractDigits_len : ∀ {cs acc : Str} {num r : Str},
    extractDigits true acc cs = some (true, num, r) → acc.length ≤ 15 → num.length ≤ 15 := by
  intro cs
  induction cs with
  | nil => intro acc num r h hl; simp [extractDigits] at h; obtain ⟨rfl, rfl⟩ := h; exact hl
  | cons c cs ih =>
    intro acc num r h hl
    rw [extractDigits] at h
    split at h
    · split at h
      · cases h
      rename_i h1
      split at h
      · cases h
      refine ih h ?_
      simp at h1 ⊢; omega
    · split at h
      · split at h
        · cases h
        exact absurd (extractDigits_false_spec h).1 (by simp)
      · cases h; exact hl

theorem number_sound {cs r : Str} {b : BareItem} (h : parseNumber cs = some (b, r)) : ∃ s, cs = s ++ r ∧ Bare s b := by
  have hs := splitSign_eq cs
  unfold parseNumber at h
  simp only at h
  generalize (splitSign cs).1 = neg at *
  generalize (splitSign cs).2 = ds at *
  subst hs
  split at h
  · cases h
  rename_i c ds
  split at h
  · cases h
  rename_i hc
  simp only [Bool.not_eq_true', Bool.not_eq_false] at hc
  simp only [Option.bind_eq_bind, Option.bind_eq_some_iff] at h
  obtain ⟨⟨isInt, num, rest⟩, he, h⟩ := h
  obtain ⟨x, hx, hds⟩ := extractDigits_split he
  obtain rfl : num = x := by simpa using hx
  have hne : num ≠ [] := by
    rintro rfl
    rw [extractDigits, if_pos hc, if_neg (by simp), if_neg (by simp)] at he
    obtain ⟨y, hy, _⟩ := extractDigits_split he
    simp at hy
  have hpos : 1 ≤ num.length := List.length_pos_iff.2 hne
  simp only at h
  rcases extractDigits_true_spec (by simp) he with ⟨rfl, hd⟩ | ⟨rfl, ip, fs, rfl, h2, h3, h4⟩
  · rw [if_pos rfl] at h
    by_cases hb : -maxInt ≤ (if neg = true then -(digitsVal num : Int) else (digitsVal num : Int)) ∧
        (if neg = true then -(digitsVal num : Int) else (digitsVal num : Int)) ≤ maxInt
    · rw [if_pos hb] at h
      cases h
      refine ⟨sign neg ++ num, by rw [hds, List.append_assoc], ?_⟩
      exact .integer neg ((digits_iff num _).2 ⟨hd, rfl⟩) hpos (extractDigits_len he (by simp))
    · rw [if_neg hb] at h; cases h
  · rw [if_neg (by simp)] at h
    have hnodot : ip.all (fun c => c != '.') = true := by
      rw [List.all_eq_true]
      intro c hc
      have := h3 c hc
      have : c ≠ '.' := by rintro rfl; revert this; decide
      simpa using this
    rw [takeWhile_append_stop hnodot (by simp), dropWhile_append_stop hnodot (by simp)] at h
    simp only [List.drop_one, List.tail_cons] at h
    split at h
    · cases h
    split at h
    · rename_i hf0 hf3
      cases h
      have hip : 1 ≤ ip.length := by
        refine List.length_pos_iff.2 ?_
        rintro rfl
        simp only [List.nil_append, List.cons_append, List.cons.injEq] at hds
        rw [hds.1] at hc
        revert hc; decide
      refine ⟨sign neg ++ ip ++ '.' :: fs, by rw [hds]; simp, ?_⟩
      refine .decimal neg ((digits_iff _ _).2 ⟨?_, rfl⟩) hip h2 (by omega) hf3
      intro c hc
      rcases List.mem_append.1 hc with hc | hc
      · exact h3 c hc
      · exact h4 c hc
    · cases h

theorem integer_complete {s rest : Str} {n : Nat} (neg : Bool) (h : Digits s n) (h1 : 1 ≤ s.length) (h15 : s.length ≤ 15)
    (hr : End' rest) : parseNumber (sign neg ++ s ++ rest) = some (.integer (if neg then -n else n), rest) := by
  obtain ⟨hd, rfl⟩ := (digits_iff s n).1 h
  have := parseNumber_digits (rest := rest) neg (List.ne_nil_of_length_pos h1) hd
  unfold sign
  rw [this, extractDigits_digits _ _ _ hd (by simpa using h15), extractDigits_end hr]
  simp only [List.nil_append, Option.bind_eq_bind, Option.bind_some, if_true]
  have hlt := digitsVal_lt hd
  have hle : 10 ^ s.length ≤ 10 ^ 15 := Nat.pow_le_pow_right (by omega) h15
  have e : (10 : Nat) ^ 15 = 1000000000000000 := by decide
  rw [if_pos]
  unfold maxInt
  cases neg <;> simp <;> omega

theorem decimal_complete {ip fp rest : Str} {n : Nat} (neg : Bool) (h : Digits (ip ++ fp) n) (h1 : 1 ≤ ip.length)
    (h12 : ip.length ≤ 12) (hf1 : 1 ≤ fp.length) (hf3 : fp.length ≤ 3) (hr : End' rest) :
    parseNumber (sign neg ++ ip ++ '.' :: fp ++ rest) = some (.decimal ⟨neg, n, fp.length⟩, rest) := by
  obtain ⟨hd, rfl⟩ := (digits_iff _ n).1 h
  have hdi : ∀ c ∈ ip, c.isDigit = true := fun c hc => hd c (by simp [hc])
  have hdf : ∀ c ∈ fp, c.isDigit = true := fun c hc => hd c (by simp [hc])
  have := parseNumber_digits (rest := '.' :: fp ++ rest) neg (List.ne_nil_of_length_pos h1) hdi
  unfold sign
  simp only [List.append_assoc] at this ⊢
  rw [this, extractDigits_digits _ _ _ hdi (by simp; omega)]
  simp only [List.nil_append, List.cons_append]
  rw [extractDigits, if_neg (by decide), if_pos (by simp), if_neg (by omega),
    extractDigits_digits _ _ _ hdf (by simp; omega), extractDigits_end hr]
  have hnodot : ip.all (fun c => c != '.') = true := by
    rw [List.all_eq_true]
    intro c hc
    have := hdi c hc
    have : c ≠ '.' := by rintro rfl; revert this; decide
    simpa using this
  have e1 : (ip ++ ['.'] ++ fp).takeWhile (· != '.') = ip := by
    rw [List.append_assoc]; exact takeWhile_append_stop hnodot (by simp)
  have e2 : (ip ++ ['.'] ++ fp).dropWhile (· != '.') = '.' :: fp := by
    rw [List.append_assoc]; exact dropWhile_append_stop hnodot (by simp)
  simp only [Option.bind_eq_bind, Option.bind_some, Bool.false_eq_true, if_false, e1, e2, List.drop_one, List.tail_cons]
  rw [if_neg (by omega), if_pos hf3]

theorem number_head {neg : Bool} {s : Str} {n : Nat} (h : Digits s n) (h1 : 1 ≤ s.length) (rest : Str) :
    ∃ c cs, sign neg ++ s ++ rest = c :: cs ∧ (c = '-' ∨ c.isDigit = true) := by
  obtain ⟨hd, _⟩ := (digits_iff s n).1 h
  cases neg with
  | true => exact ⟨'-', s ++ rest, rfl, .inl rfl⟩
  | false =>
    obtain ⟨c, cs, rfl⟩ := List.exists_cons_of_ne_nil (List.ne_nil_of_length_pos h1)
    exact ⟨c, cs ++ rest, rfl, .inr (hd c (by simp))⟩

/-! ### Bare items -/

theorem base64Text_chars {t : Str} {b : Bytes} (h : Base64Text t b) : ∀ c ∈ t, c ∈ base64Alphabet ∨ c = '=' := by
  obtain ⟨syms, pad, extra, rfl, _, h3, _⟩ := h
  intro c hc
  rcases List.mem_append.1 hc with hc | hc
  · exact .inl (h3 c hc)
  · exact .inr (List.eq_of_mem_replicate hc)

theorem b64Char_of {c : Char} (h : c ∈ base64Alphabet ∨ c = '=') : isB64Char c = true ∧ c ≠ ':' := by
  have : ∀ c ∈ base64Alphabet, isB64Char c = true ∧ c ≠ ':' := by decide
  rcases h with h | rfl
  · exact this c h
  · decide

theorem bare_sound {cs r : Str} {b : BareItem} (ha : isAscii cs = true) (h : parseBare cs = some (b, r)) :
    ∃ s, cs = s ++ r ∧ Bare s b := by
  cases cs with
  | nil => simp [parseBare] at h
  | cons c cs =>
    simp only [parseBare] at h
    split at h
    · rename_i hc
      subst hc
      split at h
      · cases h; exact ⟨_, rfl, .false⟩
      · cases h; exact ⟨_, rfl, .true⟩
      · cases h
    split at h
    · rename_i hc
      subst hc
      rw [Option.map_eq_some_iff] at h
      obtain ⟨⟨t, r'⟩, h1, h2⟩ := h
      cases h2
      obtain ⟨s, rfl, hs⟩ := chars_sound cs t _ (ascii_of_suffix (List.suffix_cons _ cs) ha) h1
      exact ⟨'"' :: s ++ ['"'], by simp, .string hs⟩
    split at h
    · rename_i hc
      subst hc
      unfold parseByteSeqBody at h
      split at h
      · rename_i hany
        simp only at h
        split at h
        · rw [Option.map_eq_some_iff] at h
          obtain ⟨x, h1, h2⟩ := h
          cases h2
          refine ⟨':' :: cs.takeWhile (· != ':') ++ [':'], ?_, .binary ((lenientDecode_iff _ _).1 h1)⟩
          have hdw : ∃ r, cs.dropWhile (· != ':') = ':' :: r := by
            clear h1 ha
            induction cs with
            | nil => simp at hany
            | cons d ds ih =>
              by_cases hd : d = ':'
              · subst hd; exact ⟨ds, by simp⟩
              · rw [List.dropWhile_cons_of_pos (by simpa using hd)]
                refine ih ?_ ?_
                · simpa [hd] using hany
                · rename_i hall
                  rw [List.takeWhile_cons_of_pos (by simpa using hd), List.all_cons, Bool.and_eq_true] at hall
                  exact hall.2
          obtain ⟨r, hr⟩ := hdw
          have := List.takeWhile_append_dropWhile (p := (· != ':')) (l := cs)
          rw [hr] at this ⊢
          simp only [List.drop_one, List.tail_cons, List.cons_append, List.append_assoc, List.nil_append]
          rw [this]
        · cases h
      · cases h
    split at h
    · rename_i h1
      cases h
      refine ⟨_, List.takeWhile_append_dropWhile.symm, .token ?_⟩
      have hc : isTokenChar c = true := by charcls; omega
      rw [List.takeWhile_cons_of_pos hc]
      refine ⟨(tokenStart_iff c).1 h1, fun d hd => (tokenChar_iff d).1 ?_⟩
      have := List.all_takeWhile (p := isTokenChar) (l := cs)
      rw [List.all_eq_true] at this
      exact this d hd
    split at h
    · exact number_sound h
    · cases h

theorem bare_complete {s : Str} {b : BareItem} (h : Bare s b) {rest : Str} (hr : End' rest) :
    parseBare (s ++ rest) = some (b, rest) := by
  cases h with
  | integer neg hd h1 h15 =>
    obtain ⟨c, cs, hcs, hc⟩ := number_head (neg := neg) hd h1 rest
    have := integer_complete neg hd h1 h15 hr
    rw [hcs] at this ⊢
    rw [parseBare_number hc, this]
  | decimal neg hd h1 h12 hf1 hf3 =>
    rename_i ip fp n
    have hdi : Digits ip (digitsVal ip) := (digits_iff _ _).2 ⟨fun c hc => ((digits_iff _ _).1 hd).1 c (by simp [hc]), rfl⟩
    obtain ⟨c, cs, hcs, hc⟩ := number_head (neg := neg) hdi h1 ('.' :: fp ++ rest)
    have := decimal_complete neg hd h1 h12 hf1 hf3 hr
    rw [show sign neg ++ ip ++ '.' :: fp ++ rest = sign neg ++ ip ++ ('.' :: fp ++ rest) by simp] at this ⊢
    rw [hcs] at this ⊢
    rw [parseBare_number hc, this]
  | string hs =>
    rename_i s t
    have := chars_complete hs rest
    rw [show '"' :: s ++ ['"'] ++ rest = '"' :: (s ++ '"' :: rest) by simp, parseBare.eq_def]
    simp only
    rw [if_neg (by decide), if_pos trivial, this]
    rfl
  | token ht =>
    obtain ⟨h1, h2⟩ := ht
    rename_i c cs
    have h1' := (tokenStart_iff c).2 h1
    have hall : (c :: cs).all isTokenChar = true := by
      rw [List.all_eq_true]
      intro d hd
      rcases List.mem_cons.1 hd with rfl | hd
      · charcls; omega
      · exact (tokenChar_iff d).2 (h2 d hd)
    have hr' := hr.not (p := isTokenChar) (by decide)
    rw [List.cons_append, parseBare.eq_def]
    simp only
    rw [if_neg (by rintro rfl; revert h1'; decide), if_neg (by rintro rfl; revert h1'; decide),
      if_neg (by rintro rfl; revert h1'; decide), if_pos h1', ← List.cons_append, takeWhile_append_stop hall hr',
      dropWhile_append_stop hall hr']
  | binary hb =>
    rename_i s b
    have hc := base64Text_chars hb
    have hcol : s.all (· != ':') = true := by
      rw [List.all_eq_true]
      exact fun c h => by simpa using (b64Char_of (hc c h)).2
    have hall : s.all isB64Char = true := by
      rw [List.all_eq_true]
      exact fun c h => (b64Char_of (hc c h)).1
    rw [show ':' :: s ++ [':'] ++ rest = ':' :: (s ++ ':' :: rest) by simp, parseBare.eq_def]
    simp only
    rw [if_neg (by decide), if_neg (by decide), if_pos trivial]
    unfold parseByteSeqBody
    rw [if_pos (by simp)]
    simp only
    rw [takeWhile_append_stop hcol (by simp), dropWhile_append_stop hcol (by simp), if_pos hall,
      (lenientDecode_iff _ _).2 hb]
    rfl
  | true => rfl
  | false => rfl

end Httpsig.Grammar
