import Verif.Lemmas.SfvChars
/- Bare items: parsing inverts serialisation; serialisation succeeds exactly on `BareOk` (up to the empty token). -/
namespace Httpsig.Sfv

/-- What may follow a bare item. -/
def Stop (rest : Str) : Prop := ∀ c ∈ rest.head?, c = ';' ∨ c = ' ' ∨ c = ')' ∨ c = ','

theorem stop_nil : Stop [] := by simp [Stop]

theorem Stop.not {p : Char → Bool} {rest : Str} (h : Stop rest)
    (hp : p ';' = false ∧ p ' ' = false ∧ p ')' = false ∧ p ',' = false) :
    ∀ c ∈ rest.head?, p c = false := by
  intro c hc
  rcases h c hc with rfl | rfl | rfl | rfl <;> simp [hp]

/-! ### Numbers -/

theorem natStr_all (n : Nat) : ∀ c ∈ natStr n, c.isDigit = true :=
  fun _ hc => Nat.isDigit_of_mem_toDigits (by omega) (by omega) hc

theorem natStr_ne_nil (n : Nat) : natStr n ≠ [] := Nat.toDigits_ne_nil

theorem digitsVal_eq (s : Str) : digitsVal s = Nat.ofDigitChars 10 s 0 := by
  unfold digitsVal Nat.ofDigitChars
  congr 1
  funext n c
  rw [Nat.mul_comm]; rfl

theorem digitsVal_natStr (n : Nat) : digitsVal (natStr n) = n := by
  rw [digitsVal_eq]; exact Nat.ofDigitChars_ten_toDigits

theorem natStr_length_le {n k : Nat} (hk : 0 < k) (h : n < 10 ^ k) : (natStr n).length ≤ k :=
  (Nat.length_toDigits_le_iff (by omega) hk).2 h

theorem extractDigits_digits {isInt : Bool} : ∀ (ds acc rest : Str), (∀ c ∈ ds, c.isDigit = true) →
    acc.length + ds.length ≤ (if isInt then 15 else 16) →
    extractDigits isInt acc (ds ++ rest) = extractDigits isInt (acc ++ ds) rest
  | [], acc, rest, _, _ => by simp
  | d :: ds, acc, rest, hd, hl => by
    have h1 : d.isDigit = true := hd d (by simp)
    rw [List.cons_append, extractDigits, if_pos h1]
    simp only [List.length_cons] at hl
    have hrec := extractDigits_digits (isInt := isInt) ds (acc ++ [d]) rest (fun c hc => hd c (by simp [hc]))
      (by simp only [List.length_append, List.length_cons, List.length_nil]; omega)
    rw [if_neg, if_neg, hrec]
    · simp
    · cases isInt <;> simp at hl ⊢; omega
    · cases isInt <;> simp at hl ⊢; omega

theorem extractDigits_stop {isInt : Bool} {acc rest : Str} (h : Stop rest) :
    extractDigits isInt acc rest = some (isInt, acc, rest) := by
  cases rest with
  | nil => rfl
  | cons c cs =>
    have h1 := h.not (p := Char.isDigit) (by decide) c (by simp)
    have h2 := h.not (p := (· == '.')) (by decide) c (by simp)
    simp at h2
    rw [extractDigits, if_neg (by simp [h1]), if_neg (by simp [h2])]

theorem parseNumber_digits {ds rest : Str} (neg : Bool) (hne : ds ≠ []) (hd : ∀ c ∈ ds, c.isDigit = true) :
    parseNumber ((if neg then ['-'] else []) ++ ds ++ rest) =
      (do
        let (isInt, num, rest') ← extractDigits true [] (ds ++ rest)
        if isInt then
          let n : Int := digitsVal num
          let i := if neg then -n else n
          if -maxInt ≤ i ∧ i ≤ maxInt then some (BareItem.integer i, rest') else none
        else
          let ip := num.takeWhile (· != '.')
          let fp := (num.dropWhile (· != '.')).drop 1
          if fp.length = 0 then none
          else if fp.length ≤ 3 then
            some (.decimal { neg := neg, mant := digitsVal (ip ++ fp), scale := fp.length }, rest')
          else none) := by
  obtain ⟨d, ds, rfl⟩ := List.exists_cons_of_ne_nil hne
  have h1 : d.isDigit = true := hd d (by simp)
  have h2 : d ≠ '-' := by rintro rfl; simp at h1
  have e : splitSign ((if neg then ['-'] else []) ++ d :: ds ++ rest) = (neg, d :: ds ++ rest) := by
    cases neg <;> simp [splitSign, h2]
  unfold parseNumber
  simp only [e, List.cons_append]
  simp [h1]

theorem intStr_eq (i : Int) : intStr i = (if i < 0 then ['-'] else []) ++ natStr i.natAbs := by
  cases i with
  | ofNat n =>
    have : ¬ (Int.ofNat n < 0) := by simp
    rw [if_neg this]; rfl
  | negSucc n => rw [if_pos (Int.negSucc_lt_zero n)]; rfl

theorem parseNumber_int {i : Int} {rest : Str} (hb : -maxInt ≤ i ∧ i ≤ maxInt) (hr : Stop rest) :
    parseNumber (intStr i ++ rest) = some (.integer i, rest) := by
  have h := parseNumber_digits (rest := rest) (decide (i < 0)) (natStr_ne_nil i.natAbs) (natStr_all _)
  simp only [decide_eq_true_eq] at h
  rw [intStr_eq, h]
  have hl : (natStr i.natAbs).length ≤ 15 := natStr_length_le (by omega) (by unfold maxInt at hb; omega)
  rw [extractDigits_digits _ _ _ (natStr_all _) (by simp; omega), extractDigits_stop hr]
  simp only [List.nil_append, Option.bind_eq_bind, Option.bind_some, if_true, digitsVal_natStr]
  have : (if i < 0 then -(i.natAbs : Int) else (i.natAbs : Int)) = i := by split <;> omega
  rw [this, if_pos hb]

theorem padZero_length {w : Nat} {s : Str} (h : s.length ≤ w) : (padZero w s).length = w := by
  simp [padZero]; omega

theorem padZero_all {w : Nat} {s : Str} (h : ∀ c ∈ s, c.isDigit = true) : ∀ c ∈ padZero w s, c.isDigit = true := by
  intro c hc
  simp only [padZero, List.mem_append, List.mem_replicate] at hc
  rcases hc with ⟨_, rfl⟩ | hc
  · decide
  · exact h c hc

theorem digitsVal_append (a b : Str) : digitsVal (a ++ b) = digitsVal a * 10 ^ b.length + digitsVal b := by
  rw [digitsVal_eq, digitsVal_eq, digitsVal_eq, Nat.ofDigitChars_append, Nat.ofDigitChars_eq_ofDigitChars_zero,
    Nat.mul_comm]

theorem digitsVal_padZero (w n : Nat) : digitsVal (padZero w (natStr n)) = n := by
  have h0 : ∀ k, digitsVal (List.replicate k '0') = 0 := by
    intro k
    rw [digitsVal_eq]
    simp [Nat.ofDigitChars_replicate_zero]
  rw [padZero, digitsVal_append, digitsVal_natStr, h0]; omega

theorem parseNumber_dec {neg : Bool} {ip : Nat} {fs rest : Str} (hip : ip ≤ 999999999999)
    (hf : ∀ c ∈ fs, c.isDigit = true) (hf1 : fs ≠ []) (hf3 : fs.length ≤ 3) (hr : Stop rest) :
    parseNumber ((if neg then ['-'] else []) ++ natStr ip ++ '.' :: fs ++ rest) =
      some (.decimal { neg := neg, mant := ip * 10 ^ fs.length + digitsVal fs, scale := fs.length }, rest) := by
  have h := parseNumber_digits (rest := '.' :: fs ++ rest) neg (natStr_ne_nil ip) (natStr_all _)
  have hl : (natStr ip).length ≤ 12 := natStr_length_le (by omega) (by omega)
  simp only [List.append_assoc] at h ⊢
  rw [h]
  rw [extractDigits_digits _ _ _ (natStr_all _) (by simp; omega)]
  simp only [List.nil_append, List.cons_append]
  rw [extractDigits, if_neg (by decide), if_pos (by simp), if_neg (by omega),
    extractDigits_digits _ _ _ hf (by simp; omega), extractDigits_stop hr]
  have hnodot : (natStr ip).all (fun c => c != '.') = true := by
    rw [List.all_eq_true]
    intro c hc
    have := natStr_all ip c hc
    have : c ≠ '.' := by rintro rfl; revert this; decide
    simpa using this
  have e1 : (natStr ip ++ ['.'] ++ fs).takeWhile (· != '.') = natStr ip := by
    rw [List.append_assoc]; exact takeWhile_append_stop hnodot (by simp)
  have e2 : (natStr ip ++ ['.'] ++ fs).dropWhile (· != '.') = '.' :: fs := by
    rw [List.append_assoc]; exact dropWhile_append_stop hnodot (by simp)
  simp only [Option.bind_eq_bind, Option.bind_some, Bool.false_eq_true, if_false, e1, e2, List.drop_one, List.tail_cons]
  rw [if_neg (by simpa using hf1), if_pos hf3, digitsVal_append, digitsVal_natStr]

theorem round3_scale (d : Decimal) : (Decimal.round3 d).scale ≤ 3 := by
  unfold Decimal.round3; split <;> simp_all

theorem parseNumber_serDecimal {d : Decimal} {s rest : Str} (h : serDecimal d = some s) (hr : Stop rest) :
    parseNumber (s ++ rest) = some (.decimal d.norm, rest) := by
  unfold serDecimal at h
  simp only at h
  split at h
  · cases h
  rename_i hip
  have hsc := round3_scale d
  unfold Decimal.norm
  simp only
  generalize Decimal.round3 d = r at *
  split at h
  · rename_i hfp
    cases h
    rw [if_pos hfp]
    have h2 := parseNumber_dec (neg := r.neg) (ip := r.mant / 10 ^ r.scale) (fs := ['0']) (rest := rest)
      (by omega) (by simp) (by simp) (by simp) hr
    simpa [digitsVal] using h2
  · rename_i hfp
    cases h
    rw [if_neg hfp]
    have hpos : 0 < r.scale := by
      rcases Nat.eq_zero_or_pos r.scale with h0 | h0
      · rw [h0] at hfp; simp [Nat.mod_one] at hfp
      · exact h0
    have hlt : r.mant % 10 ^ r.scale < 10 ^ r.scale := Nat.mod_lt _ (Nat.pow_pos (by omega))
    have hlen := padZero_length (natStr_length_le hpos hlt)
    have h2 := parseNumber_dec (neg := r.neg) (ip := r.mant / 10 ^ r.scale)
      (fs := padZero r.scale (natStr (r.mant % 10 ^ r.scale))) (rest := rest)
      (by omega) (padZero_all (natStr_all _)) (by intro e; rw [e] at hlen; simp at hlen; omega) (by omega) hr
    simp only [List.append_assoc, List.cons_append] at h2 ⊢
    rw [h2, hlen, digitsVal_padZero, Nat.mul_comm, Nat.div_add_mod]

/-! ### Strings -/

theorem parseStringBody_escape : ∀ (s rest : Str), s.all isStringChar = true →
    parseStringBody (escape s ++ '"' :: rest) = some (s, rest)
  | [], rest, _ => by rw [parseStringBody.eq_def]; simp [escape]
  | c :: cs, rest, h => by
    simp only [List.all_cons, Bool.and_eq_true] at h
    have ih := parseStringBody_escape cs rest h.2
    have hc := h.1
    rw [escape]
    split
    · rename_i he
      simp only [List.cons_append]
      rw [parseStringBody.eq_def]
      simp only
      rw [if_neg (by decide), if_neg (by decide), if_pos trivial]
      simp only [if_pos he, ih, Option.map_some]
    · rename_i he
      simp only [List.cons_append]
      rw [parseStringBody.eq_def]
      simp only
      rw [if_neg (fun e => he (Or.inr e)), if_neg, if_neg (fun e => he (Or.inl e)), ih]
      · rfl
      · charcls; omega

/-! ### Bare items -/

theorem isB64Char_of_isAlphabet {c : Char} (h : Base64.isAlphabet c = true) : isB64Char c = true ∧ c ≠ ':' := by
  simp only [Base64.isAlphabet, Base64.val, Bool.or_eq_true, beq_iff_eq] at h
  rcases h with h | rfl
  · charcls
    split at h
    · omega
    split at h
    · omega
    split at h
    · omega
    split at h
    · omega
    split at h
    · omega
    · cases h
  · decide

theorem parseByteSeqBody_encode (b : Bytes) (rest : Str) :
    parseByteSeqBody (Base64.encode b ++ ':' :: rest) = some (.byteSeq b, rest) := by
  have hall := List.all_eq_true.1 (Base64.encode_all b)
  have hne : (Base64.encode b).all (fun c => c != ':') = true := by
    rw [List.all_eq_true]; intro c hc; simpa using (isB64Char_of_isAlphabet (hall c hc)).2
  have hb : (Base64.encode b).all isB64Char = true := by
    rw [List.all_eq_true]; intro c hc; exact (isB64Char_of_isAlphabet (hall c hc)).1
  unfold parseByteSeqBody
  rw [if_pos (by simp)]
  simp only [takeWhile_append_stop (rest := ':' :: rest) hne (by simp),
    dropWhile_append_stop (rest := ':' :: rest) hne (by simp), hb, if_true, Base64.lenientDecode_encode,
    Option.map_some, List.drop_one, List.tail_cons]

theorem intStr_head {i : Int} : ∃ c cs, intStr i = c :: cs ∧ (c = '-' ∨ c.isDigit = true) := by
  rw [intStr_eq]
  split
  · exact ⟨_, _, rfl, Or.inl rfl⟩
  · obtain ⟨d, ds, hd⟩ := List.exists_cons_of_ne_nil (natStr_ne_nil i.natAbs)
    rw [hd]
    exact ⟨d, ds, rfl, Or.inr (natStr_all i.natAbs d (by simp [hd]))⟩

theorem serDecimal_head {d : Decimal} {s : Str} (h : serDecimal d = some s) :
    ∃ c cs, s = c :: cs ∧ (c = '-' ∨ c.isDigit = true) := by
  have key : ∀ (neg : Bool) (n : Nat) (tl : Str), ∃ c cs, (if neg then ['-'] else []) ++ natStr n ++ tl = c :: cs ∧
      (c = '-' ∨ c.isDigit = true) := by
    intro neg n tl
    obtain ⟨d, ds, hd⟩ := List.exists_cons_of_ne_nil (natStr_ne_nil n)
    cases neg with
    | true => exact ⟨_, _, rfl, Or.inl rfl⟩
    | false =>
      rw [hd]
      exact ⟨d, ds ++ tl, by simp, Or.inr (natStr_all n d (by simp [hd]))⟩
  unfold serDecimal at h
  simp only at h
  split at h
  · cases h
  split at h <;> (cases h; exact key _ _ _)

theorem parseBare_number {c : Char} {cs : Str} (h : c = '-' ∨ c.isDigit = true) :
    parseBare (c :: cs) = parseNumber (c :: cs) := by
  have h' : (c ≠ '?' ∧ c ≠ '"' ∧ c ≠ ':') ∧ ¬ isTokenStart c = true := by
    charcls; omega
  unfold parseBare
  simp only
  rw [if_neg h'.1.1, if_neg h'.1.2.1, if_neg h'.1.2.2, if_neg h'.2, if_pos h]

/-- First characters a serialised bare item can have. -/
def isBareHead (c : Char) : Bool :=
  c == '?' || c == '"' || c == ':' || c == '-' || c.isDigit || isTokenStart c

theorem BareOk.ser {b : BareItem} (h : BareOk b) : ∃ s, serBare b = some s := by
  cases b with
  | decimal d =>
    simp only [BareOk] at h
    have hr : Decimal.round3 d = d := by simp [Decimal.round3, h.1]
    simp only [serBare, serDecimal, hr]
    rw [if_neg (by omega)]
    split <;> exact ⟨_, rfl⟩
  | integer i => exact ⟨_, by simp only [serBare, serInteger]; simp only [BareOk] at h; rw [if_pos h]⟩
  | string s => exact ⟨_, by simp only [serBare, serString]; simp only [BareOk] at h; rw [if_pos h]⟩
  | byteSeq b => exact ⟨_, rfl⟩
  | boolean b => exact ⟨_, rfl⟩
  | token t =>
    obtain ⟨c, cs, rfl, h1, h2⟩ := h
    exact ⟨_, by simp only [serBare, serToken]; rw [if_pos (by simp only [h1, h2, Bool.and_self])]⟩

theorem bareOk_of_ser {b : BareItem} {s : Str} (h : serBare b = some s) (hne : BareTidy b) : BareOk b := by
  cases b with
  | decimal d =>
    have hs := hne.2 d rfl
    have hr : Decimal.round3 d = d := by simp [Decimal.round3, hs]
    simp only [serBare, serDecimal, hr] at h
    split at h
    · cases h
    · simp only [BareOk]; omega
  | integer i => simp only [serBare, serInteger] at h; split at h <;> simp_all [BareOk]
  | string s => simp only [serBare, serString] at h; split at h <;> simp_all [BareOk]
  | byteSeq b => trivial
  | boolean b => trivial
  | token t =>
    cases t with
    | nil => exact absurd rfl hne.1
    | cons c cs =>
      simp only [serBare, serToken] at h
      split at h
      · rename_i h1
        rw [Bool.and_eq_true] at h1
        exact ⟨c, cs, rfl, h1.1, h1.2⟩
      · cases h

/-- Parsing inverts serialisation of a bare item. -/
theorem parseBare_ser {b : BareItem} {s rest : Str} (hok : BareOk b) (h : serBare b = some s) (hr : Stop rest) :
    parseBare (s ++ rest) = some (b.norm, rest) := by
  cases b with
  | decimal d =>
    obtain ⟨c, cs, rfl, hc⟩ := serDecimal_head h
    rw [List.cons_append, parseBare_number hc, ← List.cons_append, parseNumber_serDecimal h hr]; rfl
  | integer i =>
    simp only [serBare, serInteger] at h
    split at h
    · rename_i hb
      cases h
      obtain ⟨c, cs, hs, hc⟩ := intStr_head (i := i)
      rw [hs, List.cons_append, parseBare_number hc, ← List.cons_append, ← hs, parseNumber_int hb hr]; rfl
    · cases h
  | string s =>
    simp only [serBare, serString] at h
    split at h
    · rename_i hs
      cases h
      simp only [List.cons_append, List.append_assoc, List.nil_append, parseBare]
      rw [if_neg (by decide), if_pos trivial, parseStringBody_escape s rest hs]; rfl
    · cases h
  | byteSeq b =>
    cases h
    simp only [List.cons_append, List.append_assoc, List.nil_append, parseBare]
    rw [if_neg (by decide), if_neg (by decide), if_pos trivial, parseByteSeqBody_encode]; rfl
  | boolean b => cases h; cases b <;> rfl
  | token t =>
    obtain ⟨c, cs, rfl, h1, h2⟩ := hok
    simp only [serBare, serToken] at h
    rw [if_pos (by simp only [h1, h2, Bool.and_self])] at h
    cases h
    have hne : c ≠ '?' ∧ c ≠ '"' ∧ c ≠ ':' ∧ isTokenChar c = true := by
      clear h2; charcls; omega
    have hall : (c :: cs).all isTokenChar = true := by simp only [List.all_cons, hne.2.2.2, h2, Bool.and_self]
    have hrst := hr.not (p := isTokenChar) (by decide)
    rw [List.cons_append, parseBare.eq_def]
    simp only
    rw [if_neg hne.1, if_neg hne.2.1, if_neg hne.2.2.1, if_pos h1, ← List.cons_append,
      takeWhile_append_stop hall hrst, dropWhile_append_stop hall hrst]
    rfl

theorem serBare_head {b : BareItem} {s : Str} (hok : BareOk b) (h : serBare b = some s) :
    ∃ c cs, s = c :: cs ∧ isBareHead c = true := by
  cases b with
  | decimal d =>
    obtain ⟨c, cs, rfl, hc⟩ := serDecimal_head h
    refine ⟨c, cs, rfl, ?_⟩
    rcases hc with rfl | hc
    · decide
    · simp [isBareHead, hc]
  | integer i =>
    simp only [serBare, serInteger] at h
    split at h
    · cases h
      obtain ⟨c, cs, hs, hc⟩ := intStr_head (i := i)
      refine ⟨c, cs, hs, ?_⟩
      rcases hc with rfl | hc
      · decide
      · simp [isBareHead, hc]
    · cases h
  | string s =>
    simp only [serBare, serString] at h
    split at h <;> cases h
    exact ⟨_, _, rfl, by decide⟩
  | byteSeq b => cases h; exact ⟨_, _, rfl, by decide⟩
  | boolean b => cases h; cases b <;> exact ⟨_, _, rfl, by decide⟩
  | token t =>
    obtain ⟨c, cs, rfl, h1, h2⟩ := hok
    simp only [serBare, serToken] at h
    rw [if_pos (by simp only [h1, h2, Bool.and_self])] at h
    cases h
    exact ⟨_, _, rfl, by simp [isBareHead, h1]⟩

/-! ### Everything serialised is visible ASCII or space -/

theorem isStringChar_of_isDigit {c : Char} (h : c.isDigit = true) : isStringChar c = true := by
  charcls; omega

theorem natStr_printable (n : Nat) : (natStr n).all isStringChar = true := by
  rw [List.all_eq_true]; intro c hc; exact isStringChar_of_isDigit (natStr_all n c hc)

theorem escape_printable : ∀ {s : Str}, s.all isStringChar = true → (escape s).all isStringChar = true
  | [], _ => rfl
  | c :: cs, h => by
    simp only [List.all_cons, Bool.and_eq_true] at h
    rw [escape]
    split <;> simp only [List.all_cons, Bool.and_eq_true, h.1, escape_printable h.2, and_self]
    decide

theorem serBare_printable {b : BareItem} {s : Str} (h : serBare b = some s) : s.all isStringChar = true := by
  have hsign : ∀ n : Bool, (if n then ['-'] else [] : Str).all isStringChar = true := by decide
  cases b with
  | decimal d =>
    simp only [serBare, serDecimal] at h
    split at h
    · cases h
    have hp : ∀ w n, (padZero w (natStr n)).all isStringChar = true := by
      intro w n
      rw [List.all_eq_true]; intro c hc; exact isStringChar_of_isDigit (padZero_all (natStr_all n) c hc)
    split at h <;> cases h
    · simp only [List.all_append, hsign, natStr_printable, Bool.true_and]; decide
    · simp only [List.all_append, hsign, natStr_printable, Bool.true_and, List.all_cons, hp, Bool.and_true]; decide
  | integer i =>
    simp only [serBare, serInteger] at h
    split at h
    · cases h
      rw [intStr_eq, List.all_append, natStr_printable, Bool.and_true]
      split <;> decide
    · cases h
  | string s =>
    simp only [serBare, serString] at h
    split at h
    · rename_i hs
      cases h
      simp only [List.all_append, List.all_cons, escape_printable hs]; decide
    · cases h
  | byteSeq b =>
    cases h
    have : (Base64.encode b).all isStringChar = true := by
      rw [List.all_eq_true]
      intro c hc
      have := (isB64Char_of_isAlphabet (List.all_eq_true.1 (Base64.encode_all b) c hc)).1
      charcls; omega
    simp only [List.all_append, List.all_cons, this]; decide
  | boolean b => cases h; cases b <;> decide
  | token t =>
    cases t with
    | nil => cases h; rfl
    | cons c cs =>
      simp only [serBare, serToken] at h
      split at h
      · rename_i h1
        cases h
        rw [Bool.and_eq_true] at h1
        have hc : isStringChar c = true := by
          obtain ⟨h1, -⟩ := h1
          charcls; omega
        have hcs : cs.all isStringChar = true := by
          rw [List.all_eq_true]
          intro x hx
          have := List.all_eq_true.1 h1.2 x hx
          clear h1 hc hsign
          charcls; omega
        simp only [List.all_cons, hc, hcs, Bool.and_self]
      · cases h

end Httpsig.Sfv
