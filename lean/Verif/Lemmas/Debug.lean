import Verif.Spec.Debug
import Verif.Lemmas.Clock
import Verif.Lemmas.Query
import Verif.Lemmas.Logging2
/- The texts of Model/Debug are those of Spec/Debug; which value a text belongs to. -/
set_option linter.unusedSectionVars false
namespace Httpsig.Shown
open Sfv

/-! ### The texts -/

theorem hexDigit_iff {n : Nat} {c : Char} : HexDigit n c ↔ n < 16 ∧ n.digitChar = c := by
  constructor
  · intro h
    cases h with
    | digit h => refine ⟨by omega, ?_⟩; revert n; decide
    | letter h1 h2 => refine ⟨by omega, ?_⟩; revert h1; revert n; decide
  · rintro ⟨h, rfl⟩
    by_cases h1 : n < 10
    · have : n.digitChar = Char.ofNat (48 + n) := by clear h; revert n; decide
      rw [this]; exact .digit h1
    · have : 10 ≤ n → n.digitChar = Char.ofNat (87 + n) := by clear h1; revert n; decide
      rw [this (by omega)]; exact .letter (by omega) h

theorem hexText_iff {n : Nat} {t : Str} : HexText n t ↔ Nat.toDigits 16 n = t := by
  constructor
  · intro h
    induction h with
    | one h => rw [Nat.toDigits_of_lt_base (hexDigit_iff.1 h).1, (hexDigit_iff.1 h).2]
    | @more m d t c hm h hd ih =>
      obtain ⟨h1, h2⟩ := hexDigit_iff.1 hd
      rw [Nat.toDigits_of_base_le (by omega) (by omega), show (16 * m + d) / 16 = m by omega, show (16 * m + d) % 16 = d by omega, ih, h2]
  · rintro rfl
    induction n using Nat.strongRecOn with
    | _ n ih =>
      by_cases h : n < 16
      · rw [Nat.toDigits_of_lt_base h]; exact .one (hexDigit_iff.2 ⟨h, rfl⟩)
      · rw [Nat.toDigits_of_base_le (by omega) (by omega)]
        have := HexText.more (m := n / 16) (d := n % 16) (by omega) (ih (n / 16) (by omega)) (hexDigit_iff.2 ⟨by omega, rfl⟩)
        rwa [show 16 * (n / 16) + n % 16 = n by omega] at this

theorem toNat_eq {c : Char} {n : Nat} (h : c.toNat = n) : c = Char.ofNat n := by rw [← h, Char.ofNat_toNat]

theorem charText_iff {f : Fmt} {c : Char} {t : Str} : CharText f.printable c t ↔ f.debugChar c = t := by
  constructor
  · intro h
    cases h with
    | quote => rfl
    | backslash => rfl
    | newline => rfl
    | ret => rfl
    | tab => rfl
    | nul => rfl
    | plain h1 h2 h3 h4 =>
      have h5 : c ≠ '\n' := by rintro rfl; exact absurd h3 (by decide)
      have h6 : c ≠ '\r' := by rintro rfl; exact absurd h3 (by decide)
      have h7 : c ≠ '\t' := by rintro rfl; exact absurd h3 (by decide)
      unfold Fmt.debugChar
      rw [if_neg h1, if_neg h2, if_neg h5, if_neg h6, if_neg h7, if_neg (by omega), if_pos (.inl ⟨h3, h4⟩)]
    | other h1 h2 =>
      have h : ∀ d : Char, d.toNat ≤ 127 → c ≠ d := by rintro d hd rfl; omega
      unfold Fmt.debugChar
      rw [if_neg (h _ (by decide)), if_neg (h _ (by decide)), if_neg (h _ (by decide)), if_neg (h _ (by decide)),
        if_neg (h _ (by decide)), if_neg (by omega), if_pos (.inr ⟨h1, h2⟩)]
    | code h1 h2 h3 =>
      have h1 : c ≠ Char.ofNat 0 ∧ c ≠ '\t' ∧ c ≠ '\n' ∧ c ≠ '\r' := by
        simpa only [List.mem_cons, List.not_mem_nil, or_false, not_or] using h1
      have h4 : c ≠ '"' := by rintro rfl; revert h2; simp [show '"'.toNat = 34 from rfl]
      have h5 : c ≠ '\\' := by rintro rfl; revert h2; simp [show '\\'.toNat = 92 from rfl]
      unfold Fmt.debugChar
      rw [if_neg h4, if_neg h5, if_neg h1.2.2.1, if_neg h1.2.2.2, if_neg h1.2.1, if_neg (fun h => h1.1 (toNat_eq h)), if_neg,
        hexText_iff.1 h3]
      rintro (h | h)
      · omega
      · rcases h2 with h2 | h2 | h2
        · omega
        · omega
        · rw [h.2] at h2; cases h2.2
  · rintro rfl
    unfold Fmt.debugChar
    split
    · next h => subst h; exact .quote
    split
    · next h => subst h; exact .backslash
    split
    · next h => subst h; exact .newline
    split
    · next h => subst h; exact .ret
    split
    · next h => subst h; exact .tab
    split
    · next h => cases toNat_eq h; exact .nul
    next h1 h2 h3 h4 h5 h6 =>
    split
    · next h =>
      rcases h with h | h
      · exact .plain h1 h2 h.1 h.2
      · exact .other h.1 h.2
    · next h =>
      refine .code ?_ ?_ (hexText_iff.2 rfl)
      · simp only [List.mem_cons, List.not_mem_nil, or_false, not_or]
        exact ⟨fun e => h6 (by rw [e]; rfl), h5, h3, h4⟩
      · by_cases h7 : c.toNat < 32
        · exact .inl h7
        by_cases h8 : c.toNat = 127
        · exact .inr (.inl h8)
        refine .inr (.inr ⟨Nat.lt_of_not_le fun h9 => h (.inl (by omega)), ?_⟩)
        cases hp : f.printable c with
        | false => rfl
        | true => exact absurd (.inr ⟨Nat.lt_of_not_le fun h9 => h (.inl (by omega)), hp⟩) h

theorem quoted_iff {f : Fmt} {s t : Str} : Quoted f s t ↔ f.debugStr s = t := by
  unfold Quoted Fmt.debugStr
  constructor
  · rintro ⟨parts, h, rfl⟩
    rw [← (forall2_map_iff (f := f.debugChar) fun a b => charText_iff).1 h, List.flatMap_def]
    rfl
  · rintro rfl
    exact ⟨s.map f.debugChar, (forall2_map_iff (f := f.debugChar) fun a b => charText_iff).2 rfl, by rw [List.flatMap_def]; rfl⟩

theorem joinWith_intercalate (sep : Str) : ∀ l : List Str, joinWith sep l = List.intercalate sep l
  | [] => rfl
  | [a] => by simp [joinWith, List.intercalate, List.intersperse]
  | a :: b :: l => by
    rw [show joinWith sep (a :: b :: l) = a ++ sep ++ joinWith sep (b :: l) from rfl, joinWith_intercalate sep (b :: l)]
    simp [List.intercalate, List.intersperse]

theorem listed_iff {α : Type} {R : α → Str → Prop} {g : α → Str} (h : ∀ a t, R a t ↔ g a = t) {o c : Str} {l : List α} {t : Str} :
    Listed R o c l t ↔ o ++ joinWith (str% ", ") (l.map g) ++ c = t := by
  unfold Listed
  constructor
  · rintro ⟨parts, h1, rfl⟩
    rw [(forall2_map_iff h).1 h1, joinWith_intercalate]
  · rintro rfl
    exact ⟨_, (forall2_map_iff h).2 rfl, by rw [joinWith_intercalate]⟩

theorem foldl_digits (s : Str) : s.foldl (fun n c => 10 * n + (c.toNat - 48)) 0 = digitsVal s := by
  unfold digitsVal
  congr 1
  funext n c
  omega

theorem digits_snoc {s : Str} {c : Char} : digitsVal (s ++ [c]) = digitsVal s * 10 + (c.toNat - 48) := by
  unfold digitsVal; rw [List.foldl_append]; rfl

theorem digit_bounds {c : Char} (h : c.isDigit = true) : 48 ≤ c.toNat ∧ c.toNat ≤ 57 := by
  simp only [Char.isDigit, Bool.and_eq_true, decide_eq_true_eq] at h
  exact ⟨h.1, h.2⟩

theorem nil_or_snoc (s : Str) : s = [] ∨ ∃ w c, s = w ++ [c] := by
  rcases List.eq_nil_or_concat s with h | ⟨w, c, h⟩
  · exact .inl h
  · exact .inr ⟨w, c, by rw [h, List.concat_eq_append]⟩

theorem digits_unique : ∀ (n : Nat) {a b : Str}, a.length = n → b.length = n → (∀ c ∈ a, c.isDigit = true) → (∀ c ∈ b, c.isDigit = true) →
    digitsVal a = digitsVal b → a = b
  | 0, a, b, ha, hb, _, _, _ => by rw [List.length_eq_zero_iff.1 ha, List.length_eq_zero_iff.1 hb]
  | n + 1, a, b, ha, hb, da, db, h => by
    rcases nil_or_snoc a with rfl | ⟨a, x, rfl⟩
    · cases ha
    rcases nil_or_snoc b with rfl | ⟨b, y, rfl⟩
    · cases hb
    rw [digits_snoc, digits_snoc] at h
    have hx := digit_bounds (da x (by simp))
    have hy := digit_bounds (db y (by simp))
    have e : x = y := by
      have : x.toNat = y.toNat := by omega
      rw [← Char.ofNat_toNat x, this, Char.ofNat_toNat]
    subst e
    rw [digits_unique (a := a) (b := b) n (by simpa using ha) (by simpa using hb) (fun c hc => da c (by simp [hc])) (fun c hc => db c (by simp [hc]))
      (show digitsVal a = digitsVal b by omega)]

theorem digits_canonical (n : Nat) : ∀ {s : Str}, s.length = n → (∀ c ∈ s, c.isDigit = true) → s ≠ [] → (s.head? = some '0' → s.length = 1) →
    s = natStr (digitsVal s) := by
  induction n with
  | zero => intro s h _ h1 _; exact absurd (List.length_eq_zero_iff.1 h) h1
  | succ n ih =>
    intro s hs hd hne h0
    rcases nil_or_snoc s with rfl | ⟨w, c, rfl⟩
    · exact absurd rfl hne
    have hc := digit_bounds (hd c (by simp))
    rw [digits_snoc]
    by_cases hw : w = []
    · subst hw
      have : digitsVal [] * 10 + (c.toNat - 48) < 10 := by show 0 * 10 + _ < 10; omega
      rw [natStr_lt_ten this]
      show [c] = _
      unfold digitOf
      rw [show 48 + (digitsVal [] * 10 + (c.toNat - 48)) = c.toNat by show 48 + (0 * 10 + _) = _; omega, Char.ofNat_toNat]
    · have hh : (w ++ [c]).head? = w.head? := by
        cases w with
        | nil => exact absurd rfl hw
        | cons => rfl
      have hw0 : w.head? ≠ some '0' := by
        intro e
        have h1 := h0 (by rw [hh, e])
        have h2 : 0 < w.length := List.length_pos_iff.2 hw
        rw [List.length_append, List.length_singleton] at h1
        omega
      have e := ih (s := w) (by simpa using hs) (fun x hx => hd x (by simp [hx])) hw (fun e => absurd e hw0)
      have hpos : 0 < digitsVal w := by
        rcases Nat.eq_zero_or_pos (digitsVal w) with h | h
        · rw [h] at e
          rw [e] at hw0
          exact absurd rfl hw0
        · exact h
      rw [natStr_step (by omega), show (digitsVal w * 10 + (c.toNat - 48)) / 10 = digitsVal w by omega,
        show (digitsVal w * 10 + (c.toNat - 48)) % 10 = c.toNat - 48 by omega, ← e]
      unfold digitOf
      rw [show 48 + (c.toNat - 48) = c.toNat by omega, Char.ofNat_toNat]

theorem natStr_zero_head {n : Nat} (h : (natStr n).head? = some '0') : (natStr n).length = 1 := by
  by_cases h1 : n < 10
  · rw [natStr_lt_ten h1]; rfl
  · exfalso
    revert h
    induction n using Nat.strongRecOn with
    | _ n ih =>
      rw [natStr_step (by omega)]
      have hne := natStr_ne_nil (n / 10)
      cases hs : natStr (n / 10) with
      | nil => exact absurd hs hne
      | cons x xs =>
        by_cases h2 : n / 10 < 10
        · rw [natStr_lt_ten h2] at hs
          cases hs
          intro h
          have h3 : digitOf (n / 10) = '0' := Option.some.inj h
          have : ∀ k < 10, digitOf k = '0' → k = 0 := by decide
          have := this _ h2 h3
          omega
        · intro h
          exact ih (n / 10) (by omega) h2 (by rw [hs]; exact h)

theorem decimalText_iff {d : Decimal} {t : Str} : DecimalText d t ↔ decimalText d = t := by
  unfold DecimalText decimalText
  constructor
  · rintro ⟨w, fr, hd, hne, h0, hl, hv, rfl⟩
    rw [foldl_digits, digitsVal_append, hl] at hv
    have hlt : digitsVal fr < 10 ^ d.scale := by rw [← hl]; exact digitsVal_lt fun c hc => hd c (by simp [hc])
    have e1 : d.mant / 10 ^ d.scale = digitsVal w := by
      rw [← hv, Nat.mul_comm, Nat.mul_add_div (Nat.pos_of_ne_zero (by exact fun e => by omega)), Nat.div_eq_of_lt hlt, Nat.add_zero]
    have e2 : d.mant % 10 ^ d.scale = digitsVal fr := by
      rw [← hv, Nat.mul_comm, Nat.mul_add_mod, Nat.mod_eq_of_lt hlt]
    rw [e1, e2, ← digits_canonical _ rfl (fun c hc => hd c (by simp [hc])) hne h0]
    congr 1
    split
    · rfl
    · next hs =>
      have : padZero d.scale (natStr (digitsVal fr)) = fr :=
        digits_unique d.scale (padZero_length (natStr_length_le (Nat.pos_of_ne_zero hs) hlt)) hl (padZero_all (natStr_all _))
          (fun c hc => hd c (by simp [hc])) (digitsVal_padZero _ _)
      rw [this]; rfl
  · rintro rfl
    by_cases hs : d.scale = 0
    · refine ⟨natStr (d.mant / 10 ^ d.scale), [], ?_, natStr_ne_nil _, natStr_zero_head, hs.symm, ?_, by rw [if_pos hs, if_pos hs]⟩
      · intro c hc; exact natStr_all _ c (by simpa using hc)
      · rw [foldl_digits, List.append_nil, digitsVal_natStr, hs]; simp
    · have hlt : d.mant % 10 ^ d.scale < 10 ^ d.scale := Nat.mod_lt _ (Nat.pow_pos (by omega))
      have hl := padZero_length (natStr_length_le (Nat.pos_of_ne_zero hs) hlt)
      refine ⟨natStr (d.mant / 10 ^ d.scale), padZero d.scale (natStr (d.mant % 10 ^ d.scale)), ?_, natStr_ne_nil _, natStr_zero_head,
        hl, ?_, by rw [if_neg hs, if_neg hs]; rfl⟩
      · intro c hc
        rcases List.mem_append.1 hc with hc | hc
        · exact natStr_all _ c hc
        · exact padZero_all (natStr_all _) c hc
      · rw [foldl_digits, digitsVal_append, hl, digitsVal_natStr, digitsVal_padZero, Nat.mul_comm, Nat.div_add_mod]

theorem toString_nat (n : Nat) : (toString n).toList = natStr n := Nat.toList_repr

theorem toString_int (i : Int) : (toString i).toList = intStr i := by
  cases i with
  | ofNat n => exact toString_nat n
  | negSucc n =>
    show ("-" ++ (n + 1).repr).toList = _
    rw [String.toList_append, Nat.toList_repr]; rfl

theorem debugBytes_iff {b : Bytes} {t : Str} :
    Listed (fun (x : UInt8) t => t = (toString x.toNat).toList) (str% "[") (str% "]") b t ↔ debugBytes b = t :=
  listed_iff fun a t => by rw [toString_nat]; exact eq_comm

theorem bareText_iff {f : Fmt} {b : BareItem} {t : Str} : BareText f b t ↔ f.debugBare b = t := by
  constructor
  · intro h
    cases h with
    | decimal h => rw [← decimalText_iff.1 h]; rfl
    | integer => rw [toString_int]; rfl
    | string h => rw [← quoted_iff.1 h]; rfl
    | bytes h => rw [← debugBytes_iff.1 h]; rfl
    | true => rfl
    | false => rfl
    | token h => rw [← quoted_iff.1 h]; rfl
  · rintro rfl
    cases b with
    | decimal d => exact .decimal (decimalText_iff.2 rfl)
    | integer i => have := BareText.integer (f := f) (i := i); rw [toString_int] at this; exact this
    | string s => exact .string (quoted_iff.2 rfl)
    | byteSeq l => exact .bytes (debugBytes_iff.2 rfl)
    | boolean b => cases b with
      | false => exact .false
      | true => exact .true
    | token s => exact .token (quoted_iff.2 rfl)

theorem paramsText_iff {f : Fmt} {p : Params} {t : Str} : ParamsText f p t ↔ f.debugParams p = t :=
  listed_iff fun e t => by
    constructor
    · rintro ⟨k, v, h1, h2, rfl⟩; rw [quoted_iff.1 h1, bareText_iff.1 h2]
    · rintro rfl; exact ⟨_, _, quoted_iff.2 rfl, bareText_iff.2 rfl, rfl⟩

theorem itemText_iff {f : Fmt} {i : Item} {t : Str} : ItemText f i t ↔ f.debugItem i = t := by
  constructor
  · rintro ⟨b, p, h1, h2, rfl⟩; rw [← bareText_iff.1 h1, ← paramsText_iff.1 h2]; rfl
  · rintro rfl; exact ⟨_, _, bareText_iff.2 rfl, paramsText_iff.2 rfl, rfl⟩

theorem inputText_iff {f : Fmt} {s : SignatureInput} {t : Str} : InputText f s t ↔ f.debugInput s = t := by
  have hl : ∀ {l : List Item} {t : Str}, Listed (ItemText f) (str% "[") (str% "]") l t ↔
      str% "[" ++ joinWith (str% ", ") (l.map f.debugItem) ++ str% "]" = t := listed_iff (g := f.debugItem) fun a t => itemText_iff
  constructor
  · rintro ⟨a, b, c, h1, h2, h3, rfl⟩
    rw [← quoted_iff.1 h1, ← hl.1 h2, ← paramsText_iff.1 h3]
    simp [Fmt.debugInput]
  · rintro rfl
    refine ⟨_, _, _, quoted_iff.2 rfl, hl.2 rfl, paramsText_iff.2 rfl, ?_⟩
    simp [Fmt.debugInput]

variable [Deps]

theorem componentText_iff {f : Fmt} {k : SignatureComponent} {t : Str} : ComponentText f k t ↔ f.debugComponent k = t := by
  constructor
  · intro h
    cases h with
    | header h => rw [← quoted_iff.1 h]; rfl
    | derived h => rw [← itemText_iff.1 h]; rfl
  · rintro rfl
    cases k with
    | header h => exact .header (quoted_iff.2 rfl)
    | derived d => exact .derived (itemText_iff.2 rfl)

theorem componentsText_iff {f : Fmt} {l : List SignatureComponent} {t : Str} :
    Listed (ComponentText f) (str% "[") (str% "]") l t ↔ f.debugComponents l = t := 
  listed_iff (g := f.debugComponent) fun _ _ => componentText_iff

theorem errorText_iff {f : Fmt} {e : Error} {t : Str} : ErrorText f e t ↔ f.displayError e = t := by
  constructor
  · intro h
    cases h with
    | missing h => rw [← componentsText_iff.1 h]; rfl
    | input h => rw [← quoted_iff.1 h]; rfl
    | unrecognized h => rw [← quoted_iff.1 h]; rfl
    | derived h => rw [← quoted_iff.1 h]; rfl
    | derivedReason h => rw [← quoted_iff.1 h]; rfl
    | header h => rw [← quoted_iff.1 h]; rfl
    | _ => rfl
  · rintro rfl
    cases e with
    | parseError => exact .parse
    | missingComponents l => exact .missing (componentsText_iff.2 rfl)
    | signatureInputParse => exact .input (quoted_iff.2 rfl)
    | signatureInputError => exact .malformed
    | canonicalize => exact .canonicalize
    | invalidSignatureCreationDate => exact .created
    | invalidSignatureExpiresDate => exact .expires
    | unrecognizedDerivedComponent s => exact .unrecognized (quoted_iff.2 rfl)
    | derivedComponentParse s =>
      cases s with
      | none => exact .derivedReason (quoted_iff.2 rfl)
      | some s => exact .derived (quoted_iff.2 rfl)
    | headerNameParse s => exact .header (quoted_iff.2 rfl)
    | failedToSerialize => exact .serialize
    | convertHeader => exact .convert

theorem errorDebug_iff {f : Fmt} {e : Error} {t : Str} : ErrorDebug f e t ↔ f.debugError e = t := by
  constructor
  · intro h
    cases h with
    | missing h => rw [← componentsText_iff.1 h]; rfl
    | input h => rw [← quoted_iff.1 h]; rfl
    | unrecognized h => rw [← quoted_iff.1 h]; rfl
    | derived h => rw [← quoted_iff.1 h]; rfl
    | derivedReason h => rw [← quoted_iff.1 h]; rfl
    | header h => rw [← quoted_iff.1 h]; rfl
    | _ => rfl
  · rintro rfl
    cases e with
    | parseError => exact .parse
    | missingComponents l => exact .missing (componentsText_iff.2 rfl)
    | signatureInputParse => exact .input (quoted_iff.2 rfl)
    | signatureInputError => exact .malformed
    | canonicalize => exact .canonicalize
    | invalidSignatureCreationDate => exact .created
    | invalidSignatureExpiresDate => exact .expires
    | unrecognizedDerivedComponent s => exact .unrecognized (quoted_iff.2 rfl)
    | derivedComponentParse s =>
      cases s with
      | none => exact .derivedReason (quoted_iff.2 rfl)
      | some s => exact .derived (quoted_iff.2 rfl)
    | headerNameParse s => exact .header (quoted_iff.2 rfl)
    | failedToSerialize => exact .serialize
    | convertHeader => exact .convert

end Httpsig.Shown
