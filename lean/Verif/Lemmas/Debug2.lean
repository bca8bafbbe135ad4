import Verif.Lemmas.Debug
/- A text shown by `Debug` belongs to one value only, and its end can be found. -/
set_option linter.unusedSectionVars false
namespace Httpsig.Shown
open Sfv

/-- If texts that `P` holds of follow, the value and what follows can be told. -/
def DelimBy {α : Type} (P : Str → Prop) (g : α → Str) : Prop := ∀ a b x y, P x → P y → g a ++ x = g b ++ y → a = b ∧ x = y

/-- The value and what follows can be told. -/
abbrev Delim {α : Type} (g : α → Str) : Prop := DelimBy (fun _ => True) g

/-! ### Quoted texts -/

/-- Value of a hexadecimal digit. -/
def hexVal1 (c : Char) : Nat := if c.toNat < 58 then c.toNat - 48 else c.toNat - 87
/-- Value of hexadecimal digits. -/
def hexVal (s : Str) : Nat := s.foldl (fun n c => 16 * n + hexVal1 c) 0

theorem hexVal_toDigits (n : Nat) : hexVal (Nat.toDigits 16 n) = n := by
  have h1 : ∀ k < 16, hexVal1 k.digitChar = k := by decide
  induction n using Nat.strongRecOn with
  | _ n ih =>
    by_cases h : n < 16
    · rw [Nat.toDigits_of_lt_base h]
      show 16 * 0 + hexVal1 _ = _
      rw [h1 n h]; omega
    · rw [Nat.toDigits_of_base_le (by omega) (by omega)]
      unfold hexVal at ih ⊢
      rw [List.foldl_append, ih (n / 16) (by omega)]
      show 16 * (n / 16) + hexVal1 _ = _
      rw [h1 _ (by omega)]; omega

theorem toDigits_no_brace (n : Nat) : ∀ c ∈ Nat.toDigits 16 n, c ≠ '}' := by
  have h1 : ∀ k < 16, k.digitChar ≠ '}' := by decide
  induction n using Nat.strongRecOn with
  | _ n ih =>
    by_cases h : n < 16
    · rw [Nat.toDigits_of_lt_base h]
      intro c hc; cases List.mem_singleton.1 hc; exact h1 n h
    · rw [Nat.toDigits_of_base_le (by omega) (by omega)]
      intro c hc
      rcases List.mem_append.1 hc with hc | hc
      · exact ih _ (by omega) c hc
      · cases List.mem_singleton.1 hc; exact h1 _ (by omega)

theorem takeWhile_stop {p : Char → Bool} {s x : Str} {c : Char} (hs : ∀ d ∈ s, p d = true) (hc : p c = false) :
    (s ++ c :: x).takeWhile p = s ∧ (s ++ c :: x).dropWhile p = c :: x := by
  induction s with
  | nil => simp [hc]
  | cons d s ih =>
    have := hs d (by simp)
    obtain ⟨h1, h2⟩ := ih fun e he => hs e (by simp [he])
    simp [this, h1, h2]

/-- Reads one character of a quoted text. -/
def unchar : Str → Char × Str
  | '\\' :: '"' :: x => ('"', x)
  | '\\' :: '\\' :: x => ('\\', x)
  | '\\' :: 'n' :: x => ('\n', x)
  | '\\' :: 'r' :: x => ('\r', x)
  | '\\' :: 't' :: x => ('\t', x)
  | '\\' :: '0' :: x => (Char.ofNat 0, x)
  | '\\' :: 'u' :: '{' :: r => (Char.ofNat (hexVal (r.takeWhile (· ≠ '}'))), (r.dropWhile (· ≠ '}')).drop 1)
  | c :: x => (c, x)
  | [] => (' ', [])

theorem unchar_debugChar (f : Fmt) (c : Char) (x : Str) : unchar (f.debugChar c ++ x) = (c, x) := by
  have h := (charText_iff (f := f) (c := c)).2 rfl
  generalize f.debugChar c = t at h
  cases h with
  | quote => rfl
  | backslash => rfl
  | newline => rfl
  | ret => rfl
  | tab => rfl
  | nul => rfl
  | plain h1 h2 h3 h4 => simp [unchar, h2]
  | other h1 h2 =>
    have : c ≠ '\\' := by rintro rfl; exact absurd h1 (by decide)
    simp [unchar, this]
  | code _ _ h =>
    rw [← hexText_iff.1 h]
    obtain ⟨h1, h2⟩ := takeWhile_stop (p := (· ≠ '}')) (s := Nat.toDigits 16 c.toNat) (x := x) (c := '}')
      (fun d hd => by simpa using toDigits_no_brace _ d hd) (by decide)
    have e : str% "\\u{" ++ Nat.toDigits 16 c.toNat ++ str% "}" ++ x = '\\' :: 'u' :: '{' :: (Nat.toDigits 16 c.toNat ++ '}' :: x) := by
      simp
    rw [e]
    unfold unchar
    simp only
    rw [h1, h2, hexVal_toDigits, Char.ofNat_toNat]
    rfl

theorem debugChar_ne_quote (f : Fmt) (c : Char) (x y : Str) : f.debugChar c ++ x ≠ '"' :: y := by
  have h := (charText_iff (f := f) (c := c)).2 rfl
  generalize f.debugChar c = t at h
  intro e
  cases h with
  | plain h1 _ _ _ => exact h1 (List.cons.inj e).1
  | other h1 _ => rw [(List.cons.inj e).1] at h1; exact absurd h1 (by decide)
  | _ => exact absurd (List.cons.inj e).1 (by decide)

theorem quoted_delim (f : Fmt) : Delim f.debugStr := by
  have key : ∀ (s t x y : Str), s.flatMap f.debugChar ++ '"' :: x = t.flatMap f.debugChar ++ '"' :: y → s = t ∧ x = y := by
    intro s
    induction s with
    | nil =>
      intro t x y h
      cases t with
      | nil => exact ⟨rfl, (List.cons.inj h).2⟩
      | cons d t =>
        rw [List.flatMap_cons, List.append_assoc] at h
        exact absurd h.symm (debugChar_ne_quote f d _ _)
    | cons c s ih =>
      intro t x y h
      cases t with
      | nil =>
        rw [List.flatMap_cons, List.append_assoc] at h
        exact absurd h (debugChar_ne_quote f c _ _)
      | cons d t =>
        rw [List.flatMap_cons, List.flatMap_cons, List.append_assoc, List.append_assoc] at h
        have h' := congrArg unchar h
        rw [unchar_debugChar, unchar_debugChar] at h'
        obtain ⟨rfl, h2⟩ := Prod.mk.inj h'
        obtain ⟨rfl, rfl⟩ := ih t x y h2
        exact ⟨rfl, rfl⟩
  intro s t x y _ _ h
  unfold Fmt.debugStr at h
  simp only [List.cons_append, List.append_assoc, List.nil_append, List.cons.injEq, true_and] at h
  exact key s t x y h

/-! ### Numbers -/

/-- What follows does not begin with a digit. -/
def NoDigit (x : Str) : Prop := ∃ c r, x = c :: r ∧ c.isDigit = false

theorem nat_delim : DelimBy NoDigit natStr := by
  rintro a b _ _ ⟨c, x, rfl, hc⟩ ⟨d, y, rfl, hd⟩ h
  obtain ⟨h1, h2⟩ := takeWhile_stop (p := Char.isDigit) (x := x) (natStr_all a) hc
  obtain ⟨h3, h4⟩ := takeWhile_stop (p := Char.isDigit) (x := y) (natStr_all b) hd
  rw [h, h3] at h1
  rw [h, h4] at h2
  refine ⟨?_, h2.symm⟩
  rw [← digitsVal_natStr a, ← h1, digitsVal_natStr]

theorem natStr_cons (n : Nat) : ∃ c r, natStr n = c :: r ∧ c.isDigit = true := by
  cases h : natStr n with
  | nil => exact absurd h (natStr_ne_nil n)
  | cons c r => exact ⟨c, r, rfl, natStr_all n c (by rw [h]; simp)⟩

theorem minus_ne (n : Nat) (x y : Str) : '-' :: x ≠ natStr n ++ y := by
  obtain ⟨c, r, h, hc⟩ := natStr_cons n
  rw [h]
  intro e
  rw [← (List.cons.inj e).1] at hc
  exact absurd hc (by decide)

theorem int_delim : DelimBy NoDigit intStr := by
  intro a b x y hx hy h
  cases a with
  | ofNat a =>
    cases b with
    | ofNat b =>
      obtain ⟨h1, h2⟩ := nat_delim a b x y hx hy h
      exact ⟨by rw [h1], h2⟩
    | negSucc b => exact absurd h.symm (minus_ne _ _ _)
  | negSucc a =>
    cases b with
    | ofNat b => exact absurd h (minus_ne _ _ _)
    | negSucc b =>
      obtain ⟨h1, h2⟩ := nat_delim _ _ x y hx hy (List.cons.inj h).2
      exact ⟨by rw [Nat.succ.inj h1], h2⟩

/-- What follows begins with neither a digit nor a point. -/
def NoNumber (x : Str) : Prop := ∃ c r, x = c :: r ∧ c.isDigit = false ∧ c ≠ '.'

theorem NoNumber.noDigit {x : Str} (h : NoNumber x) : NoDigit x := by obtain ⟨c, r, h, h1, _⟩ := h; exact ⟨c, r, h, h1⟩

theorem decimal_delim : DelimBy NoNumber decimalText := by
  have frac : ∀ {d e : Decimal} {x y : Str}, NoNumber x → NoNumber y →
      natStr (d.mant / 10 ^ d.scale) ++ ((if d.scale = 0 then [] else '.' :: padZero d.scale (natStr (d.mant % 10 ^ d.scale))) ++ x) =
        natStr (e.mant / 10 ^ e.scale) ++ ((if e.scale = 0 then [] else '.' :: padZero e.scale (natStr (e.mant % 10 ^ e.scale))) ++ y) →
      d.mant = e.mant ∧ d.scale = e.scale ∧ x = y := by
    intro d e x y hx hy h
    have nd : ∀ (d : Decimal) {x : Str}, NoNumber x →
        NoDigit ((if d.scale = 0 then [] else '.' :: padZero d.scale (natStr (d.mant % 10 ^ d.scale))) ++ x) := by
      intro d x hx
      split
      · exact hx.noDigit
      · exact ⟨'.', _, rfl, by decide⟩
    obtain ⟨h1, h2⟩ := nat_delim _ _ _ _ (nd d hx) (nd e hy) h
    obtain ⟨c, x, rfl, hc, hc'⟩ := hx
    obtain ⟨c2, y, rfl, hd, hd'⟩ := hy
    by_cases h3 : d.scale = 0
    · by_cases h4 : e.scale = 0
      · rw [if_pos h3, if_pos h4] at h2
        rw [h3, h4] at h1
        exact ⟨by simpa using h1, by rw [h3, h4], h2⟩
      · rw [if_pos h3, if_neg h4] at h2
        exact absurd (List.cons.inj h2).1 hc'
    · by_cases h4 : e.scale = 0
      · rw [if_neg h3, if_pos h4] at h2
        exact absurd (List.cons.inj h2).1.symm hd'
      · rw [if_neg h3, if_neg h4] at h2
        have h5 := (List.cons.inj h2).2
        obtain ⟨a1, a2⟩ := takeWhile_stop (p := Char.isDigit) (x := x) (padZero_all (w := d.scale) (natStr_all (d.mant % 10 ^ d.scale))) hc
        obtain ⟨b1, b2⟩ := takeWhile_stop (p := Char.isDigit) (x := y) (padZero_all (w := e.scale) (natStr_all (e.mant % 10 ^ e.scale))) hd
        have h5 : padZero d.scale (natStr (d.mant % 10 ^ d.scale)) ++ c :: x = padZero e.scale (natStr (e.mant % 10 ^ e.scale)) ++ c2 :: y := h5
        rw [h5, b1] at a1
        rw [h5, b2] at a2
        have hl : ∀ e : Decimal, e.scale ≠ 0 → (padZero e.scale (natStr (e.mant % 10 ^ e.scale))).length = e.scale := fun e he =>
          padZero_length (natStr_length_le (Nat.pos_of_ne_zero he) (Nat.mod_lt _ (Nat.pow_pos (by omega))))
        have hs : d.scale = e.scale := by rw [← hl d h3, ← a1, hl e h4]
        have hm : d.mant % 10 ^ d.scale = e.mant % 10 ^ e.scale := by
          rw [← digitsVal_padZero d.scale (d.mant % 10 ^ d.scale), ← a1, digitsVal_padZero]
        refine ⟨?_, hs, a2.symm⟩
        rw [← Nat.div_add_mod d.mant (10 ^ d.scale), h1, hm, hs, Nat.div_add_mod]
  intro d e x y hx hy h
  unfold decimalText at h
  simp only [List.append_assoc] at h
  obtain ⟨dn, dm, ds⟩ := d
  obtain ⟨en, em, es⟩ := e
  have fin : ∀ {n : Bool}, dm = em ∧ ds = es ∧ x = y → (⟨n, dm, ds⟩ : Decimal) = ⟨n, em, es⟩ ∧ x = y := by
    rintro n ⟨rfl, rfl, rfl⟩; exact ⟨rfl, rfl⟩
  cases dn with
  | false =>
    cases en with
    | false => exact fin (frac (d := ⟨false, dm, ds⟩) (e := ⟨false, em, es⟩) hx hy h)
    | true => exact absurd h.symm (minus_ne _ _ _)
  | true =>
    cases en with
    | false => exact absurd h (minus_ne _ _ _)
    | true => exact fin (frac (d := ⟨false, dm, ds⟩) (e := ⟨false, em, es⟩) hx hy (List.cons.inj h).2)

/-! ### Lists -/

theorem join_cons {α : Type} (g : α → Str) (sep : Str) (a : α) (l : List α) :
    joinWith sep ((a :: l).map g) = g a ++ l.flatMap fun b => sep ++ g b := by
  induction l generalizing a with
  | nil => simp [joinWith]
  | cons b l ih =>
    have e := ih b
    rw [List.map_cons, List.map_cons, show joinWith sep (g a :: g b :: l.map g) = g a ++ sep ++ joinWith sep (g b :: l.map g) from rfl]
    rw [List.map_cons] at e
    rw [e, List.flatMap_cons]
    simp

theorem list_delim {α : Type} {g : α → Str} {close : Char} {P : Str → Prop} (hP : ∀ x, P (',' :: x) ∧ P (close :: x)) (hg : DelimBy P g)
    (hne : ∀ a, ∃ c r, g a = c :: r ∧ c ≠ close) (hc : close ≠ ',') (l m : List α) (x y : Str)
    (h : joinWith (str% ", ") (l.map g) ++ close :: x = joinWith (str% ", ") (m.map g) ++ close :: y) : l = m ∧ x = y := by
  have tail : ∀ (l m : List α), (l.flatMap fun b => str% ", " ++ g b) ++ close :: x = (m.flatMap fun b => str% ", " ++ g b) ++ close :: y →
      l = m ∧ x = y := by
    intro l
    induction l with
    | nil =>
      intro m h
      cases m with
      | nil => exact ⟨rfl, (List.cons.inj h).2⟩
      | cons b m => exact absurd (List.cons.inj h).1 hc
    | cons a l ih =>
      intro m h
      cases m with
      | nil => exact absurd (List.cons.inj h).1.symm hc
      | cons b m =>
        rw [List.flatMap_cons, List.flatMap_cons, List.append_assoc, List.append_assoc, List.append_assoc, List.append_assoc] at h
        have h := (List.cons.inj (List.cons.inj h).2).2
        have hp : ∀ (l : List α) (x : Str), P ((l.flatMap fun b => str% ", " ++ g b) ++ close :: x) := by
          intro l x
          cases l with
          | nil => exact (hP x).2
          | cons b l => exact (hP _).1
        obtain ⟨e, h⟩ := hg a b _ _ (hp l x) (hp m y) h
        obtain ⟨e', h⟩ := ih m h
        exact ⟨by rw [e, e'], h⟩
  have hp : ∀ (l : List α) (x : Str), P ((l.flatMap fun b => str% ", " ++ g b) ++ close :: x) := by
    intro l x
    cases l with
    | nil => exact (hP x).2
    | cons b l => exact (hP _).1
  cases l with
  | nil =>
    cases m with
    | nil => exact ⟨rfl, (List.cons.inj h).2⟩
    | cons b m =>
      rw [join_cons] at h
      obtain ⟨c, r, e, hc⟩ := hne b
      rw [e] at h
      exact absurd (List.cons.inj h).1.symm hc
  | cons a l =>
    cases m with
    | nil =>
      rw [join_cons] at h
      obtain ⟨c, r, e, hc⟩ := hne a
      rw [e] at h
      exact absurd (List.cons.inj h).1 hc
    | cons b m =>
      rw [join_cons, join_cons, List.append_assoc, List.append_assoc] at h
      obtain ⟨e, h⟩ := hg a b _ _ (hp l x) (hp m y) h
      obtain ⟨e', h⟩ := tail l m h
      exact ⟨by rw [e, e'], h⟩

theorem bytes_delim : Delim debugBytes := by
  intro a b x y _ _ h
  unfold debugBytes at h
  simp only [List.append_assoc, List.cons_append, List.nil_append, List.cons.injEq, true_and] at h
  refine list_delim (g := fun x : UInt8 => natStr x.toNat) (P := NoDigit) (close := ']') ?_ ?_ ?_ (by decide) a b x y h
  · exact fun x => ⟨⟨_, _, rfl, by decide⟩, ⟨_, _, rfl, by decide⟩⟩
  · intro a b x y hx hy h
    obtain ⟨h1, h2⟩ := nat_delim _ _ x y hx hy h
    exact ⟨UInt8.toNat_inj.1 h1, h2⟩
  · intro a
    obtain ⟨c, r, h, hc⟩ := natStr_cons a.toNat
    exact ⟨c, r, h, by rintro rfl; exact absurd hc (by decide)⟩

theorem bare_delim (f : Fmt) : Delim f.debugBare := by
  intro a b x y _ _ h
  have hn : ∀ x, NoNumber (')' :: x) := fun x => ⟨_, _, rfl, by decide, by decide⟩
  cases a <;> cases b <;> (try (exfalso; simp [Fmt.debugBare] at h; done)) <;>
    simp only [Fmt.debugBare, List.append_assoc, List.cons_append, List.nil_append, List.cons.injEq, true_and] at h
  · obtain ⟨h1, h2⟩ := decimal_delim _ _ _ _ (hn x) (hn y) h
    exact ⟨by rw [h1], (List.cons.inj h2).2⟩
  · obtain ⟨h1, h2⟩ := int_delim _ _ _ _ (hn x).noDigit (hn y).noDigit h
    exact ⟨by rw [h1], (List.cons.inj h2).2⟩
  · obtain ⟨h1, h2⟩ := quoted_delim f _ _ _ _ trivial trivial h
    exact ⟨by rw [h1], (List.cons.inj h2).2⟩
  · obtain ⟨h1, h2⟩ := bytes_delim _ _ _ _ trivial trivial h
    exact ⟨by rw [h1], (List.cons.inj h2).2⟩
  · rename_i a b
    revert h
    cases a <;> cases b <;> simp
  · obtain ⟨h1, h2⟩ := quoted_delim f _ _ _ _ trivial trivial h
    exact ⟨by rw [h1], (List.cons.inj h2).2⟩

theorem params_delim (f : Fmt) : Delim f.debugParams := by
  intro a b x y _ _ h
  unfold Fmt.debugParams at h
  simp only [List.append_assoc, List.cons_append, List.nil_append, List.cons.injEq, true_and] at h
  have h : joinWith (str% ", ") (a.map fun e => f.debugStr e.1 ++ (str% ": " ++ f.debugBare e.2)) ++ '}' :: x =
    joinWith (str% ", ") (b.map fun e => f.debugStr e.1 ++ (str% ": " ++ f.debugBare e.2)) ++ '}' :: y := h
  refine list_delim (P := fun _ => True) (close := '}') (fun _ => ⟨trivial, trivial⟩) ?_ ?_ (by decide) a b x y h
  · rintro ⟨k, v⟩ ⟨k', v'⟩ x y _ _ h
    simp only [List.append_assoc] at h
    obtain ⟨e, h⟩ := quoted_delim f _ _ _ _ trivial trivial h
    obtain ⟨e', h⟩ := bare_delim f _ _ _ _ trivial trivial (List.cons.inj (List.cons.inj h).2).2
    exact ⟨by rw [e, e'], h⟩
  · exact fun e => ⟨'"', _, rfl, by decide⟩

theorem item_delim (f : Fmt) : Delim f.debugItem := by
  rintro ⟨b, p⟩ ⟨b', p'⟩ x y _ _ h
  simp only [Fmt.debugItem, List.append_assoc, List.cons_append, List.nil_append, List.cons.injEq, true_and] at h
  obtain ⟨e, h⟩ := bare_delim f _ _ _ _ trivial trivial h
  simp only [List.cons.injEq, true_and] at h
  obtain ⟨e', h⟩ := params_delim f _ _ _ _ trivial trivial h
  simp only [List.cons.injEq, true_and] at h
  exact ⟨by rw [e, e'], h⟩

theorem items_delim (f : Fmt) (l m : List Item) (x y : Str)
    (h : joinWith (str% ", ") (l.map f.debugItem) ++ ']' :: x = joinWith (str% ", ") (m.map f.debugItem) ++ ']' :: y) : l = m ∧ x = y :=
  list_delim (P := fun _ => True) (close := ']') (fun _ => ⟨trivial, trivial⟩) (item_delim f)
    (fun _ => ⟨'I', _, rfl, by decide⟩) (by decide) l m x y h

theorem input_delim (f : Fmt) : Delim f.debugInput := by
  rintro ⟨l, ⟨⟨items, params⟩⟩⟩ ⟨l', ⟨⟨items', params'⟩⟩⟩ x y _ _ h
  simp only [Fmt.debugInput, List.append_assoc, List.cons_append, List.nil_append, List.cons.injEq, true_and] at h
  obtain ⟨e1, h⟩ := quoted_delim f _ _ _ _ trivial trivial h
  simp only [List.cons.injEq, true_and] at h
  obtain ⟨e2, h⟩ := items_delim f _ _ _ _ h
  simp only [List.cons.injEq, true_and] at h
  obtain ⟨e3, h⟩ := params_delim f _ _ _ _ trivial trivial h
  simp only [List.cons.injEq, true_and] at h
  exact ⟨by rw [e1, e2, e3], h⟩

variable [Deps]

theorem component_delim (f : Fmt) : Delim f.debugComponent := by
  intro a b x y _ _ h
  cases a <;> cases b <;> (try (exfalso; simp [Fmt.debugComponent] at h; done)) <;>
    simp only [Fmt.debugComponent, List.append_assoc, List.cons_append, List.nil_append, List.cons.injEq, true_and] at h
  · rename_i d d'
    obtain ⟨i⟩ := d
    obtain ⟨i'⟩ := d'
    obtain ⟨e, h⟩ := item_delim f _ _ _ _ trivial trivial h
    simp only [List.cons.injEq, true_and] at h
    cases e
    exact ⟨rfl, by assumption⟩
  · rename_i n n'
    obtain ⟨e, h⟩ := quoted_delim f _ _ _ _ trivial trivial h
    have h := (List.cons.inj h).2
    obtain ⟨s, hs⟩ := n
    obtain ⟨s', hs'⟩ := n'
    cases e
    exact ⟨rfl, by assumption⟩

theorem components_delim (f : Fmt) : Delim f.debugComponents := by
  intro a b x y _ _ h
  unfold Fmt.debugComponents at h
  simp only [List.append_assoc, List.cons_append, List.nil_append, List.cons.injEq, true_and] at h
  refine list_delim (P := fun _ => True) (close := ']') (fun _ => ⟨trivial, trivial⟩) (component_delim f) ?_ (by decide) a b x y h
  intro k
  cases k with
  | header => exact ⟨'H', _, rfl, by decide⟩
  | derived => exact ⟨'D', _, rfl, by decide⟩

theorem Delim.inj {α : Type} {g : α → Str} (h : Delim g) {a b : α} (e : g a = g b) : a = b :=
  (h a b [] [] trivial trivial (by rw [e])).1

/-! ### No control characters -/

/-- Without control characters of ASCII. -/
abbrev Clean (s : Str) : Prop := ∀ c ∈ s, 32 ≤ c.toNat ∧ c.toNat ≠ 127

theorem clean_append {a b : Str} (ha : Clean a) (hb : Clean b) : Clean (a ++ b) := fun c hc => by
  rcases List.mem_append.1 hc with hc | hc
  · exact ha c hc
  · exact hb c hc

theorem Clean.of_printable {s : Str} (h : PrintableLine s) : Clean s := fun c hc => ⟨(h c hc).1, by have := (h c hc).2; omega⟩

theorem clean_join {l : List Str} (h : ∀ x ∈ l, Clean x) : Clean (joinWith (str% ", ") l) := by
  induction l with
  | nil => intro c hc; cases hc
  | cons a l ih =>
    cases l with
    | nil => exact h a (by simp)
    | cons b l =>
      rw [show joinWith (str% ", ") (a :: b :: l) = a ++ str% ", " ++ joinWith (str% ", ") (b :: l) from rfl]
      exact clean_append (clean_append (h a (by simp)) (by decide)) (ih fun x hx => h x (by simp [hx]))

theorem hex_clean (n : Nat) : Clean (Nat.toDigits 16 n) := by
  have h1 : ∀ k < 16, 32 ≤ k.digitChar.toNat ∧ k.digitChar.toNat ≠ 127 := by decide
  induction n using Nat.strongRecOn with
  | _ n ih =>
    by_cases h : n < 16
    · rw [Nat.toDigits_of_lt_base h]
      intro c hc; cases List.mem_singleton.1 hc; exact h1 n h
    · rw [Nat.toDigits_of_base_le (by omega) (by omega)]
      refine clean_append (ih _ (by omega)) fun c hc => ?_
      cases List.mem_singleton.1 hc; exact h1 _ (by omega)

theorem debugStr_clean (f : Fmt) (s : Str) : Clean (f.debugStr s) := by
  unfold Fmt.debugStr
  refine clean_append (a := '"' :: s.flatMap f.debugChar) (fun c hc => ?_) (by decide)
  rcases List.mem_cons.1 hc with rfl | hc
  · decide
  obtain ⟨x, _, hc⟩ := List.mem_flatMap.1 hc
  have h := (charText_iff (f := f) (c := x)).2 rfl
  generalize f.debugChar x = t at h hc
  have lit : ∀ {t : Str}, Clean t → c ∈ t → 32 ≤ c.toNat ∧ c.toNat ≠ 127 := fun h hc => h c hc
  cases h with
  | plain _ _ h3 h4 => cases List.mem_singleton.1 hc; exact ⟨h3, by omega⟩
  | other h1 _ => cases List.mem_singleton.1 hc; exact ⟨by omega, by omega⟩
  | code _ _ h =>
    rw [← hexText_iff.1 h] at hc
    exact clean_append (clean_append (by decide) (hex_clean _)) (by decide) c hc
  | _ => exact lit (by decide) hc

theorem natStr_clean (n : Nat) : Clean (natStr n) := .of_printable (printable_iff.2 (natStr_printable n))

theorem bare_clean (f : Fmt) (b : BareItem) : Clean (f.debugBare b) := by
  cases b with
  | decimal d => exact clean_append (clean_append (by decide) (.of_printable (printable_decimal d))) (by decide)
  | integer i =>
    refine clean_append (clean_append (by decide) ?_) (by decide)
    rw [intStr_eq]
    exact clean_append (by split <;> decide) (natStr_clean _)
  | string s => exact clean_append (clean_append (by decide) (debugStr_clean f s)) (by decide)
  | byteSeq b => exact clean_append (clean_append (by decide) (.of_printable (printable_bytes b))) (by decide)
  | boolean b => cases b <;> (simp only [Fmt.debugBare]; decide)
  | token s => exact clean_append (clean_append (by decide) (debugStr_clean f s)) (by decide)

theorem params_clean (f : Fmt) (p : Params) : Clean (f.debugParams p) := by
  refine clean_append (clean_append (by decide) (clean_join fun x hx => ?_)) (by decide)
  obtain ⟨e, _, rfl⟩ := List.mem_map.1 hx
  exact clean_append (clean_append (debugStr_clean f _) (by decide)) (bare_clean f _)

theorem item_clean (f : Fmt) (i : Item) : Clean (f.debugItem i) :=
  clean_append (clean_append (clean_append (clean_append (by decide) (bare_clean f _)) (by decide)) (params_clean f _)) (by decide)

theorem input_clean (f : Fmt) (s : SignatureInput) : Clean (f.debugInput s) := by
  unfold Fmt.debugInput
  refine clean_append (clean_append (clean_append (clean_append (clean_append (clean_append (by decide) (debugStr_clean f _)) (by decide))
    (clean_join fun x hx => ?_)) (by decide)) (params_clean f _)) (by decide)
  obtain ⟨i, _, rfl⟩ := List.mem_map.1 hx
  exact item_clean f i

theorem component_clean (f : Fmt) (k : SignatureComponent) : Clean (f.debugComponent k) := by
  cases k with
  | header h => exact clean_append (clean_append (by decide) (debugStr_clean f _)) (by decide)
  | derived d => exact clean_append (clean_append (by decide) (item_clean f _)) (by decide)

theorem components_clean (f : Fmt) (l : List SignatureComponent) : Clean (f.debugComponents l) := by
  refine clean_append (clean_append (by decide) (clean_join fun x hx => ?_)) (by decide)
  obtain ⟨k, _, rfl⟩ := List.mem_map.1 hx
  exact component_clean f k

theorem display_clean (f : Fmt) (e : Error) : Clean (f.displayError e) := by
  cases e <;> simp only [Fmt.displayError] <;>
    first
      | decide
      | (refine clean_append ?_ (debugStr_clean f _); decide)
      | (refine clean_append ?_ (components_clean f _); decide)

theorem debug_clean (f : Fmt) (e : Error) : Clean (f.debugError e) := by
  cases e <;> simp only [Fmt.debugError] <;>
    first
      | decide
      | (refine clean_append (clean_append ?_ (debugStr_clean f _)) ?_ <;> decide)
      | (refine clean_append (clean_append ?_ (components_clean f _)) ?_ <;> decide)

/-! ### Errors -/

theorem display_inj {f : Fmt} {e e' : Error} (h : f.displayError e = f.displayError e') : told f e = told f e' := by
  cases e <;> cases e' <;> (try rfl) <;> (try (exfalso; simp [Fmt.displayError] at h; done)) <;>
    simp only [Fmt.displayError, List.append_cancel_left_eq] at h
  · rw [Delim.inj (components_delim f) h]
  · rw [Delim.inj (quoted_delim f) h]
  · rename_i a b
    have h := Delim.inj (quoted_delim f) h
    cases a <;> cases b <;> simp_all [told]
  · rw [Delim.inj (quoted_delim f) h]

theorem debug_inj {f : Fmt} {e e' : Error} (h : f.debugError e = f.debugError e') : told f e = told f e' := by
  cases e <;> cases e' <;> (try rfl) <;> (try (exfalso; simp [Fmt.debugError] at h; done)) <;>
    simp only [Fmt.debugError, List.append_cancel_left_eq, List.append_cancel_right_eq] at h
  · rw [Delim.inj (components_delim f) h]
  · rw [Delim.inj (quoted_delim f) h]
  · rename_i a b
    have h := Delim.inj (quoted_delim f) h
    cases a <;> cases b <;> simp_all [told]
  · rw [Delim.inj (quoted_delim f) h]

end Httpsig.Shown
