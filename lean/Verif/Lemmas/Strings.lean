import Verif.Spec.Text
/- `split_once`, `split`, `trim_matches` against their specifications. -/
namespace Httpsig

theorem isRustWhitespace_eq : isRustWhitespace = whiteSpace := by
  funext c
  rw [Bool.eq_iff_iff]
  unfold isRustWhitespace whiteSpace
  rw [List.contains_iff_mem]
  simp only [List.mem_cons, List.not_mem_nil, or_false, Bool.or_eq_true, Bool.and_eq_true, decide_eq_true_eq, beq_iff_eq]
  generalize c.toNat = n
  constructor <;> intro h <;> omega

theorem lookup_zip_none {c : Char} : ∀ {a b : Str}, c ∉ a → (a.zip b).lookup c = none
  | [], _, _ => rfl
  | _ :: _, [], _ => rfl
  | x :: a, y :: b, h => by
    simp only [List.mem_cons, not_or] at h
    rw [List.zip_cons_cons, List.lookup_cons, beq_eq_false_iff_ne.2 h.1]
    exact lookup_zip_none h.2

theorem lowered_eq (s : Str) : lowered s = s.map asciiLower := by
  unfold lowered
  refine List.map_congr_left fun c _ => ?_
  have key : ∀ n < 128, (((str% "ABCDEFGHIJKLMNOPQRSTUVWXYZ").zip (str% "abcdefghijklmnopqrstuvwxyz")).lookup (Char.ofNat n)).getD
      (Char.ofNat n) = asciiLower (Char.ofNat n) := by decide
  by_cases h : c.toNat < 128
  · have := key _ h
    rwa [Char.ofNat_toNat] at this
  · have hc : c ∉ str% "ABCDEFGHIJKLMNOPQRSTUVWXYZ" := by
      have : ∀ x ∈ str% "ABCDEFGHIJKLMNOPQRSTUVWXYZ", x.toNat < 128 := by decide
      exact fun hc => h (this _ hc)
    rw [lookup_zip_none hc]
    unfold asciiLower
    rw [if_neg]
    · rfl
    · intro hu
      simp only [Char.isUpper, decide_eq_true_eq, ge_iff_le, UInt32.le_iff_toNat_le] at hu
      exact h (Nat.lt_of_le_of_lt hu.2 (by decide))

theorem trim_eq (s : Str) : trim s = trimMatches whiteSpace s := by rw [← isRustWhitespace_eq]; rfl

theorem splitOnce_eq_some {c : Char} : ∀ {s a b : Str}, splitOnce c s = some (a, b) ↔ s = a ++ c :: b ∧ c ∉ a
  | [], a, b => by simp [splitOnce]
  | x :: xs, a, b => by
    unfold splitOnce
    by_cases hx : x = c
    · subst hx
      rw [if_pos rfl]
      cases a with
      | nil => simp
      | cons y ys =>
        simp only [Option.some.injEq, Prod.mk.injEq, reduceCtorEq, false_and, List.cons_append, List.cons.injEq,
          List.mem_cons, not_or, false_iff, not_and]
        rintro ⟨rfl, _⟩ h
        exact absurd rfl h
    · rw [if_neg hx]
      cases a with
      | nil =>
        simp only [Option.map_eq_some_iff, List.nil_append, List.cons.injEq, List.not_mem_nil, not_false_eq_true, and_true]
        constructor
        · rintro ⟨⟨y, z⟩, _, h⟩; cases h
        · rintro ⟨h, _⟩; exact absurd h hx
      | cons y ys =>
        simp only [Option.map_eq_some_iff, List.cons_append, List.cons.injEq, List.mem_cons, not_or]
        constructor
        · rintro ⟨⟨y', z'⟩, h, e⟩
          cases e
          obtain ⟨h1, h2⟩ := splitOnce_eq_some.1 h
          exact ⟨⟨rfl, h1⟩, fun h => hx h.symm, h2⟩
        · rintro ⟨⟨rfl, h1⟩, _, h2⟩
          exact ⟨(ys, b), splitOnce_eq_some.2 ⟨h1, h2⟩, rfl⟩

theorem splitOnce_eq_none {c : Char} {s : Str} : splitOnce c s = none ↔ c ∉ s := by
  induction s with
  | nil => simp [splitOnce]
  | cons x xs ih =>
    unfold splitOnce
    by_cases hx : x = c
    · simp [hx]
    · simp [hx, ih, Ne.symm hx]

theorem splitOn_ne_nil (c : Char) (s : Str) : splitOn c s ≠ [] := by
  cases s with
  | nil => simp [splitOn]
  | cons x xs =>
    unfold splitOn
    split
    · simp
    · split <;> simp

theorem splitOn_no_sep (c : Char) (s : Str) : ∀ p ∈ splitOn c s, c ∉ p := by
  induction s with
  | nil => simp [splitOn]
  | cons x xs ih =>
    unfold splitOn
    split
    · intro p hp
      rcases List.mem_cons.1 hp with rfl | hp
      · simp
      · exact ih p hp
    · rename_i hx
      split
      · rename_i h; exact absurd h (splitOn_ne_nil c xs)
      · rename_i q qs h
        rw [h] at ih
        intro p hp
        rcases List.mem_cons.1 hp with rfl | hp
        · simp only [List.mem_cons, not_or]
          exact ⟨fun h => hx h.symm, ih q (by simp)⟩
        · exact ih p (by simp [hp])

theorem joinWith_splitOn (c : Char) (s : Str) : joinWith [c] (splitOn c s) = s := by
  induction s with
  | nil => rfl
  | cons x xs ih =>
    unfold splitOn
    split
    · rename_i hx
      subst hx
      cases h : splitOn x xs with
      | nil => exact absurd h (splitOn_ne_nil x xs)
      | cons p ps => rw [h] at ih; simp [joinWith, ih]
    · split
      · rename_i h; exact absurd h (splitOn_ne_nil c xs)
      · rename_i q qs h
        rw [h] at ih
        cases qs with
        | nil => simp only [joinWith] at ih ⊢; rw [ih]
        | cons r rs => simp only [joinWith, List.cons_append] at ih ⊢; rw [ih]

theorem splitOn_of_no_sep {c : Char} {p : Str} (h : c ∉ p) : splitOn c p = [p] := by
  induction p with
  | nil => rfl
  | cons x xs ih =>
    simp only [List.mem_cons, not_or] at h
    unfold splitOn
    rw [if_neg (fun e => h.1 e.symm), ih h.2]

theorem splitOn_append {c : Char} {p rest : Str} (h : c ∉ p) : splitOn c (p ++ c :: rest) = p :: splitOn c rest := by
  induction p with
  | nil => simp [splitOn]
  | cons x xs ih =>
    simp only [List.mem_cons, not_or] at h
    rw [List.cons_append]
    conv => lhs; unfold splitOn
    rw [if_neg (fun e => h.1 e.symm), ih h.2]

theorem splitOn_joinWith {c : Char} : ∀ {ps : List Str}, ps ≠ [] → (∀ p ∈ ps, c ∉ p) → splitOn c (joinWith [c] ps) = ps
  | [], h, _ => absurd rfl h
  | [p], _, hp => splitOn_of_no_sep (hp p (by simp))
  | p :: q :: qs, _, hp => by
    have : joinWith [c] (p :: q :: qs) = p ++ c :: joinWith [c] (q :: qs) := by simp [joinWith]
    rw [this, splitOn_append (hp p (by simp)), splitOn_joinWith (by simp) (fun r hr => hp r (by simp [hr]))]

/-- The pieces of `split` are the only separator-free list joining to the input. -/
theorem splitOn_eq_iff {c : Char} {s : Str} {ps : List Str} :
    splitOn c s = ps ↔ ps ≠ [] ∧ (∀ p ∈ ps, c ∉ p) ∧ s = joinWith [c] ps := by
  constructor
  · rintro rfl
    exact ⟨splitOn_ne_nil c s, splitOn_no_sep c s, (joinWith_splitOn c s).symm⟩
  · rintro ⟨h1, h2, rfl⟩
    exact splitOn_joinWith h1 h2

theorem dropWhile_append_all {p : Char → Bool} {a t : Str} (h : ∀ c ∈ a, p c = true) :
    (a ++ t).dropWhile p = t.dropWhile p := by
  induction a with
  | nil => rfl
  | cons x xs ih =>
    rw [List.cons_append, List.dropWhile_cons, if_pos (h x (by simp))]
    exact ih fun c hc => h c (by simp [hc])

theorem dropWhile_head_false {p : Char → Bool} {t : Str} (h : ∀ c ∈ t.head?, p c = false) : t.dropWhile p = t := by
  cases t with
  | nil => rfl
  | cons x xs => rw [List.dropWhile_cons, if_neg (by simp [h x (by simp)])]

theorem head_dropWhile {p : Char → Bool} {s : Str} : ∀ c ∈ (s.dropWhile p).head?, p c = false := by
  intro c hc
  induction s with
  | nil => simp at hc
  | cons x xs ih =>
    rw [List.dropWhile_cons] at hc
    split at hc
    · exact ih hc
    · rename_i hx
      simp only [List.head?_cons, Option.mem_def, Option.some.injEq] at hc
      subst hc
      simpa using hx

theorem takeWhile_all {p : Char → Bool} {s : Str} : ∀ c ∈ s.takeWhile p, p c = true := by
  intro c hc
  have h := List.all_takeWhile (p := p) (l := s)
  exact List.all_eq_true.1 h c hc

/-- `trim_matches` computes the trimmed string. -/
theorem trimmed_iff {p : Char → Bool} {s t : Str} : Trimmed p s t ↔ trimMatches p s = t := by
  constructor
  · rintro ⟨a, b, rfl, ha, hb, hh, hl⟩
    unfold trimMatches
    rw [List.append_assoc, dropWhile_append_all ha]
    cases t with
    | nil =>
      have : b.dropWhile p = [] := by
        have := dropWhile_append_all (t := []) hb
        simpa using this
      simp [this]
    | cons x xs =>
      rw [dropWhile_head_false (t := (x :: xs) ++ b) (by simpa using hh), List.reverse_append,
        dropWhile_append_all (by simpa using hb), dropWhile_head_false (t := (x :: xs).reverse) (by rw [List.head?_reverse]; exact hl), List.reverse_reverse]
  · rintro rfl
    unfold trimMatches
    refine ⟨s.takeWhile p, ((s.dropWhile p).reverse.takeWhile p).reverse, ?_, takeWhile_all, ?_, ?_, ?_⟩
    · rw [List.append_assoc, ← List.reverse_append, List.takeWhile_append_dropWhile, List.reverse_reverse,
        List.takeWhile_append_dropWhile]
    · intro c hc
      exact takeWhile_all c (List.mem_reverse.1 hc)
    · intro c hc
      have hd : s.dropWhile p = ((s.dropWhile p).reverse.dropWhile p).reverse ++ ((s.dropWhile p).reverse.takeWhile p).reverse := by
        rw [← List.reverse_append, List.takeWhile_append_dropWhile, List.reverse_reverse]
      have : c ∈ (s.dropWhile p).head? := by
        rw [hd]
        cases hx : ((s.dropWhile p).reverse.dropWhile p).reverse with
        | nil => rw [hx] at hc; simp at hc
        | cons y ys => rw [hx] at hc; simpa using hc
      exact head_dropWhile c this
    · intro c hc
      rw [List.getLast?_reverse] at hc
      exact head_dropWhile c hc

theorem Trimmed.det {p : Char → Bool} {s t u : Str} (h1 : Trimmed p s t) (h2 : Trimmed p s u) : t = u := by
  rw [trimmed_iff] at h1 h2; rw [← h1, h2]

/-- Stripping a delimiter that does not occur at the ends of the content. -/
theorem trimMatches_wrap {p : Char → Bool} {a t b : Str} (ha : ∀ c ∈ a, p c = true) (hb : ∀ c ∈ b, p c = true)
    (h : ∀ c ∈ t, p c = false) : trimMatches p (a ++ t ++ b) = t :=
  trimmed_iff.1 ⟨a, b, rfl, ha, hb, fun c hc => h c (List.mem_of_mem_head? hc), fun c hc => h c (List.mem_of_mem_getLast? hc)⟩

end Httpsig
