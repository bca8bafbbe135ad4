import Verif.Lemmas.Debug
import Verif.Lemmas.Lossy
import Verif.Lemmas.Query
import Verif.Lemmas.UrlParse
import Verif.Spec.UrlHost
/-
The parts of hosts: digits, numbers, addresses (reading and writing).
-/
namespace Httpsig
namespace UrlHost

/-! ### Digits and numbers -/

theorem charEq {c : Char} {n : Nat} (h : c.toNat = n) : c = Char.ofNat n := by rw [← h, Char.ofNat_toNat]

theorem char_le {a b : Char} : a ≤ b ↔ a.toNat ≤ b.toNat := Iff.rfl

theorem isDigit_nat (c : Char) : c.isDigit = true ↔ 48 ≤ c.toNat ∧ c.toNat ≤ 57 := by
  simp [Char.isDigit, UInt32.le_iff_toNat_le]

theorem digitIs_iff {c : Char} {d : Nat} : DigitIs c d ↔ digit c = some d := by
  constructor
  · intro h
    cases h with
    | digit i hi => revert d; decide
    | upper i hi => revert i; decide
    | lower i hi => revert i; decide
  · intro h
    unfold digit at h
    split at h
    · rename_i hd
      rw [isDigit_nat] at hd
      cases h
      rw [charEq (c := c) (n := 48 + (c.toNat - 48)) (by omega)]
      have := DigitIs.digit (c.toNat - 48) (by omega)
      rwa [show (Char.ofNat (48 + (c.toNat - 48))).toNat - 48 = c.toNat - 48 by
        rw [← charEq (c := c) (n := 48 + (c.toNat - 48)) (by omega)]]
    split at h
    · rename_i hd
      have h1 : 97 ≤ c.toNat := hd.1
      have h2 : c.toNat ≤ 102 := hd.2
      cases h
      have := DigitIs.lower (c.toNat - 97) (by omega)
      rwa [← charEq (c := c) (n := 97 + (c.toNat - 97)) (by omega), show 10 + (c.toNat - 97) = c.toNat - 87 by omega] at this
    split at h
    · rename_i hd
      have h1 : 65 ≤ c.toNat := hd.1
      have h2 : c.toNat ≤ 70 := hd.2
      cases h
      have := DigitIs.upper (c.toNat - 65) (by omega)
      rwa [← charEq (c := c) (n := 65 + (c.toNat - 65)) (by omega), show 10 + (c.toNat - 65) = c.toNat - 55 by omega] at this
    · cases h

theorem isDigit_iff {r : Nat} {c : Char} : isDigit r c = true ↔ ∃ d, digit c = some d ∧ d < r := by
  unfold isDigit
  cases digit c <;> simp

theorem digit_lt {c : Char} {d : Nat} (h : digit c = some d) : d < 16 := by
  have := digitIs_iff.2 h
  cases this <;> omega

theorem isDigit_ten (c : Char) : isDigit 10 c = c.isDigit := by
  rw [Bool.eq_iff_iff, isDigit_iff]
  unfold digit
  constructor
  · rintro ⟨d, h, hd⟩
    split at h
    · assumption
    split at h
    · rename_i hc
      have h1 : 97 ≤ c.toNat := hc.1
      cases h; omega
    split at h
    · rename_i hc
      have h1 : 65 ≤ c.toNat := hc.1
      cases h; omega
    · cases h
  · intro h
    rw [if_pos h]
    rw [isDigit_nat] at h
    exact ⟨_, rfl, by omega⟩

theorem value_snoc (r : Nat) (s : Str) (c : Char) : value r (s ++ [c]) = value r s * r + (digit c).getD 0 := by
  unfold value; rw [List.foldl_append]; rfl

theorem value_ten {s : Str} (h : ∀ c ∈ s, c.isDigit = true) : value 10 s = Sfv.digitsVal s := by
  have key : ∀ (s : Str) (n : Nat), (∀ c ∈ s, c.isDigit = true) →
      s.foldl (fun n c => n * 10 + (digit c).getD 0) n = s.foldl (fun n c => n * 10 + (c.toNat - 48)) n := by
    intro s
    induction s with
    | nil => intro _ _; rfl
    | cons c s ih =>
      intro n h
      simp only [List.foldl_cons]
      have hc : digit c = some (c.toNat - 48) := by unfold digit; rw [if_pos (h c (by simp))]
      rw [hc]
      exact ih _ fun c hc => h c (by simp [hc])
  exact key s 0 h

theorem numeral_iff {r : Nat} {s : Str} {n : Nat} :
    Numeral r s n ↔ s ≠ [] ∧ (∀ c ∈ s, isDigit r c = true) ∧ value r s = n := by
  constructor
  · intro h
    induction h with
    | one hd hr =>
      rw [digitIs_iff] at hd
      refine ⟨by simp, ?_, ?_⟩
      · intro c hc
        simp only [List.mem_singleton] at hc
        subst hc
        exact isDigit_iff.2 ⟨_, hd, hr⟩
      · simp [value, hd]
    | more _ hd hr ih =>
      rw [digitIs_iff] at hd
      refine ⟨by simp, ?_, ?_⟩
      · intro c hc
        rcases List.mem_append.1 hc with hc | hc
        · exact ih.2.1 c hc
        · simp only [List.mem_singleton] at hc
          subst hc
          exact isDigit_iff.2 ⟨_, hd, hr⟩
      · rw [value_snoc, ih.2.2, hd, Nat.mul_comm]; rfl
  · rintro ⟨h0, h1, rfl⟩
    have key : ∀ k (s : Str), s.length = k → s ≠ [] → (∀ c ∈ s, isDigit r c = true) → Numeral r s (value r s) := by
      intro k
      induction k with
      | zero => intro s hs h0; exact absurd (List.length_eq_zero_iff.1 hs) h0
      | succ k ih =>
        intro s hs h0 h1
        obtain ⟨w, c, rfl⟩ := (Shown.nil_or_snoc s).resolve_left h0
        obtain ⟨d, hd, hr⟩ := isDigit_iff.1 (h1 c (by simp))
        by_cases hw : w = []
        · subst hw
          simp only [List.nil_append, value, List.foldl_cons, List.foldl_nil, hd, Option.getD_some, Nat.zero_mul, Nat.zero_add]
          exact .one (digitIs_iff.2 hd) hr
        · rw [value_snoc, hd, Option.getD_some, Nat.mul_comm]
          refine .more (ih w ?_ hw fun c hc => h1 c (by simp [hc])) (digitIs_iff.2 hd) hr
          simpa using hs
    exact key _ s rfl h0 h1

theorem numeral_unique {r : Nat} {s : Str} {n m : Nat} (h : Numeral r s n) (h' : Numeral r s m) : n = m :=
  (numeral_iff.1 h).2.2.symm.trans (numeral_iff.1 h').2.2

theorem numeral_lt {r : Nat} {s : Str} {n : Nat} (h : Numeral r s n) : n < r ^ s.length := by
  induction h with
  | one _ hr => simpa using hr
  | @more s n c d _ hd hr ih =>
    simp only [List.length_append, List.length_cons, List.length_nil, Nat.zero_add, Nat.pow_succ]
    calc r * n + d < r * n + r := by omega
      _ = r * (n + 1) := by rw [Nat.mul_add, Nat.mul_one]
      _ ≤ r * r ^ s.length := Nat.mul_le_mul_left _ ih
      _ = r ^ s.length * r := Nat.mul_comm _ _

/-! ### IPv4 -/

theorem radixNumber_iff {r : Nat} {s : Str} {n : Nat} :
    radixNumber r s = some (some n) ↔ (s = [] ∧ n = 0) ∨ (Numeral r s n ∧ n < 2 ^ 32) := by
  unfold radixNumber
  by_cases hs : s = []
  · subst hs
    rw [if_pos rfl]
    have : ¬ Numeral r [] n := fun h => (numeral_iff.1 h).1 rfl
    simp [this, eq_comm]
  · rw [if_neg hs]
    by_cases hd : s.all (isDigit r) = true
    · rw [if_pos hd]
      rw [List.all_eq_true] at hd
      by_cases hv : value r s < 2 ^ 32
      · rw [if_pos hv]
        constructor
        · intro h
          cases h
          exact .inr ⟨numeral_iff.2 ⟨hs, hd, rfl⟩, hv⟩
        · rintro (⟨h, _⟩ | ⟨h, _⟩)
          · exact absurd h hs
          · rw [(numeral_iff.1 h).2.2]
      · rw [if_neg hv]
        constructor
        · intro h; cases h
        · rintro (⟨h, _⟩ | ⟨h, h'⟩)
          · exact absurd h hs
          · rw [(numeral_iff.1 h).2.2] at hv; exact absurd h' hv
    · rw [if_neg hd]
      constructor
      · intro h; cases h
      · rintro (⟨h, _⟩ | ⟨h, h'⟩)
        · exact absurd h hs
        · exact absurd (List.all_eq_true.2 (numeral_iff.1 h).2.1) hd

theorem radixNumber_isSome {r : Nat} {s : Str} : (radixNumber r s).isSome = true ↔ ∀ c ∈ s, isDigit r c = true := by
  unfold radixNumber
  by_cases hs : s = []
  · subst hs; simp
  · rw [if_neg hs]
    by_cases hd : s.all (isDigit r) = true
    · rw [if_pos hd]; simpa using hd
    · rw [if_neg hd]; simpa using hd

theorem digit_x {x : Char} (h : x = 'x' ∨ x = 'X') : digit x = none := by rcases h with rfl | rfl <;> decide

theorem ipv4Part_cases {s : Str} {n : Nat} : Ipv4Part s n ↔
    (Numeral 10 s n ∧ (s.head? = some '0' → s.length = 1)) ∨ (∃ t, s = '0' :: t ∧ Numeral 8 t n) ∨
    ∃ x t, s = '0' :: x :: t ∧ (x = 'x' ∨ x = 'X') ∧ ((t = [] ∧ n = 0) ∨ Numeral 16 t n) := by
  constructor
  · intro h
    cases h with
    | decimal h h' => exact .inl ⟨h, h'⟩
    | octal h => exact .inr (.inl ⟨_, rfl, h⟩)
    | hex hx h => exact .inr (.inr ⟨_, _, rfl, by simpa using hx, .inr h⟩)
    | hexNothing hx => exact .inr (.inr ⟨_, _, rfl, by simpa using hx, .inl ⟨rfl, rfl⟩⟩)
  · rintro (⟨h, h'⟩ | ⟨t, rfl, h⟩ | ⟨x, t, rfl, hx, ⟨rfl, rfl⟩ | h⟩)
    · exact .decimal h h'
    · exact .octal h
    · exact .hexNothing (by simpa using hx)
    · exact .hex (by simpa using hx) h

theorem ipv4Number_iff {s : Str} {n : Nat} : ipv4Number s = some (some n) ↔ Ipv4Part s n ∧ n < 2 ^ 32 := by
  have nonum : ∀ {r : Nat} {m : Nat}, ¬ Numeral r [] m := fun h => (numeral_iff.1 h).1 rfl
  rw [ipv4Part_cases]
  match s with
  | [] => simp [ipv4Number, nonum]
  | [c] =>
    simp only [ipv4Number]
    rw [radixNumber_iff]
    constructor
    · rintro (⟨h, _⟩ | ⟨h, h'⟩)
      · cases h
      · exact ⟨.inl ⟨h, fun _ => rfl⟩, h'⟩
    · rintro ⟨⟨h, _⟩ | ⟨t, e, h⟩ | ⟨x, t, e, _⟩, h'⟩
      · exact .inr ⟨h, h'⟩
      · cases e; exact absurd h nonum
      · cases e
  | c :: x :: s =>
    simp only [ipv4Number]
    by_cases h1 : c = '0' ∧ (x = 'x' ∨ x = 'X')
    · rw [if_pos h1, radixNumber_iff]
      obtain ⟨rfl, hx⟩ := h1
      have hbad : ∀ {r t m}, ¬ Numeral r (x :: t) m := fun h => by
        have := (numeral_iff.1 h).2.1 x (by simp)
        rw [isDigit_iff, digit_x hx] at this
        obtain ⟨_, h, _⟩ := this
        cases h
      have hbad' : ∀ {r t m}, ¬ Numeral r ('0' :: x :: t) m := fun h => by
        have := (numeral_iff.1 h).2.1 x (by simp)
        rw [isDigit_iff, digit_x hx] at this
        obtain ⟨_, h, _⟩ := this
        cases h
      constructor
      · rintro (⟨rfl, rfl⟩ | ⟨h, h'⟩)
        · exact ⟨.inr (.inr ⟨x, [], rfl, hx, .inl ⟨rfl, rfl⟩⟩), by decide⟩
        · exact ⟨.inr (.inr ⟨x, s, rfl, hx, .inr h⟩), h'⟩
      · rintro ⟨⟨h, _⟩ | ⟨t, e, h⟩ | ⟨y, t, e, _, h⟩, h'⟩
        · exact absurd h hbad'
        · cases e; exact absurd h hbad
        · cases e
          rcases h with h | h
          · exact .inl h
          · exact .inr ⟨h, h'⟩
    · rw [if_neg h1]
      by_cases h2 : c = '0'
      · subst h2
        rw [if_pos rfl, radixNumber_iff]
        constructor
        · rintro (⟨h, _⟩ | ⟨h, h'⟩)
          · cases h
          · exact ⟨.inr (.inl ⟨_, rfl, h⟩), h'⟩
        · rintro ⟨⟨h, h0⟩ | ⟨t, e, h⟩ | ⟨y, t, e, hy, h⟩, h'⟩
          · have := h0 rfl; simp at this
          · cases e; exact .inr ⟨h, h'⟩
          · cases e; exact absurd ⟨rfl, hy⟩ h1
      · rw [if_neg h2, radixNumber_iff]
        constructor
        · rintro (⟨h, _⟩ | ⟨h, h'⟩)
          · cases h
          · refine ⟨.inl ⟨h, fun e => ?_⟩, h'⟩
            simp at e; exact absurd e h2
        · rintro ⟨⟨h, h0⟩ | ⟨t, e, h⟩ | ⟨y, t, e, hy, h⟩, h'⟩
          · exact .inr ⟨h, h'⟩
          · cases e; exact absurd rfl h2
          · cases e; exact absurd rfl h2

theorem ipv4Part_unique {s : Str} {n m : Nat} (h : Ipv4Part s n) (h' : Ipv4Part s m) : n = m := by
  have nonum : ∀ {r : Nat} {m : Nat}, ¬ Numeral r [] m := fun h => (numeral_iff.1 h).1 rfl
  have hbad : ∀ {r t m x}, (x = 'x' ∨ x = 'X') → ¬ Numeral r (x :: t) m := fun hx h => by
    have := (numeral_iff.1 h).2.1 _ (List.mem_cons_self ..)
    rw [isDigit_iff, digit_x hx] at this
    obtain ⟨_, h, _⟩ := this
    cases h
  have hbad' : ∀ {r t m x}, (x = 'x' ∨ x = 'X') → ¬ Numeral r ('0' :: x :: t) m := fun {r t m x} hx h => by
    have := (numeral_iff.1 h).2.1 x (by simp)
    rw [isDigit_iff, digit_x hx] at this
    obtain ⟨_, h, _⟩ := this
    cases h
  rw [ipv4Part_cases] at h h'
  rcases h with ⟨h, h0⟩ | ⟨t, rfl, h⟩ | ⟨x, t, rfl, hx, h⟩ <;> rcases h' with ⟨h', h0'⟩ | ⟨t', e, h'⟩ | ⟨x', t', e, hx', h'⟩
  · exact numeral_unique h h'
  · subst e
    have := h0 rfl
    simp at this; subst this; exact absurd h' nonum
  · subst e; exact absurd h (hbad' hx')
  · have := h0' rfl
    simp at this; subst this; exact absurd h nonum
  · cases e; exact numeral_unique h h'
  · cases e; exact absurd h (hbad hx')
  · exact absurd h' (hbad' hx)
  · cases e; exact absurd h' (hbad hx)
  · cases e
    rcases h with ⟨rfl, rfl⟩ | h <;> rcases h' with ⟨e, rfl⟩ | h'
    · rfl
    · exact absurd h' nonum
    · subst e; exact absurd h nonum
    · exact numeral_unique h h'

theorem ipv4Number_isSome {s : Str} : (ipv4Number s).isSome = true ∨ (s ≠ [] ∧ s.all Char.isDigit = true) ↔
    (s ≠ [] ∧ ∀ c ∈ s, ∃ d, DigitIs c d ∧ d < 10) ∨ ∃ x t, s = '0' :: x :: t ∧ x ∈ ['x', 'X'] ∧ ∀ c ∈ t, ∃ d, DigitIs c d := by
  have hten : ∀ t : Str, (∀ c ∈ t, ∃ d, DigitIs c d ∧ d < 10) ↔ t.all Char.isDigit = true := fun t => by
    rw [List.all_eq_true]
    refine forall_congr' fun c => forall_congr' fun _ => ?_
    rw [← isDigit_ten, isDigit_iff]
    simp only [digitIs_iff]
  have h16 : ∀ t : Str, (∀ c ∈ t, ∃ d, DigitIs c d) ↔ ∀ c ∈ t, isDigit 16 c = true := fun t => by
    refine forall_congr' fun c => forall_congr' fun _ => ?_
    rw [isDigit_iff]
    simp only [digitIs_iff]
    exact ⟨fun ⟨d, h⟩ => ⟨d, h, digit_lt h⟩, fun ⟨d, h, _⟩ => ⟨d, h⟩⟩
  rw [hten]
  simp only [h16]
  constructor
  · rintro (h | h)
    · match s, h with
      | [c], h =>
        simp only [ipv4Number] at h
        rw [radixNumber_isSome] at h
        refine .inl ⟨by simp, List.all_eq_true.2 fun d hd => ?_⟩
        rw [← isDigit_ten]; exact h d hd
      | c :: x :: s, h =>
        simp only [ipv4Number] at h
        split at h
        · rename_i hc
          obtain ⟨rfl, hx⟩ := hc
          exact .inr ⟨x, s, rfl, by simpa using hx, radixNumber_isSome.1 h⟩
        split at h
        · rename_i hc
          subst hc
          rw [radixNumber_isSome] at h
          refine .inl ⟨by simp, List.all_eq_true.2 fun d hd => ?_⟩
          rcases List.mem_cons.1 hd with rfl | hd
          · decide
          · obtain ⟨v, hv, hlt⟩ := isDigit_iff.1 (h d hd)
            rw [← isDigit_ten, isDigit_iff]
            exact ⟨v, hv, by omega⟩
        · rw [radixNumber_isSome] at h
          refine .inl ⟨by simp, List.all_eq_true.2 fun d hd => ?_⟩
          rw [← isDigit_ten]; exact h d hd
    · exact .inl h
  · rintro (h | ⟨x, t, rfl, hx, h⟩)
    · exact .inr h
    · left
      simp only [ipv4Number]
      rw [if_pos ⟨trivial, by simpa using hx⟩]
      exact radixNumber_isSome.2 h

/-- The text after the last dot. -/
def LastPart (s l : Str) : Prop := '.' ∉ l ∧ (s = l ∨ ∃ p, s = p ++ '.' :: l)

theorem lastPart (s : Str) : ∃ l, LastPart s l := by
  induction s with
  | nil => exact ⟨[], by simp, .inl rfl⟩
  | cons c s ih =>
    obtain ⟨l, h, rfl | ⟨p, rfl⟩⟩ := ih
    · by_cases hc : c = '.'
      · subst hc; exact ⟨s, h, .inr ⟨[], rfl⟩⟩
      · exact ⟨c :: s, by simpa [Ne.symm hc] using h, .inl rfl⟩
    · exact ⟨l, h, .inr ⟨c :: p, rfl⟩⟩

theorem splitOn_snoc {p l : Str} (h : '.' ∉ l) : splitOn '.' (p ++ '.' :: l) = splitOn '.' p ++ [l] := by
  rw [splitOn_eq_iff]
  refine ⟨by simp, ?_, ?_⟩
  · intro q hq
    rcases List.mem_append.1 hq with hq | hq
    · exact splitOn_no_sep '.' p q hq
    · simp only [List.mem_singleton] at hq; rw [hq]; exact h
  · have : ∀ ps : List Str, ps ≠ [] → joinWith ['.'] (ps ++ [l]) = joinWith ['.'] ps ++ '.' :: l := by
      intro ps
      induction ps with
      | nil => intro h; exact absurd rfl h
      | cons a ps ih =>
        intro _
        cases ps with
        | nil => simp [joinWith]
        | cons b ps => simp only [List.cons_append, joinWith]; rw [← List.cons_append, ih (by simp)]; simp
    rw [this _ (splitOn_ne_nil _ _), joinWith_splitOn]

theorem splitOn_last {s l : Str} (h : LastPart s l) : ∃ t, (splitOn '.' s).reverse = l :: t ∧ (t = [] ↔ s = l) := by
  obtain ⟨h, rfl | ⟨p, rfl⟩⟩ := h
  · exact ⟨[], by rw [splitOn_of_no_sep h]; rfl, by simp⟩
  · refine ⟨(splitOn '.' p).reverse, by rw [splitOn_snoc h]; simp, ?_⟩
    constructor
    · intro e; exact absurd (List.reverse_eq_nil_iff.1 e) (splitOn_ne_nil _ _)
    · intro e; rw [← e] at h; simp at h

theorem lastPart_unique {s l m : Str} (h : LastPart s l) (h' : LastPart s m) : l = m := by
  obtain ⟨t, e, _⟩ := splitOn_last h
  obtain ⟨t', e', _⟩ := splitOn_last h'
  rw [e] at e'
  exact (List.cons.inj e').1

/-- Looks like a number. -/
def NumberLike (l : Str) : Prop :=
  (l ≠ [] ∧ ∀ c ∈ l, ∃ d, DigitIs c d ∧ d < 10) ∨ ∃ x t, l = '0' :: x :: t ∧ x ∈ ['x', 'X'] ∧ ∀ c ∈ t, ∃ d, DigitIs c d

theorem digit_dot : ∀ d, ¬ DigitIs '.' d := fun d h => by rw [digitIs_iff] at h; revert h; decide +revert

theorem NumberLike.no_dot {l : Str} (h : NumberLike l) : '.' ∉ l := by
  intro hm
  rcases h with ⟨_, h⟩ | ⟨x, t, rfl, hx, h⟩
  · obtain ⟨d, hd, _⟩ := h _ hm; exact digit_dot d hd
  · rcases List.mem_cons.1 hm with e | hm
    · exact absurd e (by decide)
    rcases List.mem_cons.1 hm with e | hm
    · subst e; simp at hx
    · obtain ⟨d, hd⟩ := h _ hm; exact digit_dot d hd

theorem NumberLike.ne_nil {l : Str} (h : NumberLike l) : l ≠ [] := by
  rcases h with ⟨h, _⟩ | ⟨x, t, rfl, _⟩
  · exact h
  · simp

theorem numberLast_iff {s : Str} : NumberLast s ↔
    ∃ l, NumberLike l ∧ (LastPart s l ∨ ∃ p, s = p ++ str% "." ∧ LastPart p l) := by
  constructor
  · rintro ⟨pre, l, dot, rfl, hp, hd, hl⟩
    have hl : NumberLike l := hl
    have hlast : LastPart (pre ++ l) l := by
      refine ⟨hl.no_dot, ?_⟩
      rcases hp with rfl | ⟨p, rfl⟩
      · exact .inl rfl
      · exact .inr ⟨p, by simp⟩
    rcases hd with rfl | rfl
    · exact ⟨l, hl, .inl (by simpa using hlast)⟩
    · exact ⟨l, hl, .inr ⟨_, rfl, hlast⟩⟩
  · have key : ∀ {p l : Str}, LastPart p l → ∃ pre, p = pre ++ l ∧ (pre = [] ∨ ∃ p, pre = p ++ str% ".") := by
      rintro p l ⟨_, rfl | ⟨q, rfl⟩⟩
      · exact ⟨[], rfl, .inl rfl⟩
      · exact ⟨q ++ str% ".", by simp, .inr ⟨q, rfl⟩⟩
    rintro ⟨l, hl, h | ⟨p, rfl, h⟩⟩
    · obtain ⟨pre, rfl, hp⟩ := key h
      exact ⟨pre, l, [], by simp, hp, .inl rfl, hl⟩
    · obtain ⟨pre, rfl, hp⟩ := key h
      exact ⟨pre, l, _, rfl, hp, .inr rfl, hl⟩

theorem endsInNumber_iff {s : Str} : endsInNumber s = true ↔ NumberLast s := by
  have hnum : ∀ p : Str, (decide (p ≠ [] ∧ p.all Char.isDigit = true) || (ipv4Number p).isSome) = true ↔ NumberLike p := fun p => by
    unfold NumberLike
    rw [← ipv4Number_isSome, Bool.or_eq_true, decide_eq_true_eq, or_comm]
  rw [numberLast_iff]
  obtain ⟨l, hl⟩ := lastPart s
  obtain ⟨t, ht, htn⟩ := splitOn_last hl
  unfold endsInNumber
  rw [ht]
  by_cases h0 : l = []
  · subst h0
    cases t with
    | nil =>
      have := htn.1 rfl
      subst this
      simp only [Bool.false_eq_true, false_iff]
      rintro ⟨l, hn, h | ⟨p, e, _⟩⟩
      · rw [← lastPart_unique hl h] at hn; exact hn.ne_nil rfl
      · simp at e
    | cons q t =>
      obtain ⟨_, e | ⟨p, hp⟩⟩ := hl
      · exact absurd (htn.2 e) (by simp)
      have hq : LastPart p q := by
        obtain ⟨l, h⟩ := lastPart p
        obtain ⟨t', ht', _⟩ := splitOn_last h
        rw [hp, splitOn_snoc (by simp), List.reverse_append] at ht
        simp only [List.reverse_cons, List.reverse_nil, List.nil_append, List.cons_append, ht'] at ht
        cases ht
        exact h
      simp only []
      rw [hnum]
      constructor
      · intro h; exact ⟨q, h, .inr ⟨p, hp, hq⟩⟩
      · rintro ⟨l, hn, h | ⟨p', e, h⟩⟩
        · exact absurd (lastPart_unique h ⟨by simp, .inr ⟨p, hp⟩⟩) hn.ne_nil
        · rw [hp] at e
          have := (List.append_inj' e rfl).1
          subst this
          rwa [lastPart_unique hq h]
  · have : ∀ (m : Bool), (match l :: t with
        | [] :: p :: _ => m
        | [] :: [] => false
        | p :: _ => (decide (p ≠ [] ∧ p.all Char.isDigit = true) || (ipv4Number p).isSome)
        | [] => false) = (decide (l ≠ [] ∧ l.all Char.isDigit = true) || (ipv4Number l).isSome) := by
      intro m
      cases l with
      | nil => exact absurd rfl h0
      | cons c l => rfl
    cases l with
    | nil => exact absurd rfl h0
    | cons c l =>
      simp only []
      rw [hnum]
      constructor
      · intro h; exact ⟨_, h, .inl hl⟩
      · rintro ⟨m, hn, h | ⟨p, e, h⟩⟩
        · rwa [lastPart_unique hl h]
        · exact absurd (lastPart_unique hl ⟨by simp, .inr ⟨p, e⟩⟩) h0

theorem mapM_iff {α β : Type} {f : α → Option β} : ∀ {l : List α} {m : List β},
    l.mapM f = some m ↔ Forall2 (fun a b => f a = some b) l m
  | [], m => by
    rw [List.mapM_nil]
    constructor
    · intro h; cases h; exact .nil
    · intro h; cases h; rfl
  | a :: l, m => by
    rw [List.mapM_cons]
    constructor
    · intro h
      cases hf : f a with
      | none => rw [hf] at h; cases h
      | some b =>
        cases hl : l.mapM f with
        | none => rw [hf, hl] at h; cases h
        | some m' =>
          rw [hf, hl] at h; cases h
          exact .cons hf (mapM_iff.1 hl)
    · intro h
      cases h with
      | cons hf hl => rw [hf, mapM_iff.2 hl]; rfl

theorem Ipv4Part.no_dot {s : Str} {n : Nat} (h : Ipv4Part s n) : '.' ∉ s ∧ s ≠ [] := by
  have hn : ∀ {r t m}, Numeral r t m → '.' ∉ t := fun h hm => by
    have := (numeral_iff.1 h).2.1 _ hm
    rw [isDigit_iff] at this
    obtain ⟨d, h, _⟩ := this
    exact digit_dot d (digitIs_iff.2 h)
  cases h with
  | decimal h _ => exact ⟨hn h, (numeral_iff.1 h).1⟩
  | octal h => exact ⟨by simpa using hn h, by simp⟩
  | hex hx h =>
    refine ⟨?_, by simp⟩
    intro hm
    rcases List.mem_cons.1 hm with e | hm
    · exact absurd e (by decide)
    rcases List.mem_cons.1 hm with e | hm
    · subst e; simp at hx
    · exact hn h hm
  | hexNothing hx =>
    refine ⟨?_, by simp⟩
    intro hm
    rcases List.mem_cons.1 hm with e | hm
    · exact absurd e (by decide)
    · simp only [List.mem_singleton] at hm
      subst hm; simp at hx

theorem forall2_left' {α β : Type} {r : α → β → Prop} {as : List α} {bs : List β} (h : Forall2 r as bs) :
    ∀ a ∈ as, ∃ b ∈ bs, r a b := by
  induction h with
  | nil => simp
  | cons h _ ih =>
    intro a ha
    rcases List.mem_cons.1 ha with rfl | ha
    · exact ⟨_, by simp, h⟩
    · obtain ⟨b, hb, h⟩ := ih a ha; exact ⟨b, by simp [hb], h⟩

theorem forall2_length {α β : Type} {r : α → β → Prop} {as : List α} {bs : List β} (h : Forall2 r as bs) : as.length = bs.length := by
  induction h with
  | nil => rfl
  | cons _ _ ih => simp [ih]

theorem forall2_imp {α β : Type} {p q : α → β → Prop} (h : ∀ a b, p a b → q a b) {l : List α} {m : List β} (hl : Forall2 p l m) :
    Forall2 q l m := by
  induction hl with
  | nil => exact .nil
  | cons hab _ ih => exact .cons (h _ _ hab) ih

/-- The parts that count. -/
def parts4 (s : Str) : List Str :=
  if (splitOn '.' s).getLast? = some [] then (splitOn '.' s).dropLast else splitOn '.' s

theorem joinWith_last {ps : List Str} (h : ps ≠ []) : joinWith ['.'] (ps ++ [[]]) = joinWith ['.'] ps ++ ['.'] := by
  induction ps with
  | nil => exact absurd rfl h
  | cons a ps ih =>
    cases ps with
    | nil => simp [joinWith]
    | cons b ps => simp only [List.cons_append, joinWith]; rw [← List.cons_append, ih (by simp)]; simp

theorem dotParts_iff {s : Str} {ps : List Str} (h0 : ps ≠ []) (h : ∀ p ∈ ps, '.' ∉ p ∧ p ≠ []) : DotParts s ps ↔ parts4 s = ps := by
  unfold DotParts parts4
  have hsep : ∀ p ∈ ps, '.' ∉ p := fun p hp => (h p hp).1
  have hlast : ps.getLast? ≠ some [] := fun e => (h [] (List.mem_of_getLast? e)).2 rfl
  constructor
  · rintro ⟨_, rfl | rfl⟩
    · rw [splitOn_joinWith h0 hsep, if_neg hlast]
    · rw [← joinWith_last h0, splitOn_joinWith (by simp) (by
        intro p hp
        rcases List.mem_append.1 hp with hp | hp
        · exact hsep p hp
        · simp only [List.mem_singleton] at hp; subst hp; simp)]
      simp
  · intro e
    refine ⟨h0, ?_⟩
    split at e
    · rename_i hl
      right
      have h1 : splitOn '.' s = ps ++ [[]] := by
        rw [← e]
        obtain ⟨l, hl'⟩ := List.getLast?_eq_some_iff.1 hl
        rw [hl']; simp
      have := joinWith_splitOn '.' s
      rw [h1, joinWith_last h0] at this
      exact this.symm
    · left
      rw [← e, joinWith_splitOn]

theorem ipv4Value {bytes : List Nat} (hb : bytes.length < 4) (last : Nat) : last + ipv4Bytes 0 bytes =
    bytes.foldl (fun n b => 256 * n + b) 0 * 256 ^ (4 - bytes.length) + last := by
  match bytes, hb with
  | [], _ => simp [ipv4Bytes]
  | [a], _ => simp [ipv4Bytes]; omega
  | [a, b], _ => simp [ipv4Bytes]; omega
  | [a, b, c], _ => simp [ipv4Bytes]; omega

theorem lastLimit {k : Nat} (hk : k < 4) (last : Nat) : last > (2 ^ 32 - 1) / 2 ^ (8 * k) ↔ ¬ last < 256 ^ (4 - k) := by
  match k, hk with
  | 0, _ => simp; omega
  | 1, _ => simp; omega
  | 2, _ => simp; omega
  | 3, _ => simp; omega

theorem ipv4Addr_iff {s : Str} {n : Nat} : ipv4Addr s = some n ↔ Ipv4Is s n := by
  have hjoin : ∀ {p : Str} {n : Nat}, (ipv4Number p).join = some n ↔ Ipv4Part p n ∧ n < 2 ^ 32 := fun {p n} => by
    rw [← ipv4Number_iff]
    cases ipv4Number p with
    | none => simp
    | some x => cases x <;> simp
  have he : ipv4Addr s = if 4 < (parts4 s).length then none else
      match (parts4 s).mapM fun p => (ipv4Number p).join with
      | none => none
      | some numbers =>
        match numbers.getLast? with
        | none => none
        | some last =>
          if last > (2 ^ 32 - 1) / 2 ^ (8 * numbers.dropLast.length) then none
          else if numbers.dropLast.any (· > 255) then none
          else some (last + ipv4Bytes 0 numbers.dropLast) := rfl
  rw [he]
  constructor
  · intro h
    split at h
    · cases h
    rename_i h4
    split at h
    · cases h
    rename_i numbers hm
    rw [mapM_iff] at hm
    split at h
    · cases h
    rename_i last hlast
    obtain ⟨bytes, rfl⟩ := List.getLast?_eq_some_iff.1 hlast
    rw [List.dropLast_concat] at h
    have hlen := forall2_length hm
    simp only [List.length_append, List.length_cons, List.length_nil] at hlen
    have hb : bytes.length < 4 := by omega
    split at h
    · cases h
    rename_i hl
    rw [lastLimit hb] at hl
    split at h
    · cases h
    rename_i hbytes
    cases h
    have hm' : Forall2 Ipv4Part (parts4 s) (bytes ++ [last]) := forall2_imp (fun a b hab => (hjoin.1 hab).1) hm
    have hne : parts4 s ≠ [] := by
      intro e; rw [e] at hlen; simp at hlen
    refine ⟨parts4 s, bytes, last, (dotParts_iff hne fun p hp => ?_).2 rfl, hm', hb, ?_, ?_, ipv4Value hb last⟩
    · obtain ⟨b, _, hpb⟩ := forall2_left' hm' p hp
      exact hpb.no_dot
    · intro b hb
      have := fun hc => hbytes (List.any_eq_true.2 ⟨b, hb, hc⟩)
      simp at this; omega
    · exact Decidable.not_not.1 hl
  · rintro ⟨parts, bytes, last, hd, hm, hb, hbytes, hl, rfl⟩
    have hlen := forall2_length hm
    simp only [List.length_append, List.length_cons, List.length_nil] at hlen
    have hne : parts ≠ [] := by
      intro e; rw [e] at hlen; simp at hlen
    have hp4 := (dotParts_iff hne fun p hp => by
      obtain ⟨b, _, hpb⟩ := forall2_left' hm p hp
      exact hpb.no_dot).1 hd
    have hlast32 : last < 2 ^ 32 := by
      refine Nat.lt_of_lt_of_le hl ?_
      calc 256 ^ (4 - bytes.length) ≤ 256 ^ 4 := Nat.pow_le_pow_right (by decide) (by omega)
        _ = 2 ^ 32 := by decide
    have hm' : (parts4 s).mapM (fun p => (ipv4Number p).join) = some (bytes ++ [last]) := by
      rw [mapM_iff, hp4]
      have : ∀ {l : List Str} {m : List Nat}, Forall2 Ipv4Part l m → (∀ b ∈ m, b < 2 ^ 32) →
          Forall2 (fun p n => (ipv4Number p).join = some n) l m := by
        intro l m h
        induction h with
        | nil => intro _; exact .nil
        | cons h _ ih => intro hb; exact .cons (hjoin.2 ⟨h, hb _ (by simp)⟩) (ih fun b h => hb b (by simp [h]))
      refine this hm fun b hb => ?_
      rcases List.mem_append.1 hb with hb | hb
      · have := hbytes b hb; omega
      · simp only [List.mem_singleton] at hb; rw [hb]; exact hlast32
    rw [hm', if_neg (by rw [hp4]; omega)]
    simp only [List.getLast?_append, List.getLast?_singleton, Option.some_or, List.dropLast_concat]
    rw [if_neg (mt (lastLimit hb last).1 (Decidable.not_not.2 hl)), if_neg, ipv4Value hb]
    intro h
    obtain ⟨b, hb, h⟩ := List.any_eq_true.1 h
    have := hbytes b hb
    simp at h; omega

end UrlHost
end Httpsig
