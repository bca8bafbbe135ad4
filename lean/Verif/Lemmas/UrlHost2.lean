import Verif.Lemmas.UrlHost
/-
Reading of IPv6 addresses.
-/
namespace Httpsig
namespace UrlHost

theorem hexRun_eq : ∀ (k : Nat) {t r : Str}, (∀ c ∈ t, isDigit 16 c = true) → t.length ≤ k → (∀ c, r.head? = some c → isDigit 16 c = false) →
    hexRun k (t ++ r) = (t, r)
  | k, [], r, _, _, hr => by
    cases r with
    | nil => cases k <;> rfl
    | cons c r =>
      cases k with
      | zero => rfl
      | succ k => simp only [List.nil_append, hexRun]; rw [hr c rfl]; rfl
  | k + 1, c :: t, r, ht, hl, hr => by
    simp only [List.cons_append, hexRun]
    rw [if_pos (ht c (by simp)), hexRun_eq k (fun c hc => ht c (by simp [hc])) (by simpa using hl) hr]

theorem hexRun_spec : ∀ (k : Nat) (s : Str), s = (hexRun k s).1 ++ (hexRun k s).2 ∧ (∀ c ∈ (hexRun k s).1, isDigit 16 c = true) ∧
    (hexRun k s).1.length ≤ k
  | 0, s => by simp [hexRun]
  | k + 1, [] => by simp [hexRun]
  | k + 1, c :: s => by
    simp only [hexRun]
    by_cases hc : isDigit 16 c = true
    · rw [if_pos hc]
      obtain ⟨h1, h2, h3⟩ := hexRun_spec k s
      refine ⟨by simpa using h1, ?_, by simpa using h3⟩
      intro d hd
      rcases List.mem_cons.1 hd with rfl | hd
      · exact hc
      · exact h2 d hd
    · rw [if_neg hc]; simp

theorem colon_no_digit : isDigit 16 ':' = false := by decide
theorem dot_no_digit : isDigit 16 '.' = false := by decide

theorem piece_iff {s : Str} {n : Nat} : Piece s n ↔ s ≠ [] ∧ (∀ c ∈ s, isDigit 16 c = true) ∧ s.length ≤ 4 ∧ value 16 s = n := by
  unfold Piece
  rw [numeral_iff]
  constructor
  · rintro ⟨⟨h1, h2, h3⟩, h4⟩; exact ⟨h1, h2, h4, h3⟩
  · rintro ⟨h1, h2, h4, h3⟩; exact ⟨⟨h1, h2, h3⟩, h4⟩

theorem Piece.lt {s : Str} {n : Nat} (h : Piece s n) : n < 65536 := by
  refine Nat.lt_of_lt_of_le (numeral_lt h.1) ?_
  calc 16 ^ s.length ≤ 16 ^ 4 := Nat.pow_le_pow_right (by decide) h.2
    _ = 65536 := by decide

theorem ByteText.digits {s : Str} {n : Nat} (h : ByteText s n) : s ≠ [] ∧ ∀ c ∈ s, c.isDigit = true := by
  obtain ⟨h1, h2, _⟩ := numeral_iff.1 h.1
  exact ⟨h1, fun c hc => by rw [← isDigit_ten]; exact h2 c hc⟩

theorem ByteText.length {s : Str} {n : Nat} (h : ByteText s n) : s.length ≤ 3 := by
  obtain ⟨h1, h2, h3⟩ := numeral_iff.1 h.1
  match s, h with
  | [], _ => simp
  | [_], _ => simp
  | [_, _], _ => simp
  | [_, _, _], _ => simp
  | a :: b :: c :: d :: t, h =>
    exfalso
    have hge : ∀ (t : Str) (m : Nat), m ≤ t.foldl (fun n c => n * 10 + (digit c).getD 0) m := by
      intro t
      induction t with
      | nil => intro m; exact Nat.le_refl m
      | cons c t ih => intro m; exact Nat.le_trans (by omega) (ih (m * 10 + (digit c).getD 0))
    have hv : value 10 (a :: b :: c :: d :: t) = n := h3
    have h4 := hge t ((((0 * 10 + (digit a).getD 0) * 10 + (digit b).getD 0) * 10 + (digit c).getD 0) * 10 + (digit d).getD 0)
    have ha : (digit a).getD 0 ≠ 0 := by
      intro e
      obtain ⟨v, hv, hlt⟩ := isDigit_iff.1 (h2 a (by simp))
      rw [hv] at e
      simp only [Option.getD_some] at e
      subst e
      have := digitIs_iff.2 hv
      have ha : a = '0' := by
        generalize hz : 0 = z at this
        cases this
        · subst hz; rfl
        · omega
        · omega
      subst ha
      have := h.2.2 rfl
      simp at this
    have hn := h.2.1
    have hv' : value 10 (a :: b :: c :: d :: t) =
      t.foldl (fun n c => n * 10 + (digit c).getD 0) ((((0 * 10 + (digit a).getD 0) * 10 + (digit b).getD 0) * 10 + (digit c).getD 0) * 10 + (digit d).getD 0) := rfl
    omega

theorem takeWhile_digits {t r : Str} (ht : ∀ c ∈ t, c.isDigit = true) (hr : ∀ c, r.head? = some c → c.isDigit = false) :
    (t ++ r).takeWhile Char.isDigit = t ∧ (t ++ r).dropWhile Char.isDigit = r := by
  induction t with
  | nil =>
    cases r with
    | nil => exact ⟨rfl, rfl⟩
    | cons c r => simp [hr c rfl]
  | cons c t ih =>
    have := ih fun c hc => ht c (by simp [hc])
    simp [ht c (by simp), this]

theorem byteNumber_iff {s r : Str} {n : Nat} : byteNumber s = some (n, r) ↔
    ∃ t, s = t ++ r ∧ ByteText t n ∧ ∀ c, r.head? = some c → c.isDigit = false := by
  unfold byteNumber
  simp only []
  constructor
  · intro h
    split at h
    · cases h
    rename_i hc
    cases h
    refine ⟨s.takeWhile Char.isDigit, (List.takeWhile_append_dropWhile).symm, ⟨?_, ?_, ?_⟩, ?_⟩
    · refine numeral_iff.2 ⟨fun e => hc (.inl e), fun c hc => ?_, rfl⟩
      rw [isDigit_ten]
      exact (List.all_eq_true.1 List.all_takeWhile) c hc
    · have := fun e => hc (.inr (.inr e)); omega
    · intro e
      have h0 := fun e => hc (.inl e)
      have h1 := fun e' => hc (.inr (.inl ⟨e, e'⟩))
      have h2 : (s.takeWhile Char.isDigit).length ≠ 0 := fun e => h0 (List.length_eq_zero_iff.1 e)
      rcases Nat.lt_or_ge 1 (s.takeWhile Char.isDigit).length with h3 | h3
      · exact (h1 h3).elim
      · omega
    · intro c hc
      have := List.head?_dropWhile_not Char.isDigit s
      rw [hc] at this
      simpa using this
  · rintro ⟨t, rfl, ht, hr⟩
    obtain ⟨hne, hd⟩ := ht.digits
    obtain ⟨h1, h2⟩ := takeWhile_digits hd hr
    rw [h1, h2, if_neg, (numeral_iff.1 ht.1).2.2]
    rintro (e | ⟨e, e'⟩ | e)
    · exact hne e
    · have := ht.2.2 e; omega
    · rw [(numeral_iff.1 ht.1).2.2] at e
      have := ht.2.1; omega

/-- The rest of an IPv4 address. -/
inductive DotRest : Str → List Nat → Prop
  | nil : DotRest [] []
  | cons {t s : Str} {n : Nat} {l : List Nat} : ByteText t n → DotRest s l → DotRest ('.' :: t ++ s) (n :: l)

theorem DotRest.head {s : Str} {l : List Nat} (h : DotRest s l) : ∀ c, s.head? = some c → c.isDigit = false := by
  cases h with
  | nil => intro c h; cases h
  | cons => intro c h; cases h; rfl

theorem dotted_rest : ∀ {left : Nat} {s : Str} {l : List Nat}, left < 4 → (dotted left s = some l ↔ DotRest s l ∧ l.length = left)
  | 0, s, l, _ => by
    simp only [dotted]
    constructor
    · intro h
      split at h
      · rename_i hs
        cases h; subst hs; exact ⟨.nil, rfl⟩
      · cases h
    · rintro ⟨h, hl⟩
      cases h with
      | nil => rfl
      | cons => cases hl
  | left + 1, s, l, hlt => by
    simp only [dotted]
    rw [if_neg (by omega)]
    constructor
    · intro h
      split at h
      · cases h
      rename_i r hr
      split at hr
      · cases hr
        split at h
        · cases h
        rename_i n r' hb
        obtain ⟨t, rfl, ht, _⟩ := byteNumber_iff.1 hb
        cases hd : dotted left r' with
        | none => rw [hd] at h; cases h
        | some l' =>
          rw [hd] at h; cases h
          obtain ⟨h1, h2⟩ := (dotted_rest (by omega)).1 hd
          exact ⟨.cons ht h1, by simp [h2]⟩
      · cases hr
    · rintro ⟨h, hl⟩
      cases h with
      | nil => cases hl
      | @cons t s n l ht hs =>
        simp only [List.cons_append]
        rw [byteNumber_iff.2 ⟨t, rfl, ht, hs.head⟩]
        simp only []
        rw [(dotted_rest (by omega)).2 ⟨hs, by simpa using hl⟩]
        rfl

theorem dotted_four {s : Str} {l : List Nat} : dotted 4 s = some l ↔
    ∃ t n r l', s = t ++ r ∧ l = n :: l' ∧ ByteText t n ∧ DotRest r l' ∧ l'.length = 3 := by
  simp only [dotted]
  constructor
  · intro h
    split at h
    · cases h
    rename_i r hr
    split at h
    · cases h
    rename_i n r' hb
    have hr : s = r := by simpa using hr
    subst hr
    obtain ⟨t, rfl, ht, _⟩ := byteNumber_iff.1 hb
    obtain ⟨l', hl', rfl⟩ := Option.map_eq_some_iff.1 h
    obtain ⟨h1, h2⟩ := (dotted_rest (left := 3) (by omega)).1 hl'
    exact ⟨t, n, r', l', rfl, rfl, ht, h1, h2⟩
  · rintro ⟨t, n, r, l', rfl, rfl, ht, hr, hl⟩
    simp only [if_true]
    rw [byteNumber_iff.2 ⟨t, rfl, ht, hr.head⟩]
    simp only []
    rw [Option.map_eq_some_iff]
    exact ⟨l', (dotted_rest (left := 3) (by omega)).2 ⟨hr, hl⟩, rfl⟩

/-- An IPv4 address at the end of an IPv6 address. -/
def DottedIs (s : Str) (a b c d : Nat) : Prop :=
  ∃ t u v w, ByteText t a ∧ ByteText u b ∧ ByteText v c ∧ ByteText w d ∧ s = t ++ '.' :: u ++ '.' :: v ++ '.' :: w

theorem dotted_iff {s : Str} {a b c d : Nat} : dotted 4 s = some [a, b, c, d] ↔ DottedIs s a b c d := by
  rw [dotted_four]
  constructor
  · rintro ⟨t, n, r, l', rfl, e, ht, hr, _⟩
    cases e
    cases hr with | cons hu hr =>
    cases hr with | cons hv hr =>
    cases hr with | cons hw hr =>
    cases hr
    exact ⟨_, _, _, _, ht, hu, hv, hw, by simp⟩
  · rintro ⟨t, u, v, w, ht, hu, hv, hw, rfl⟩
    exact ⟨t, a, _, _, by simp, rfl, ht, .cons hu (.cons hv (.cons hw .nil)), rfl⟩

theorem dotted_length {s : Str} {l : List Nat} (h : dotted 4 s = some l) : ∃ a b c d, l = [a, b, c, d] := by
  obtain ⟨t, n, r, l', rfl, rfl, ht, hr, hl⟩ := dotted_four.1 h
  match l', hl with
  | [b, c, d], _ => exact ⟨n, b, c, d, rfl⟩

theorem digit10_16 {c : Char} (h : c.isDigit = true) : isDigit 16 c = true := by
  rw [← isDigit_ten, isDigit_iff] at h
  obtain ⟨d, h, hd⟩ := h
  exact isDigit_iff.2 ⟨d, h, by omega⟩

/-- One step of the loop. -/
theorem ipv6Loop_step {left : Nat} {pieces : List Nat} {compress : Option Nat} {c : Char} {cs : Str} {out : List Nat × Option Nat}
    (hc : c ≠ ':') : ipv6Loop (left + 1) pieces compress (c :: cs) = some out ↔
      (∃ n, Piece (c :: cs) n ∧ out = (pieces ++ [n], compress)) ∨
      (∃ t n r, c :: cs = t ++ ':' :: r ∧ r ≠ [] ∧ Piece t n ∧ ipv6Loop left (pieces ++ [n]) compress r = some out) ∨
      (1 ≤ left ∧ ∃ n1 n2 n3 n4, DottedIs (c :: cs) n1 n2 n3 n4 ∧ out = (pieces ++ [256 * n1 + n2, 256 * n3 + n4], compress)) := by
  simp only [ipv6Loop, if_neg hc]
  constructor
  · intro h
    obtain ⟨h1, h2, h3⟩ := hexRun_spec 4 (c :: cs)
    split at h
    · rename_i d hd
      rw [hd] at h1 h2 h3
      simp only [List.append_nil] at h1 h2 h3
      subst h1
      cases h
      exact .inl ⟨_, piece_iff.2 ⟨by simp, h2, h3, rfl⟩, rfl⟩
    · rename_i d x r hd
      rw [hd] at h1 h2 h3
      simp only [] at h1 h2 h3
      split at h
      · split at h
        · cases h
        rename_i hx
        split at h
        · rename_i n1 n2 n3 n4 hdot
          cases h
          refine .inr (.inr ⟨?_, n1, n2, n3, n4, dotted_iff.1 hdot, ?_⟩)
          · have := fun e => hx (.inr e); omega
          · rw [Nat.mul_comm 256, Nat.mul_comm 256]
        · cases h
      · split at h
        · rename_i hx
          subst hx
          split at h
          · cases h
          rename_i hr
          refine .inr (.inl ⟨d, _, r, h1, hr, piece_iff.2 ⟨?_, h2, h3, rfl⟩, h⟩)
          rintro rfl
          cases h1
          exact hc rfl
        · cases h
  · rintro (⟨n, hp, rfl⟩ | ⟨t, n, r, e, hr, hp, h⟩ | ⟨hl, n1, n2, n3, n4, hd, rfl⟩)
    · obtain ⟨h1, h2, h3, h4⟩ := piece_iff.1 hp
      have := hexRun_eq 4 (r := []) h2 h3 (fun c h => nomatch h)
      rw [List.append_nil] at this
      rw [this]
      simp only [h4]
    · obtain ⟨h1, h2, h3, h4⟩ := piece_iff.1 hp
      rw [e, hexRun_eq 4 h2 h3 (fun c h => by cases h; exact colon_no_digit)]
      simp only [h4]
      rw [if_neg (by decide), if_pos trivial, if_neg hr]
      exact h
    · have hdot := dotted_iff.2 hd
      obtain ⟨t, u, v, w, ht, hu, hv, hw, e⟩ := hd
      have ht' := ht.digits
      have hlen := ht.length
      rw [hdot, e]
      rw [show t ++ '.' :: u ++ '.' :: v ++ '.' :: w = t ++ ('.' :: u ++ '.' :: v ++ '.' :: w) by simp,
        hexRun_eq 4 (fun c hc => digit10_16 (ht'.2 c hc)) (by omega) (fun c h => by cases h; exact dot_no_digit)]
      simp only [List.cons_append]
      rw [if_pos trivial, if_neg (by
        rintro (h | h)
        · exact ht'.1 h
        · omega)]
      rw [Nat.mul_comm 256, Nat.mul_comm 256]

theorem Piece.head {s : Str} {n : Nat} (h : Piece s n) : ∃ c t, s = c :: t ∧ isDigit 16 c = true := by
  obtain ⟨h1, h2, _⟩ := piece_iff.1 h
  cases s with
  | nil => exact absurd rfl h1
  | cons c t => exact ⟨c, t, rfl, h2 c (by simp)⟩

theorem PiecesAre.head {s : Str} {l : List Nat} (h : PiecesAre s l) : ∃ c t, s = c :: t ∧ isDigit 16 c = true := by
  cases h with
  | one h => exact h.head
  | dotted h =>
    have := h.digits
    rename_i s _ _ _ _ _ _ _ _ _ _
    cases s with
    | nil => exact absurd rfl this.1
    | cons c t => exact ⟨c, _, rfl, digit10_16 (this.2 c (by simp))⟩
  | more h _ =>
    obtain ⟨c, t, rfl, hc⟩ := h.head
    exact ⟨c, _, rfl, hc⟩

theorem PiecesAre.ne_nil {s : Str} {l : List Nat} (h : PiecesAre s l) : s ≠ [] ∧ l ≠ [] := by
  have hl : l ≠ [] := by cases h <;> simp
  obtain ⟨c, t, rfl, _⟩ := h.head
  exact ⟨by simp, hl⟩

theorem digit_ne_colon {c : Char} (h : isDigit 16 c = true) : c ≠ ':' := by rintro rfl; exact absurd h (by decide)

/-- The loop after `::`. -/
theorem ipv6Loop_after : ∀ {left : Nat} {pieces : List Nat} {k : Nat} {s : Str} {out : List Nat × Option Nat},
    ipv6Loop left pieces (some k) s = some out ↔
      ∃ l, (PiecesAre s l ∨ s = [] ∧ l = []) ∧ l.length ≤ left ∧ out = (pieces ++ l, some k)
  | left, pieces, k, [], out => by
    have : ipv6Loop left pieces (some k) [] = some (pieces, some k) := by cases left <;> rfl
    rw [this]
    constructor
    · intro h; cases h; exact ⟨[], .inr ⟨rfl, rfl⟩, by simp, by simp⟩
    · rintro ⟨l, h | ⟨_, rfl⟩, _, rfl⟩
      · exact absurd rfl h.ne_nil.1
      · simp
  | 0, pieces, k, c :: cs, out => by
    simp only [ipv6Loop]
    constructor
    · intro h; cases h
    · rintro ⟨l, h | ⟨h, _⟩, hl, _⟩
      · have := h.ne_nil.2
        exact absurd (List.length_eq_zero_iff.1 (Nat.le_zero.1 hl)) this
      · cases h
  | left + 1, pieces, k, c :: cs, out => by
    by_cases hc : c = ':'
    · subst hc
      simp only [ipv6Loop]
      constructor
      · intro h; simp at h
      · rintro ⟨l, h | ⟨h, _⟩, hl, _⟩
        · obtain ⟨c, t, e, h⟩ := h.head
          cases e
          exact absurd h (by decide)
        · cases h
    · rw [ipv6Loop_step hc]
      constructor
      · rintro (⟨n, hp, rfl⟩ | ⟨t, n, r, e, hr, hp, h⟩ | ⟨hl, n1, n2, n3, n4, ⟨t, u, v, w, ht, hu, hv, hw, e⟩, rfl⟩)
        · exact ⟨[n], .inl (.one hp), by simp, rfl⟩
        · obtain ⟨l, h' | ⟨h', _⟩, hl, rfl⟩ := ipv6Loop_after.1 h
          · exact ⟨n :: l, .inl (e ▸ .more hp h'), by simpa using hl, by simp⟩
          · exact absurd h' hr
        · exact ⟨_, .inl (e ▸ .dotted ht hu hv hw), by simpa using hl, rfl⟩
      · rintro ⟨l, h | ⟨h, _⟩, hl, rfl⟩
        · generalize hs : c :: cs = s at h
          cases h with
          | one h => exact .inl ⟨_, h, rfl⟩
          | dotted ht hu hv hw =>
            exact .inr (.inr ⟨by simpa using hl, _, _, _, _, ⟨_, _, _, _, ht, hu, hv, hw, rfl⟩, rfl⟩)
          | more h h' =>
            exact .inr (.inl ⟨_, _, _, rfl, h'.ne_nil.1, h, ipv6Loop_after.2 ⟨_, .inl h', by simpa using hl, by simp⟩⟩)
        · cases h

theorem Piece.no_dot {s : Str} {n : Nat} (h : Piece s n) : '.' ∉ s := fun hm => by
  have := (piece_iff.1 h).2.1 _ hm
  exact absurd this (by decide)

/-- The loop before `::`. -/
theorem ipv6Loop_before : ∀ {left : Nat} {pieces : List Nat} {s : Str} {out : List Nat × Option Nat},
    ipv6Loop left pieces none s = some out ↔
      (∃ l, (PiecesAre s l ∨ s = [] ∧ l = []) ∧ l.length ≤ left ∧ out = (pieces ++ l, none)) ∨
      ∃ x b y, ((s = ':' :: b ∧ x = []) ∨ ∃ a, s = a ++ ':' :: ':' :: b ∧ PiecesAre a x ∧ '.' ∉ a) ∧
        (PiecesAre b y ∨ b = [] ∧ y = []) ∧ x.length + 1 + y.length ≤ left ∧
        out = (pieces ++ x ++ [0] ++ y, some (pieces.length + x.length + 1))
  | left, pieces, [], out => by
    have : ipv6Loop left pieces none [] = some (pieces, none) := by cases left <;> rfl
    rw [this]
    constructor
    · intro h; cases h; exact .inl ⟨[], .inr ⟨rfl, rfl⟩, by simp, by simp⟩
    · rintro (⟨l, h | ⟨_, rfl⟩, _, rfl⟩ | ⟨x, b, y, ⟨h, _⟩ | ⟨a, h, _⟩, _⟩)
      · exact absurd rfl h.ne_nil.1
      · simp
      · cases h
      · simp at h
  | 0, pieces, c :: cs, out => by
    simp only [ipv6Loop]
    constructor
    · intro h; cases h
    · rintro (⟨l, h | ⟨h, _⟩, hl, _⟩ | ⟨x, b, y, _, _, hl, _⟩)
      · exact absurd (List.length_eq_zero_iff.1 (Nat.le_zero.1 hl)) h.ne_nil.2
      · cases h
      · omega
  | left + 1, pieces, c :: cs, out => by
    by_cases hc : c = ':'
    · subst hc
      simp only [ipv6Loop, if_true, Option.isSome_none, Bool.false_eq_true, if_false]
      rw [ipv6Loop_after]
      constructor
      · rintro ⟨l, h, hl, rfl⟩
        exact .inr ⟨[], cs, l, .inl ⟨rfl, rfl⟩, h, by simp; omega, by simp⟩
      · rintro (⟨l, h | ⟨h, _⟩, hl, _⟩ | ⟨x, b, y, ⟨h, rfl⟩ | ⟨a, h, ha, _⟩, hb, hl, rfl⟩)
        · obtain ⟨c, t, e, h⟩ := h.head
          cases e
          exact absurd h (by decide)
        · cases h
        · cases h
          exact ⟨y, hb, by simp at hl; omega, by simp⟩
        · obtain ⟨c, t, rfl, h'⟩ := ha.head
          cases h
          exact absurd h' (by decide)
    · rw [ipv6Loop_step hc]
      constructor
      · rintro (⟨n, hp, rfl⟩ | ⟨t, n, r, e, hr, hp, h⟩ | ⟨hl, n1, n2, n3, n4, ⟨t, u, v, w, ht, hu, hv, hw, e⟩, rfl⟩)
        · exact .inl ⟨[n], .inl (.one hp), by simp, rfl⟩
        · rcases ipv6Loop_before.1 h with ⟨l, h' | ⟨h', _⟩, hl, rfl⟩ | ⟨x, b, y, h', hb, hl, rfl⟩
          · exact .inl ⟨n :: l, .inl (e ▸ .more hp h'), by simpa using hl, by simp⟩
          · exact absurd h' hr
          · refine .inr ⟨n :: x, b, y, .inr ?_, hb, by simp; omega, by simp [Nat.add_comm, Nat.add_left_comm]⟩
            rcases h' with ⟨rfl, rfl⟩ | ⟨a, rfl, ha, hd⟩
            · exact ⟨t, e, .one hp, hp.no_dot⟩
            · refine ⟨t ++ ':' :: a, by rw [e]; simp, .more hp ha, ?_⟩
              intro hm
              rcases List.mem_append.1 hm with hm | hm
              · exact hp.no_dot hm
              · rcases List.mem_cons.1 hm with hm | hm
                · exact absurd hm (by decide)
                · exact hd hm
        · exact .inl ⟨_, .inl (e ▸ .dotted ht hu hv hw), by simpa using hl, rfl⟩
      · rintro (⟨l, h | ⟨h, _⟩, hl, rfl⟩ | ⟨x, b, y, ⟨h, rfl⟩ | ⟨a, h, ha, hd⟩, hb, hl, rfl⟩)
        · generalize hs : c :: cs = s at h
          cases h with
          | one h => exact .inl ⟨_, h, rfl⟩
          | dotted ht hu hv hw =>
            exact .inr (.inr ⟨by simpa using hl, _, _, _, _, ⟨_, _, _, _, ht, hu, hv, hw, rfl⟩, rfl⟩)
          | more h h' =>
            exact .inr (.inl ⟨_, _, _, rfl, h'.ne_nil.1, h, ipv6Loop_before.2 (.inl ⟨_, .inl h', by simpa using hl, by simp⟩)⟩)
        · cases h
        · cases h; exact absurd rfl hc
        · rw [h]
          refine .inr (.inl ?_)
          cases ha with
          | one hp =>
            rename_i n
            refine ⟨a, n, ':' :: b, rfl, by simp, hp, ipv6Loop_before.2 (.inr ⟨[], b, y, .inl ⟨rfl, rfl⟩, hb, ?_, by simp⟩)⟩
            simp at hl ⊢; omega
          | dotted => exact absurd (by simp) hd
          | @more s t n l hp h' =>
            refine ⟨s, n, t ++ ':' :: ':' :: b, by simp, by simp, hp, ipv6Loop_before.2 (.inr ⟨l, b, y, .inr ⟨t, rfl, h', ?_⟩, hb, ?_, ?_⟩)⟩
            · intro hm; exact hd (by simp [hm])
            · simp at hl ⊢; omega
            · simp [Nat.add_comm, Nat.add_left_comm]

theorem ipv6Finish_after {pieces x y : List Nat} (h : pieces = x ++ [0] ++ y) (hl : x.length + y.length ≤ 7) :
    ipv6Finish (pieces, some (x.length + 1)) = some (x ++ List.replicate (8 - (x.length + y.length)) 0 ++ y) := by
  subst h
  simp only [ipv6Finish]
  have h1 : (x ++ [0] ++ y).take (x.length + 1) = x ++ [0] := by
    rw [List.take_append_of_le_length (by simp), List.take_of_length_le (by simp)]
  have h2 : (x ++ [0] ++ y).drop (x.length + 1) = y := by
    rw [List.drop_append_of_le_length (by simp), List.drop_of_length_le (by simp)]; rfl
  rw [h1, h2]
  have h3 : 8 - (x.length + y.length) = (8 - (x ++ [0] ++ y).length) + 1 := by simp; omega
  rw [h3, List.replicate_succ]
  simp

theorem ipv6Addr_iff {s : Str} {l : List Nat} : ipv6Addr s = some l ↔ Ipv6Is s l := by
  have short : ∀ c, ¬ Ipv6Is [c] l := by
    rintro c (⟨h, hl⟩ | ⟨a, x, b, y, h, _⟩)
    · generalize hs : [c] = s at h
      cases h with
      | one => cases hl
      | dotted => cases hl
      | more h h' =>
        obtain ⟨d, t, rfl, _⟩ := h.head
        simp at hs
    · have := congrArg List.length h
      simp at this
      omega
  unfold ipv6Addr
  split
  · rename_i c x s
    by_cases hc : c = ':'
    · subst hc
      rw [if_pos rfl]
      by_cases hx : x = ':'
      · subst hx
        rw [if_pos rfl, Option.bind_eq_some_iff]
        constructor
        · rintro ⟨out, h, hf⟩
          obtain ⟨y, hy, hl, rfl⟩ := ipv6Loop_after.1 h
          have := ipv6Finish_after (x := []) (y := y) rfl (by simpa using hl)
          have hf := this.symm.trans hf
          cases hf
          exact .inr ⟨[], [], s, y, rfl, by simp, .inr ⟨rfl, rfl⟩, hy, by simpa using hl, rfl⟩
        · rintro (⟨h, _⟩ | ⟨a, x, b, y, h, _, ha, hb, hl, rfl⟩)
          · obtain ⟨d, t, e, h⟩ := h.head
            cases e; exact absurd h (by decide)
          · rcases ha with ha | ⟨rfl, rfl⟩
            · obtain ⟨d, t, rfl, h'⟩ := ha.head
              exact absurd (List.cons.inj h).1.symm (digit_ne_colon h')
            · cases h
              exact ⟨_, ipv6Loop_after.2 ⟨y, hb, by simpa using hl, rfl⟩, ipv6Finish_after (x := []) rfl (by simpa using hl)⟩
      · rw [if_neg hx]
        constructor
        · intro h; cases h
        · rintro (⟨h, _⟩ | ⟨a, x', b, y, h, _, ha, hb, hl, rfl⟩)
          · obtain ⟨d, t, e, h⟩ := h.head
            cases e; exact absurd h (by decide)
          · rcases ha with ha | ⟨rfl, rfl⟩
            · obtain ⟨d, t, rfl, h'⟩ := ha.head
              exact absurd (List.cons.inj h).1.symm (digit_ne_colon h')
            · cases h; exact absurd rfl hx
    · rw [if_neg hc, Option.bind_eq_some_iff]
      constructor
      · rintro ⟨out, hloop, hf⟩
        rcases ipv6Loop_before.1 hloop with ⟨l', h | ⟨h, _⟩, hl, rfl⟩ | ⟨x', b, y, h, hb, hl, rfl⟩
        · simp only [List.nil_append, ipv6Finish] at hf
          split at hf
          · cases hf; exact .inl ⟨h, by assumption⟩
          · cases hf
        · cases h
        · rcases h with ⟨h, _⟩ | ⟨a, h, ha, hd⟩
          · cases h; exact absurd rfl hc
          · have := ipv6Finish_after (x := x') (y := y) rfl (by omega)
            simp only [List.nil_append, List.length_nil, Nat.zero_add] at hf
            rw [this] at hf
            cases hf
            exact .inr ⟨a, x', b, y, by simpa using h, hd, .inl ha, hb, by omega, rfl⟩
      · rintro (⟨h, hl⟩ | ⟨a, x', b, y, h, hd, ha, hb, hl, rfl⟩)
        · refine ⟨(l, none), ipv6Loop_before.2 (.inl ⟨l, .inl h, by omega, by simp⟩), ?_⟩
          simp only [ipv6Finish]
          rw [if_pos hl]
        · rcases ha with ha | ⟨rfl, rfl⟩
          · refine ⟨_, ipv6Loop_before.2 (.inr ⟨x', b, y, .inr ⟨a, by simpa using h, ha, hd⟩, hb, by omega, rfl⟩), ?_⟩
            simp only [List.nil_append, List.length_nil, Nat.zero_add]
            exact ipv6Finish_after rfl hl
          · cases h; exact absurd rfl hc
  · rename_i hs
    constructor
    · intro h; cases h
    · intro h
      match s, hs with
      | [c], _ => exact absurd h (short c)
      | [], _ =>
        rcases h with ⟨h, _⟩ | ⟨a, x, b, y, h, _⟩
        · exact absurd rfl h.ne_nil.1
        · simp at h
      | c :: x :: s, hs => exact absurd rfl (hs c x s)

end UrlHost
end Httpsig
