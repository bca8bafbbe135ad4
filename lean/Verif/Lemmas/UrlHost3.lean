import Verif.Lemmas.UrlHost2
/-
Writing of addresses.
-/
namespace Httpsig
namespace UrlHost
open Shown Sfv

/-! ### IPv4 -/

theorem byteText_iff {s : Str} {n : Nat} : ByteText s n ↔ n < 256 ∧ s = natStr n := by
  unfold ByteText
  constructor
  · rintro ⟨h, hn, h0⟩
    obtain ⟨h1, h2, h3⟩ := numeral_iff.1 h
    have hd : ∀ c ∈ s, c.isDigit = true := fun c hc => by rw [← isDigit_ten]; exact h2 c hc
    rw [value_ten hd] at h3
    exact ⟨hn, by rw [← h3]; exact digits_canonical _ rfl hd h1 h0⟩
  · rintro ⟨hn, rfl⟩
    refine ⟨numeral_iff.2 ⟨natStr_ne_nil n, fun c hc => ?_, ?_⟩, hn, natStr_zero_head⟩
    · rw [isDigit_ten]; exact natStr_all n c hc
    · rw [value_ten (natStr_all n), digitsVal_natStr]

theorem ipv4Written_iff {n : Nat} (hn : n < 2 ^ 32) {s : Str} : Ipv4Written n s ↔ s = ipv4Text n := by
  unfold Ipv4Written ipv4Text
  constructor
  · rintro ⟨a, b, c, d, ta, tb, tc, td, ha, hb, hc, hd, rfl, rfl⟩
    obtain ⟨ha, rfl⟩ := byteText_iff.1 ha
    obtain ⟨hb, rfl⟩ := byteText_iff.1 hb
    obtain ⟨hc, rfl⟩ := byteText_iff.1 hc
    obtain ⟨hd, rfl⟩ := byteText_iff.1 hd
    rw [show (256 * (256 * (256 * a + b) + c) + d) / 2 ^ 24 = a by omega,
      show (256 * (256 * (256 * a + b) + c) + d) / 2 ^ 16 % 256 = b by omega,
      show (256 * (256 * (256 * a + b) + c) + d) / 2 ^ 8 % 256 = c by omega,
      show (256 * (256 * (256 * a + b) + c) + d) % 256 = d by omega]
    simp [joinWith]
  · rintro rfl
    refine ⟨n / 2 ^ 24, n / 2 ^ 16 % 256, n / 2 ^ 8 % 256, n % 256, _, _, _, _, byteText_iff.2 ⟨by omega, rfl⟩, byteText_iff.2 ⟨by omega, rfl⟩,
      byteText_iff.2 ⟨by omega, rfl⟩, byteText_iff.2 ⟨by omega, rfl⟩, by omega, by simp [joinWith]⟩

theorem Ipv4Is.lt {s : Str} {n : Nat} (h : Ipv4Is s n) : n < 2 ^ 32 := by
  obtain ⟨parts, bytes, last, _, _, hb, hbytes, hl, rfl⟩ := h
  match bytes, hb with
  | [], _ => simpa using hl
  | [a], _ =>
    have ha := hbytes a (by simp)
    simp at hl ⊢; omega
  | [a, b], _ =>
    have ha := hbytes a (by simp)
    have hb := hbytes b (by simp)
    simp at hl ⊢; omega
  | [a, b, c], _ =>
    have ha := hbytes a (by simp)
    have hb := hbytes b (by simp)
    have hc := hbytes c (by simp)
    simp at hl ⊢; omega

theorem Ipv4Is.unique {s : Str} {n m : Nat} (h : Ipv4Is s n) (h' : Ipv4Is s m) : n = m :=
  Option.some.inj ((ipv4Addr_iff.2 h).symm.trans (ipv4Addr_iff.2 h'))

theorem byte_part {s : Str} {n : Nat} (h : ByteText s n) : Ipv4Part s n := .decimal h.1 h.2.2

theorem Ipv4Written.is {n : Nat} {s : Str} (h : Ipv4Written n s) : Ipv4Is s n := by
  obtain ⟨a, b, c, d, ta, tb, tc, td, ha, hb, hc, hd, rfl, rfl⟩ := h
  refine ⟨[ta, tb, tc, td], [a, b, c], d, ⟨by simp, .inl (by simp [joinWith])⟩,
    .cons (byte_part ha) (.cons (byte_part hb) (.cons (byte_part hc) (.cons (byte_part hd) .nil))), by simp, ?_, by simpa using hd.2.1, ?_⟩
  · intro x hx
    simp only [List.mem_cons, List.not_mem_nil, or_false] at hx
    rcases hx with rfl | rfl | rfl
    · exact ha.2.1
    · exact hb.2.1
    · exact hc.2.1
  · simp; omega

theorem Ipv4Written.numberLast {n : Nat} {s : Str} (h : Ipv4Written n s) : NumberLast s := by
  obtain ⟨a, b, c, d, ta, tb, tc, td, ha, hb, hc, hd, rfl, rfl⟩ := h
  refine ⟨ta ++ '.' :: tb ++ '.' :: tc ++ str% ".", td, [], by simp, .inr ⟨_, rfl⟩, .inl rfl, .inl ⟨hd.digits.1, fun c hc => ?_⟩⟩
  have := hd.digits.2 c hc
  rw [← isDigit_ten, isDigit_iff] at this
  obtain ⟨d, h, hlt⟩ := this
  exact ⟨d, digitIs_iff.2 h, hlt⟩

theorem Ipv4Written.chars {n : Nat} {s : Str} (h : Ipv4Written n s) : ∀ c ∈ s, c.isDigit = true ∨ c = '.' := by
  obtain ⟨a, b, c, d, ta, tb, tc, td, ha, hb, hc, hd, rfl, rfl⟩ := h
  intro x hx
  simp only [List.mem_append, List.mem_cons] at hx
  rcases hx with ((hx | rfl | hx) | rfl | hx) | rfl | hx
  · exact .inl (ha.digits.2 x hx)
  · exact .inr rfl
  · exact .inl (hb.digits.2 x hx)
  · exact .inr rfl
  · exact .inl (hc.digits.2 x hx)
  · exact .inr rfl
  · exact .inl (hd.digits.2 x hx)

/-! ### Pieces of IPv6 addresses -/

/-- Lower-case digits. -/
def hexChar (n : Nat) : Char := if n < 10 then Char.ofNat (48 + n) else Char.ofNat (87 + n)

theorem hexChar_digit : ∀ n < 16, digit (hexChar n) = some n := by decide
theorem hexChar_zero : ∀ n < 16, hexChar n = '0' → n = 0 := by decide
theorem hexChar_lower : ∀ n < 16, (hexChar n).isUpper = false := by decide

theorem hexChar_eq {c : Char} {d : Nat} (h : digit c = some d) (hc : c.isUpper = false) : c = hexChar d := by
  have := digitIs_iff.2 h
  cases this with
  | digit i hi => unfold hexChar; rw [if_pos hi]
  | upper i hi =>
    exfalso
    revert hc
    clear h
    revert i
    decide
  | lower i hi =>
    unfold hexChar
    rw [if_neg (by omega)]
    congr 1
    omega

theorem hexText_eq (n : Nat) : hexText n =
    if n < 16 then [hexChar n]
    else if n < 256 then [hexChar (n / 16), hexChar (n % 16)]
    else if n < 4096 then [hexChar (n / 256), hexChar (n / 16 % 16), hexChar (n % 16)]
    else [hexChar (n / 4096), hexChar (n / 256 % 16), hexChar (n / 16 % 16), hexChar (n % 16)] := rfl

theorem value_cons (r : Nat) (a : Char) (t : Str) : value r (a :: t) = (digit a).getD 0 * r ^ t.length + value r t := by
  have key : ∀ (t : Str) (m : Nat), t.foldl (fun n c => n * r + (digit c).getD 0) m = m * r ^ t.length + value r t := by
    intro t
    induction t with
    | nil => intro m; simp [value]
    | cons c t ih =>
      intro m
      have h0 := ih (0 * r + (digit c).getD 0)
      simp only [List.foldl_cons, List.length_cons, value]
      rw [ih, h0, Nat.pow_succ, Nat.add_mul, Nat.zero_mul, Nat.zero_add, Nat.mul_assoc, Nat.mul_comm r, Nat.add_assoc]
  have := key t (0 * r + (digit a).getD 0)
  simp only [Nat.zero_mul, Nat.zero_add] at this
  unfold value at this ⊢
  simpa using this

theorem hex_unique {n : Nat} {s : Str} (h : Hex n s) (hn : n < 65536) : s = hexText n := by
  obtain ⟨h1, h0, hu⟩ := h
  obtain ⟨hne, hd, hv⟩ := numeral_iff.1 h1
  have dig : ∀ c ∈ s, ∃ d, d < 16 ∧ digit c = some d ∧ c = hexChar d := fun c hc => by
    obtain ⟨d, h, hlt⟩ := isDigit_iff.1 (hd c hc)
    exact ⟨d, hlt, h, hexChar_eq h (hu c hc)⟩
  have lead : ∀ {a b t d}, s = a :: b :: t → digit a = some d → 1 ≤ d := fun {a b t d} e ha => by
    rcases Nat.eq_zero_or_pos d with rfl | h
    · have : a = '0' := hexChar_eq ha (hu a (by rw [e]; simp))
      have := h0 (by rw [e, this]; rfl)
      rw [e] at this
      simp at this
    · exact h
  rw [hexText_eq]
  match s, hne with
  | [a], _ =>
    obtain ⟨d, hlt, ha, rfl⟩ := dig a (by simp)
    have : n = d := by rw [← hv]; simp [value, ha]
    subst this
    rw [if_pos hlt]
  | [a, b], _ =>
    obtain ⟨d, hlt, ha, rfl⟩ := dig a (by simp)
    obtain ⟨e, hle, hb, rfl⟩ := dig b (by simp)
    have : n = d * 16 + e := by rw [← hv]; simp [value, ha, hb]
    have := lead rfl ha
    rw [if_neg (by omega), if_pos (by omega), show n / 16 = d by omega, show n % 16 = e by omega]
  | [a, b, c], _ =>
    obtain ⟨d, hlt, ha, rfl⟩ := dig a (by simp)
    obtain ⟨e, hle, hb, rfl⟩ := dig b (by simp)
    obtain ⟨f, hlf, hc, rfl⟩ := dig c (by simp)
    have : n = (d * 16 + e) * 16 + f := by rw [← hv]; simp [value, ha, hb, hc]
    have := lead rfl ha
    rw [if_neg (by omega), if_neg (by omega), if_pos (by omega), show n / 256 = d by omega, show n / 16 % 16 = e by omega,
      show n % 16 = f by omega]
  | [a, b, c, x], _ =>
    obtain ⟨d, hlt, ha, rfl⟩ := dig a (by simp)
    obtain ⟨e, hle, hb, rfl⟩ := dig b (by simp)
    obtain ⟨f, hlf, hc, rfl⟩ := dig c (by simp)
    obtain ⟨g, hlg, hx, rfl⟩ := dig x (by simp)
    have : n = ((d * 16 + e) * 16 + f) * 16 + g := by rw [← hv]; simp [value, ha, hb, hc, hx]
    have := lead rfl ha
    rw [if_neg (by omega), if_neg (by omega), if_neg (by omega), show n / 4096 = d by omega, show n / 256 % 16 = e by omega,
      show n / 16 % 16 = f by omega, show n % 16 = g by omega]
  | a :: b :: c :: x :: y :: t, _ =>
    exfalso
    obtain ⟨d, hlt, ha, _⟩ := dig a (by simp)
    have := lead rfl ha
    rw [value_cons, ha, Option.getD_some] at hv
    have : 1 * 16 ^ 4 ≤ d * 16 ^ (b :: c :: x :: y :: t).length :=
      Nat.mul_le_mul this (Nat.pow_le_pow_right (by decide) (by simp))
    omega

theorem hex_hexText {n : Nat} (hn : n < 65536) : Hex n (hexText n) := by
  have dig : ∀ m < 16, isDigit 16 (hexChar m) = true := fun m hm => isDigit_iff.2 ⟨m, hexChar_digit m hm, hm⟩
  have lead : ∀ {m : Nat}, 1 ≤ m → m < 16 → hexChar m ≠ '0' := fun h1 h2 e => by
    have := hexChar_zero _ h2 e; omega
  rw [hexText_eq]
  unfold Hex
  simp only [numeral_iff]
  split
  · refine ⟨⟨by simp, ?_, ?_⟩, fun _ => rfl, ?_⟩
    · intro c hc; simp only [List.mem_singleton] at hc; subst hc; exact dig _ (by omega)
    · simp only [value, List.foldl_cons, List.foldl_nil]; rw [hexChar_digit _ (by omega)]; simp
    · intro c hc; simp only [List.mem_singleton] at hc; subst hc; exact hexChar_lower _ (by omega)
  split
  · refine ⟨⟨by simp, ?_, ?_⟩, fun h => ?_, ?_⟩
    · intro c hc; simp only [List.mem_cons, List.not_mem_nil, or_false] at hc
      rcases hc with rfl | rfl <;> exact dig _ (by omega)
    · simp only [value, List.foldl_cons, List.foldl_nil]
      rw [hexChar_digit _ (by omega), hexChar_digit _ (by omega)]; simp only [Option.getD_some]; omega
    · exact absurd (Option.some.inj h) (lead (by omega) (by omega))
    · intro c hc; simp only [List.mem_cons, List.not_mem_nil, or_false] at hc
      rcases hc with rfl | rfl <;> exact hexChar_lower _ (by omega)
  split
  · refine ⟨⟨by simp, ?_, ?_⟩, fun h => ?_, ?_⟩
    · intro c hc; simp only [List.mem_cons, List.not_mem_nil, or_false] at hc
      rcases hc with rfl | rfl | rfl <;> exact dig _ (by omega)
    · simp only [value, List.foldl_cons, List.foldl_nil]
      rw [hexChar_digit _ (by omega), hexChar_digit _ (by omega), hexChar_digit _ (by omega)]; simp only [Option.getD_some]; omega
    · exact absurd (Option.some.inj h) (lead (by omega) (by omega))
    · intro c hc; simp only [List.mem_cons, List.not_mem_nil, or_false] at hc
      rcases hc with rfl | rfl | rfl <;> exact hexChar_lower _ (by omega)
  · refine ⟨⟨by simp, ?_, ?_⟩, fun h => ?_, ?_⟩
    · intro c hc; simp only [List.mem_cons, List.not_mem_nil, or_false] at hc
      rcases hc with rfl | rfl | rfl | rfl <;> exact dig _ (by omega)
    · simp only [value, List.foldl_cons, List.foldl_nil]
      rw [hexChar_digit _ (by omega), hexChar_digit _ (by omega), hexChar_digit _ (by omega), hexChar_digit _ (by omega)]
      simp only [Option.getD_some]; omega
    · exact absurd (Option.some.inj h) (lead (by omega) (by omega))
    · intro c hc; simp only [List.mem_cons, List.not_mem_nil, or_false] at hc
      rcases hc with rfl | rfl | rfl | rfl <;> exact hexChar_lower _ (by omega)

theorem hexText_length (n : Nat) : (hexText n).length ≤ 4 := by
  rw [hexText_eq]
  split
  · simp
  split
  · simp
  split <;> simp

theorem joined_iff {l : List Nat} (hl : ∀ n ∈ l, n < 65536) {s : Str} : Joined l s ↔ s = joinWith (str% ":") (l.map hexText) := by
  unfold Joined
  constructor
  · rintro ⟨ts, h, rfl⟩
    congr 1
    induction h with
    | nil => rfl
    | cons h _ ih =>
      rw [hex_unique h (hl _ (by simp)), ih fun n hn => hl n (by simp [hn])]
      rfl
  · rintro rfl
    refine ⟨l.map hexText, ?_, rfl⟩
    induction l with
    | nil => exact .nil
    | cons n l ih => exact .cons (hex_hexText (hl n (by simp))) (ih fun n hn => hl n (by simp [hn]))

/-! ### The longest sequence of zeros -/

/-- `m` zeros at `a`. -/
def Zeros (l : List Nat) (a m : Nat) : Prop := ∀ i, i < m → l[a + i]? = some 0

/-- The first longest sequence of zeros. -/
def Best (l : List Nat) : Option (Nat × Nat) → Prop
  | none => ∀ a m, 1 ≤ m → ¬ Zeros l a m
  | some (a, n) => 1 ≤ n ∧ Zeros l a n ∧ ∀ a' m, 1 ≤ m → Zeros l a' m → m < n ∨ (m = n ∧ a ≤ a')

/-- No zero at the end. -/
def Closed (l : List Nat) : Prop := ∀ i, i + 1 = l.length → l[i]? ≠ some 0

theorem zeros_within {p t : List Nat} {a m : Nat} (h : Zeros (p ++ t) a m) (hle : a + m ≤ p.length) : Zeros p a m := fun i hi => by
  have := h i hi
  rwa [List.getElem?_append_left (by omega)] at this

theorem zeros_append {p t : List Nat} {a m : Nat} (h : Zeros p a m) : Zeros (p ++ t) a m := fun i hi => by
  have := h i hi
  have hlt : a + i < p.length := by
    rcases Nat.lt_or_ge (a + i) p.length with h | h
    · exact h
    · rw [List.getElem?_eq_none h] at this; cases this
  rw [List.getElem?_append_left hlt]; exact this

/-- A sequence of zeros is before the end of a closed list, or after it. -/
theorem zeros_split {p t : List Nat} (hc : Closed p) {a m : Nat} (h : Zeros (p ++ t) a m) (_hm : 1 ≤ m) :
    (a + m ≤ p.length ∧ Zeros p a m) ∨ (p.length ≤ a ∧ Zeros t (a - p.length) m) := by
  rcases Nat.lt_or_ge a p.length with h1 | h1
  · rcases Nat.lt_or_ge p.length (a + m) with h2 | h2
    · exfalso
      have := h (p.length - 1 - a) (by omega)
      rw [List.getElem?_append_left (by omega), show a + (p.length - 1 - a) = p.length - 1 by omega] at this
      exact hc (p.length - 1) (by omega) this
    · exact .inl ⟨h2, zeros_within h h2⟩
  · refine .inr ⟨h1, fun i hi => ?_⟩
    have := h i hi
    rw [List.getElem?_append_right (by omega)] at this
    rwa [show a + i - p.length = a - p.length + i by omega] at this

theorem zeros_replicate {k a m : Nat} (h : Zeros (List.replicate k 0) a m) (hm : 1 ≤ m) : a + m ≤ k := by
  have := h (m - 1) (by omega)
  rcases Nat.lt_or_ge (a + (m - 1)) k with h1 | h1
  · omega
  · rw [List.getElem?_eq_none (by simpa using h1)] at this; cases this

theorem zeros_tail (p : List Nat) (k : Nat) : Zeros (p ++ List.replicate k 0) p.length k := fun i hi => by
  rw [List.getElem?_append_right (by omega), List.getElem?_replicate, if_pos (by omega)]

theorem best_longer {p : List Nat} {o : Option (Nat × Nat)} (hb : Best p o) (hc : Closed p) {k : Nat} (hk : 1 ≤ k) :
    Best (p ++ List.replicate k 0) (longer (p.length + k) (some p.length) o) := by
  cases o with
  | none =>
    simp only [longer, Best]
    rw [show p.length + k - p.length = k by omega]
    refine ⟨hk, zeros_tail p k, fun a m hm hz => ?_⟩
    rcases zeros_split hc hz hm with ⟨_, h⟩ | ⟨h1, h⟩
    · exact absurd h (hb a m hm)
    · have := zeros_replicate h hm; omega
  | some an =>
    obtain ⟨a, n⟩ := an
    obtain ⟨hn, hz, hbest⟩ := hb
    simp only [longer]
    rw [show p.length + k - p.length = k by omega]
    split
    · refine ⟨hk, zeros_tail p k, fun a m hm hz => ?_⟩
      rcases zeros_split hc hz hm with ⟨_, h⟩ | ⟨h1, h⟩
      · have := hbest a m hm h; omega
      · have := zeros_replicate h hm; omega
    · refine ⟨hn, zeros_append hz, fun a' m hm hz' => ?_⟩
      rcases zeros_split hc hz' hm with ⟨_, h⟩ | ⟨h1, h⟩
      · exact hbest a' m hm h
      · have := zeros_replicate h hm
        have h3 : a + n ≤ p.length := by
          have := hz (n - 1) (by omega)
          rcases Nat.lt_or_ge (a + (n - 1)) p.length with h | h
          · omega
          · rw [List.getElem?_eq_none h] at this; cases this
        omega

theorem zeros_snoc {p : List Nat} {x a m : Nat} (hx : x ≠ 0) (h : Zeros (p ++ [x]) a m) (hm : 1 ≤ m) : Zeros p a m := by
  have hle : a + m ≤ p.length := by
    rcases Nat.lt_or_ge p.length (a + m) with h2 | h2
    · exfalso
      rcases Nat.lt_or_ge p.length a with h3 | h3
      · have := h 0 (by omega)
        rw [List.getElem?_eq_none (by simp; omega)] at this; cases this
      · have := h (p.length - a) (by omega)
        rw [show a + (p.length - a) = p.length by omega, List.getElem?_append_right (Nat.le_refl _)] at this
        simp at this
        exact hx this
    · exact h2
  exact zeros_within h hle

theorem best_snoc {p : List Nat} {x : Nat} {o : Option (Nat × Nat)} (hx : x ≠ 0) (hb : Best p o) : Best (p ++ [x]) o := by
  cases o with
  | none => exact fun a m hm hz => hb a m hm (zeros_snoc hx hz hm)
  | some an =>
    obtain ⟨a, n⟩ := an
    obtain ⟨hn, hz, hbest⟩ := hb
    exact ⟨hn, zeros_append hz, fun a' m hm hz' => hbest a' m hm (zeros_snoc hx hz' hm)⟩

theorem closed_snoc {p : List Nat} {x : Nat} (hx : x ≠ 0) : Closed (p ++ [x]) := fun i hi h => by
  simp at hi
  subst hi
  rw [List.getElem?_append_right (Nat.le_refl _)] at h
  simp at h
  exact hx h

theorem longest_best : ∀ (ps q : List Nat) (k : Nat) (longest : Option (Nat × Nat)), Closed q → Best q longest →
    Best (q ++ List.replicate k 0 ++ ps) (longestZeros (q.length + k) (if k = 0 then none else some q.length) longest ps)
  | [], q, k, longest, hc, hb => by
    simp only [longestZeros, List.append_nil]
    split
    · rename_i hk; subst hk; simpa [longer] using hb
    · exact best_longer hb hc (by omega)
  | p :: ps, q, k, longest, hc, hb => by
    simp only [longestZeros]
    by_cases hp : p = 0
    · subst hp
      rw [if_pos rfl]
      have := longest_best ps q (k + 1) longest hc hb
      rw [if_neg (by omega)] at this
      rw [show (if k = 0 then none else some q.length).getD (q.length + k) = q.length by split <;> simp_all,
        show q ++ List.replicate k 0 ++ 0 :: ps = q ++ List.replicate (k + 1) 0 ++ ps by rw [List.replicate_succ']; simp]
      exact this
    · rw [if_neg hp]
      have hb' : Best (q ++ List.replicate k 0) (longer (q.length + k) (if k = 0 then none else some q.length) longest) := by
        split
        · rename_i hk; subst hk; simpa [longer] using hb
        · exact best_longer hb hc (by omega)
      have := longest_best ps (q ++ List.replicate k 0 ++ [p]) 0 _ (closed_snoc hp) (best_snoc hp hb')
      rw [if_pos rfl] at this
      simpa [Nat.add_assoc] using this

theorem best_longestZeros (l : List Nat) : Best l (longestZeros 0 none none l) := by
  have := longest_best l [] 0 none (fun i hi => by simp at hi) (fun a m hm hz => by have := hz 0 (by omega); simp at this)
  simpa using this

theorem zeros_of_append {l x y : List Nat} {m : Nat} (h : l = x ++ List.replicate m 0 ++ y) : Zeros l x.length m := by
  subst h
  exact zeros_append (zeros_tail x m)

theorem append_of_zeros {l : List Nat} {a n : Nat} (h : Zeros l a n) (hn : 1 ≤ n) :
    l = l.take a ++ List.replicate n 0 ++ l.drop (a + n) ∧ a + n ≤ l.length := by
  have hle : a + n ≤ l.length := by
    have := h (n - 1) (by omega)
    rcases Nat.lt_or_ge (a + (n - 1)) l.length with h | h
    · omega
    · rw [List.getElem?_eq_none h] at this; cases this
  refine ⟨?_, hle⟩
  apply List.ext_getElem?
  intro i
  rcases Nat.lt_or_ge i a with h1 | h1
  · rw [List.append_assoc, List.getElem?_append_left (by simp; omega), List.getElem?_take_of_lt h1]
  · rcases Nat.lt_or_ge i (a + n) with h2 | h2
    · rw [List.append_assoc, List.getElem?_append_right (by simp; omega), List.getElem?_append_left (by simp; omega), List.getElem?_replicate,
        if_pos (by simp; omega)]
      have := h (i - a) (by omega)
      rwa [show a + (i - a) = i by omega] at this
    · rw [List.getElem?_append_right (by simp; omega), List.getElem?_drop]
      congr 1
      simp; omega

theorem flatMap_joined (l : List Nat) (s : Str) : l.flatMap (fun p => hexText p ++ str% ":") ++ (if l.length = 0 then str% "::" else str% ":") ++ s =
    joinWith (str% ":") (l.map hexText) ++ str% "::" ++ s := by
  have key : ∀ l : List Nat, l ≠ [] → l.flatMap (fun p => hexText p ++ str% ":") = joinWith (str% ":") (l.map hexText) ++ str% ":" := by
    intro l
    induction l with
    | nil => intro h; exact absurd rfl h
    | cons a l ih =>
      intro _
      cases l with
      | nil => simp [joinWith]
      | cons b l => rw [List.flatMap_cons, ih (by simp)]; simp [joinWith]
  by_cases hl : l = []
  · subst hl; simp [joinWith]
  · rw [if_neg (fun e => hl (List.length_eq_zero_iff.1 e)), key l hl]; simp

theorem ipv6Written_text {l : List Nat} (hl : ∀ n ∈ l, n < 65536) : Ipv6Written l (ipv6Text l) := by
  have hb := best_longestZeros l
  unfold ipv6Text
  cases hz : longestZeros 0 none none l with
  | none =>
    rw [hz] at hb
    refine .inl ⟨(joined_iff hl).2 rfl, fun x y e => ?_⟩
    exact hb x.length 2 (by omega) (zeros_of_append (y := y) (by rw [e]; simp [List.replicate]))
  | some an =>
    obtain ⟨a, n⟩ := an
    rw [hz] at hb
    obtain ⟨hn, hz, hbest⟩ := hb
    simp only []
    by_cases h2 : n < 2
    · rw [if_pos h2]
      refine .inl ⟨(joined_iff hl).2 rfl, fun x y e => ?_⟩
      have := hbest x.length 2 (by omega) (zeros_of_append (y := y) (by rw [e]; simp [List.replicate]))
      omega
    · rw [if_neg h2]
      obtain ⟨e, hle⟩ := append_of_zeros hz hn
      have hx : (l.take a).length = a := by simp; omega
      refine .inr ⟨l.take a, n, l.drop (a + n), _, _, e, by omega, fun x' m y' e' => ?_,
        (joined_iff fun k hk => hl k (List.mem_of_mem_take hk)).2 rfl, (joined_iff fun k hk => hl k (List.mem_of_mem_drop hk)).2 rfl, ?_⟩
      · rw [hx]
        rcases Nat.eq_zero_or_pos m with rfl | hm
        · left; omega
        · exact hbest x'.length m hm (zeros_of_append e')
      · rw [← flatMap_joined, hx]

theorem ipv6Written_unique {l : List Nat} (hl : ∀ n ∈ l, n < 65536) {s t : Str} (h : Ipv6Written l s) (h' : Ipv6Written l t) : s = t := by
  have two : ∀ {x y : List Nat} {n : Nat}, 2 ≤ n → l = x ++ List.replicate n 0 ++ y → ∃ y', l = x ++ 0 :: 0 :: y' := fun {x y n} hn e => by
    obtain ⟨k, rfl⟩ : ∃ k, n = k + 2 := ⟨n - 2, by omega⟩
    exact ⟨List.replicate k 0 ++ y, by rw [e]; simp [List.replicate_succ]⟩
  rcases h with ⟨h, hno⟩ | ⟨x, n, y, a, b, e, hn, hbest, ha, hb, rfl⟩ <;>
    rcases h' with ⟨h', hno'⟩ | ⟨x', n', y', a', b', e', hn', hbest', ha', hb', rfl⟩
  · rw [(joined_iff hl).1 h, (joined_iff hl).1 h']
  · obtain ⟨_, e⟩ := two hn' e'
    exact absurd e (hno _ _)
  · obtain ⟨_, e⟩ := two hn e
    exact absurd e (hno' _ _)
  · have h1 := hbest _ _ _ e'
    have h2 := hbest' _ _ _ e
    have hnn : n = n' := by omega
    subst hnn
    have hx : x.length = x'.length := by omega
    have e2 : x ++ List.replicate n 0 ++ y = x' ++ List.replicate n 0 ++ y' := e.symm.trans e'
    obtain ⟨e3, rfl⟩ := List.append_inj e2 (by simp [hx])
    obtain ⟨rfl, _⟩ := List.append_inj e3 hx
    have hlx : ∀ n ∈ x, n < 65536 := fun k hk => hl k (by rw [e]; simp [hk])
    have hly : ∀ n ∈ y, n < 65536 := fun k hk => hl k (by rw [e]; simp [hk])
    rw [(joined_iff hlx).1 ha, (joined_iff hlx).1 ha', (joined_iff hly).1 hb, (joined_iff hly).1 hb']

theorem ipv6Written_iff {l : List Nat} (hl : ∀ n ∈ l, n < 65536) {s : Str} : Ipv6Written l s ↔ s = ipv6Text l :=
  ⟨fun h => ipv6Written_unique hl h (ipv6Written_text hl), fun h => h ▸ ipv6Written_text hl⟩

theorem PiecesAre.lt {s : Str} {l : List Nat} (h : PiecesAre s l) : ∀ n ∈ l, n < 65536 := by
  induction h with
  | one h => intro n hn; simp only [List.mem_singleton] at hn; rw [hn]; exact h.lt
  | dotted h1 h2 h3 h4 =>
    have h1 := h1.2.1
    have h2 := h2.2.1
    have h3 := h3.2.1
    have h4 := h4.2.1
    intro n hn
    simp only [List.mem_cons, List.not_mem_nil, or_false] at hn
    rcases hn with rfl | rfl <;> omega
  | more h _ ih =>
    intro n hn
    rcases List.mem_cons.1 hn with rfl | hn
    · exact h.lt
    · exact ih n hn

theorem Ipv6Is.pieces {s : Str} {l : List Nat} (h : Ipv6Is s l) : l.length = 8 ∧ ∀ n ∈ l, n < 65536 := by
  rcases h with ⟨h, hl⟩ | ⟨a, x, b, y, _, _, ha, hb, hle, rfl⟩
  · exact ⟨hl, h.lt⟩
  · refine ⟨by simp; omega, fun n hn => ?_⟩
    rcases List.mem_append.1 hn with hn | hn
    · rcases List.mem_append.1 hn with hn | hn
      · rcases ha with ha | ⟨_, rfl⟩
        · exact ha.lt n hn
        · cases hn
      · rw [List.eq_of_mem_replicate hn]; decide
    · rcases hb with hb | ⟨_, rfl⟩
      · exact hb.lt n hn
      · cases hn

theorem hex_piece {n : Nat} (hn : n < 65536) {t : Str} (h : Hex n t) : Piece t n :=
  ⟨h.1, by rw [hex_unique h hn]; exact hexText_length n⟩

theorem joined_pieces {l : List Nat} (hl : ∀ n ∈ l, n < 65536) {s : Str} (h : Joined l s) :
    (PiecesAre s l ∨ s = [] ∧ l = []) ∧ '.' ∉ s := by
  obtain ⟨ts, h, rfl⟩ := h
  induction h with
  | nil => exact ⟨.inr ⟨rfl, rfl⟩, by simp [joinWith]⟩
  | @cons n t l ts h ht ih =>
    have hp := hex_piece (hl n (by simp)) h
    obtain ⟨h1, h2⟩ := ih fun n hn => hl n (by simp [hn])
    cases ht with
    | nil => exact ⟨.inl (by simpa [joinWith] using .one hp), by simpa [joinWith] using hp.no_dot⟩
    | @cons n' t' l' ts' h' ht' =>
      rcases h1 with h1 | ⟨_, h1⟩
      · refine ⟨.inl ?_, ?_⟩
        · have : joinWith (str% ":") (t :: t' :: ts') = t ++ ':' :: joinWith (str% ":") (t' :: ts') := by simp [joinWith]
          rw [this]
          exact .more hp h1
        · intro hm
          have : joinWith (str% ":") (t :: t' :: ts') = t ++ ':' :: joinWith (str% ":") (t' :: ts') := by simp [joinWith]
          rw [this] at hm
          rcases List.mem_append.1 hm with hm | hm
          · exact hp.no_dot hm
          · rcases List.mem_cons.1 hm with hm | hm
            · exact absurd hm (by decide)
            · exact h2 hm
      · cases h1

theorem Ipv6Written.is {l : List Nat} (hl : ∀ n ∈ l, n < 65536) (h8 : l.length = 8) {s : Str} (h : Ipv6Written l s) : Ipv6Is s l := by
  rcases h with ⟨h, _⟩ | ⟨x, n, y, a, b, rfl, hn, _, ha, hb, rfl⟩
  · rcases (joined_pieces hl h).1 with h | ⟨_, rfl⟩
    · exact .inl ⟨h, h8⟩
    · cases h8
  · obtain ⟨ha, hd⟩ := joined_pieces (fun n hn => hl n (by simp [hn])) ha
    obtain ⟨hb, _⟩ := joined_pieces (fun n hn => hl n (by simp [hn])) hb
    simp at h8
    exact .inr ⟨a, x, b, y, rfl, hd, ha, hb, by omega, by rw [show 8 - (x.length + y.length) = n by omega]⟩

theorem joined_chars {l : List Nat} {s : Str} (h : Joined l s) : ∀ c ∈ s, (isDigit 16 c = true ∧ c.isUpper = false) ∨ c = ':' := by
  obtain ⟨ts, h, rfl⟩ := h
  induction h with
  | nil => intro c hc; simp [joinWith] at hc
  | @cons n t l ts h ht ih =>
    have hd : ∀ c ∈ t, (isDigit 16 c = true ∧ c.isUpper = false) ∨ c = ':' := fun c hc =>
      .inl ⟨(numeral_iff.1 h.1).2.1 c hc, h.2.2 c hc⟩
    cases ht with
    | nil => simpa [joinWith] using hd
    | @cons n' t' l' ts' h' ht' =>
      intro c hc
      have : joinWith (str% ":") (t :: t' :: ts') = t ++ ':' :: joinWith (str% ":") (t' :: ts') := by simp [joinWith]
      rw [this] at hc
      rcases List.mem_append.1 hc with hc | hc
      · exact hd c hc
      · rcases List.mem_cons.1 hc with hc | hc
        · exact .inr hc
        · exact ih c hc

theorem Ipv6Written.chars {l : List Nat} {s : Str} (h : Ipv6Written l s) : ∀ c ∈ s, (isDigit 16 c = true ∧ c.isUpper = false) ∨ c = ':' := by
  rcases h with ⟨h, _⟩ | ⟨x, n, y, a, b, _, _, _, ha, hb, rfl⟩
  · exact joined_chars h
  · intro c hc
    simp only [List.mem_append, List.mem_cons, List.not_mem_nil, or_false] at hc
    rcases hc with (hc | hc | hc) | hc
    · exact joined_chars ha c hc
    · exact .inr hc
    · exact .inr hc
    · exact joined_chars hb c hc

end UrlHost
end Httpsig
