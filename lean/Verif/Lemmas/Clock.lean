import Verif.Lemmas.Calendar
import Verif.Lemmas.Sign2
/- `formatDate` writes the IMF-fixdate of a clock that ticks second by second. -/
namespace Httpsig
open Sfv

/-- The clock computed by `formatDate`. -/
def clockAt (s : Int) : Clock :=
  ⟨(s / 86400 + 4) % 7, civilFromDays (s / 86400), s % 86400 / 3600, s % 86400 / 60 % 60, s % 86400 % 60⟩

theorem clockAt_succ (s : Int) : clockAt (s + 1) = (clockAt s).tick := by
  unfold clockAt Clock.tick
  simp only
  by_cases h1 : s % 86400 % 60 < 59
  · rw [if_pos h1]
    have : (s + 1) / 86400 = s / 86400 := by omega
    rw [this]
    congr 1 <;> omega
  rw [if_neg h1]
  by_cases h2 : s % 86400 / 60 % 60 < 59
  · rw [if_pos h2]
    have : (s + 1) / 86400 = s / 86400 := by omega
    rw [this]
    congr 1 <;> omega
  rw [if_neg h2]
  by_cases h3 : s % 86400 / 3600 < 23
  · rw [if_pos h3]
    have : (s + 1) / 86400 = s / 86400 := by omega
    rw [this]
    congr 1 <;> omega
  rw [if_neg h3]
  have h86 : s % 86400 = 86399 := by omega
  have : (s + 1) / 86400 = s / 86400 + 1 := by omega
  rw [this, civil_succ]
  congr 1
  · split <;> omega
  · omega
  · omega
  · omega

theorem clockAt_after (n : Nat) : clockAt n = Clock.after n := by
  induction n with
  | zero => decide
  | succ n ih => rw [Clock.after, ← ih, ← clockAt_succ]; rfl

theorem nextDay_year_le (x : Int × Int × Int) : x.1 ≤ (nextDay x).1 ∧ (nextDay x).1 ≤ x.1 + 1 := by
  obtain ⟨y, m, d⟩ := x
  simp only [nextDay]
  repeat' split
  all_goals simp only; omega

theorem civil_year_mono (a : Int) (k : Nat) : (civilFromDays a).1 ≤ (civilFromDays (a + k)).1 := by
  induction k with
  | zero => simp
  | succ k ih =>
    have h := nextDay_year_le (civilFromDays (a + k))
    rw [← civil_succ] at h
    have e : a + ((k + 1 : Nat) : Int) = a + k + 1 := by omega
    rw [e]
    omega

/-- The year is between 0 and 9999 exactly for the seconds from the start of year 0 to the end of year 9999. -/
theorem year_range (s : Int) (h0 : -62167219200 ≤ s) (h1 : s < 253402300800) :
    0 ≤ (civilFromDays (s / 86400)).1 ∧ (civilFromDays (s / 86400)).1 ≤ 9999 := by
  constructor
  · have h := civil_year_mono (-719528) (s / 86400 + 719528).toNat
    have e : (-719528 : Int) + ((s / 86400 + 719528).toNat : Int) = s / 86400 := by omega
    rw [e] at h
    have : (civilFromDays (-719528)).1 = 0 := by decide
    omega
  · have h := civil_year_mono (s / 86400) (2932896 - s / 86400).toNat
    have e : s / 86400 + ((2932896 - s / 86400).toNat : Int) = 2932896 := by omega
    rw [e] at h
    have : (civilFromDays 2932896).1 = 9999 := by decide
    omega

/-- Month and day are within the calendar. -/
theorem civil_range (n : Int) : 1 ≤ (civilFromDays n).2.1 ∧ (civilFromDays n).2.1 ≤ 12 ∧
    1 ≤ (civilFromDays n).2.2 ∧ (civilFromDays n).2.2 ≤ 31 := by
  obtain ⟨era, doe, hz, h0, hlt⟩ : ∃ era doe, n + 719468 = 146097 * era + doe ∧ 0 ≤ doe ∧ doe < 146097 :=
    ⟨(n + 719468) / 146097, (n + 719468) % 146097, by omega, by omega, by omega⟩
  obtain ⟨c, q, y, doy, he, hc0, hc, hq0, hq, hy0, hy, hd0, hd⟩ := doe_split doe h0 hlt
  rw [he] at hz
  rw [civil_eq n era c q y doy hz hc0 hc hq0 hq hy0 hy hd0 hd]
  have hle : doy ≤ 365 := by omega
  clear hz he hd
  obtain ⟨k, hk⟩ : ∃ k, (5 * doy + 2) / 153 = k := ⟨_, rfl⟩
  rw [civ_of_mp _ _ k hk]
  simp only
  have hk0 : 0 ≤ k := by omega
  have hk1 : k ≤ 11 := by omega
  refine ⟨?_, ?_, by omega, by omega⟩ <;> split <;> omega

/-! ### Digits -/

theorem natStr_lt_ten {n : Nat} (h : n < 10) : natStr n = [digitOf n] := by
  revert n
  decide

theorem two_eq {n : Int} (h0 : 0 ≤ n) (h : n < 100) : two n = twoDigits n.toNat := by
  unfold two twoDigits
  obtain ⟨m, rfl⟩ := Int.eq_ofNat_of_zero_le h0
  simp only [Int.toNat_natCast]
  have hm : m < 100 := by omega
  clear h h0
  revert m
  decide

theorem natStr_step {n : Nat} (h : 10 ≤ n) : natStr n = natStr (n / 10) ++ [digitOf (n % 10)] := by
  unfold natStr
  rw [Nat.toDigits_of_base_le (by omega) h]
  congr 1
  have : n % 10 < 10 := Nat.mod_lt _ (by omega)
  generalize n % 10 = m at *
  revert m
  decide

theorem padZero_step {w n : Nat} (h : n < 10 ^ (w + 1)) (hw : 0 < w) :
    padZero (w + 1) (natStr n) = padZero w (natStr (n / 10)) ++ [digitOf (n % 10)] := by
  by_cases hn : 10 ≤ n
  · rw [natStr_step hn]
    unfold padZero
    simp only [List.length_append, List.length_singleton, Nat.add_sub_add_right, List.append_assoc]
  · have h10 : n < 10 := by omega
    have e : n / 10 = 0 := by omega
    rw [e, Nat.mod_eq_of_lt h10, natStr_lt_ten h10]
    have e0 : natStr 0 = ['0'] := by decide
    rw [e0]
    unfold padZero
    obtain ⟨v, rfl⟩ : ∃ v, w = v + 1 := ⟨w - 1, by omega⟩
    simp only [List.length_singleton, Nat.add_sub_cancel]
    rw [List.replicate_succ']

theorem padZero_four {n : Nat} (h : n < 10000) : padZero 4 (natStr n) = fourDigits n := by
  rw [padZero_step (w := 3) (by omega) (by omega), padZero_step (w := 2) (by omega) (by omega),
    padZero_step (w := 1) (by omega) (by omega)]
  have e : padZero 1 (natStr (n / 10 / 10 / 10)) = [digitOf (n / 10 / 10 / 10)] := by
    rw [natStr_lt_ten (by omega)]; rfl
  rw [e]
  unfold fourDigits twoDigits
  have e1 : n / 10 / 10 / 10 = n / 100 / 10 := by omega
  have e2 : n / 10 / 10 % 10 = n / 100 % 10 := by omega
  have e3 : n / 10 % 10 = n % 100 / 10 := by omega
  have e4 : n % 10 = n % 100 % 10 := by omega
  rw [e1, e2, e3, e4]
  rfl

theorem weekdayName_eq {i : Int} (h0 : 0 ≤ i) (h : i < 7) : weekdayName i = dayNames[i.toNat]?.getD [] := by
  have : i = 0 ∨ i = 1 ∨ i = 2 ∨ i = 3 ∨ i = 4 ∨ i = 5 ∨ i = 6 := by omega
  rcases this with rfl | rfl | rfl | rfl | rfl | rfl | rfl <;> rfl

theorem monthName_eq {i : Int} (h0 : 1 ≤ i) (h : i ≤ 12) : monthName i = monthNames[i.toNat - 1]?.getD [] := by
  have : i = 1 ∨ i = 2 ∨ i = 3 ∨ i = 4 ∨ i = 5 ∨ i = 6 ∨ i = 7 ∨ i = 8 ∨ i = 9 ∨ i = 10 ∨ i = 11 ∨ i = 12 := by omega
  rcases this with rfl | rfl | rfl | rfl | rfl | rfl | rfl | rfl | rfl | rfl | rfl | rfl <;> rfl

theorem yearStr_eq (y : Int) : yearStr y = yearText y := by
  unfold yearStr yearText
  split
  · exact padZero_four (by omega)
  · have hs : (if y < 0 then ['-'] else ['+']) = [if y < 0 then '-' else '+'] := by split <;> rfl
    rw [hs, List.singleton_append]
    congr 1
    split
    · exact padZero_four (by omega)
    · rename_i h
      generalize y.natAbs = n at h
      have : 4 - (natStr n).length = 0 := by
        rw [natStr_step (by omega), natStr_step (n := n / 10) (by omega), natStr_step (n := n / 10 / 10) (by omega),
          natStr_step (n := n / 10 / 10 / 10) (by omega)]
        simp only [List.length_append, List.length_cons, List.length_nil]
        omega
      rw [padZero, this]
      exact Nat.toList_repr.symm

theorem formatDate_text (s : Int) : formatDate s = (clockAt s).text := by
  have hr := civil_range (s / 86400)
  unfold formatDate Clock.text clockAt
  simp only
  have hr3 : 0 ≤ (civilFromDays (s / 86400)).snd.snd := by omega
  have hr4 : (civilFromDays (s / 86400)).snd.snd < 100 := by omega
  rw [weekdayName_eq (by omega) (by omega), two_eq hr3 hr4, monthName_eq hr.1 hr.2.1,
    two_eq (by omega) (by omega), two_eq (by omega) (by omega), two_eq (by omega) (by omega), yearStr_eq]

theorem formatDate_eq (s : Int) (h0 : -62167219200 ≤ s) (h1 : s < 253402300800) :
    formatDate s = (clockAt s).imf := by
  have hy : 0 ≤ (clockAt s).date.1 ∧ (clockAt s).date.1 ≤ 9999 := year_range s h0 h1
  rw [formatDate_text, Clock.text, yearText, if_pos hy]
  rfl

/-! ### Every automatic date is a valid header value -/

theorem visible_append {a b : Str} (ha : a.all isVisibleChar = true) (hb : b.all isVisibleChar = true) :
    (a ++ b).all isVisibleChar = true := by rw [List.all_append, ha, hb]; rfl

theorem digits_visible {s : Str} (h : ∀ c ∈ s, c.isDigit = true) : s.all isVisibleChar = true := by
  apply visible_of_printable
  rw [List.all_eq_true]
  exact fun c hc => isStringChar_of_isDigit (h c hc)

theorem formatDate_visible (s : Int) : (formatDate s).all isVisibleChar = true := by
  have h2 : ∀ n, (two n).all isVisibleChar = true := fun n => digits_visible (padZero_all (natStr_all _))
  have hw : ∀ i, (weekdayName i).all isVisibleChar = true := by
    intro i; unfold weekdayName; split <;> decide
  have hm : ∀ i, (monthName i).all isVisibleChar = true := by
    intro i; unfold monthName; split <;> decide
  have hy : ∀ y, (yearStr y).all isVisibleChar = true := by
    intro y
    unfold yearStr
    split
    · exact digits_visible (padZero_all (natStr_all _))
    · apply visible_append
      · split <;> decide
      · exact digits_visible (padZero_all (natStr_all _))
  unfold formatDate
  generalize civilFromDays (s / 86400) = x
  obtain ⟨y, m, d⟩ := x
  simp only [List.all_append, h2, hw, hm, hy, Bool.true_and]
  decide

end Httpsig
