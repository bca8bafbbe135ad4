import Verif.Spec.Calendar
/-
The calendar computation of `formatDate` steps through the Gregorian calendar day by day.
-/
namespace Httpsig

theorem civil_zero : civilFromDays 0 = (1970, 1, 1) := by decide

theorem doe_split (doe : Int) (h0 : 0 ≤ doe) (h1 : doe < 146097) :
    ∃ c q y doy : Int, doe = 36524 * c + 1461 * q + 365 * y + doy ∧ 0 ≤ c ∧ c ≤ 3 ∧ 0 ≤ q ∧ q ≤ 24 ∧
      0 ≤ y ∧ y ≤ 3 ∧ 0 ≤ doy ∧ (doy ≤ 364 ∨ (doy = 365 ∧ y = 3 ∧ (q ≠ 24 ∨ c = 3))) := by
  have hc : ∃ c : Int, 0 ≤ c ∧ c ≤ 3 ∧ 0 ≤ doe - 36524 * c ∧
      (doe - 36524 * c < 36524 ∨ (c = 3 ∧ doe - 36524 * c = 36524)) := by
    by_cases h : doe < 146096
    · exact ⟨doe / 36524, by omega, by omega, by omega, by omega⟩
    · exact ⟨3, by omega, by omega, by omega, by omega⟩
  obtain ⟨c, hc0, hc3, hr0, hr⟩ := hc
  generalize hrd : doe - 36524 * c = r at hr0 hr
  have hq : ∃ q : Int, 0 ≤ q ∧ q ≤ 24 ∧ 0 ≤ r - 1461 * q ∧ r - 1461 * q ≤ 1460 :=
    ⟨r / 1461, by omega, by omega, by omega, by omega⟩
  obtain ⟨q, hq0, hq24, hs0, hs⟩ := hq
  generalize hsd : r - 1461 * q = s at hs0 hs
  by_cases h : s < 1460
  · exact ⟨c, q, s / 365, s % 365, by omega, hc0, hc3, hq0, hq24, by omega, by omega, by omega, .inl (by omega)⟩
  · exact ⟨c, q, 3, 365, by omega, hc0, hc3, hq0, hq24, by omega, by omega, by omega, .inr (by omega)⟩

theorem yoe_eq (c q y doy doe : Int) (he : doe = 36524 * c + 1461 * q + 365 * y + doy) (hc0 : 0 ≤ c) (hc : c ≤ 3) (hq0 : 0 ≤ q)
    (hq : q ≤ 24) (hy0 : 0 ≤ y) (hy : y ≤ 3) (hd0 : 0 ≤ doy) (hd : doy ≤ 364 ∨ (doy = 365 ∧ y = 3 ∧ (q ≠ 24 ∨ c = 3))) :
    (doe - doe / 1460 + doe / 36524 - doe / 146096) / 365 = 100 * c + 4 * q + y := by
  have hq' : doe / 36524 - doe / 146096 = c := by
    generalize hr : 1461 * q + 365 * y + doy = r at *
    have hr0 : 0 ≤ r := by omega
    have hr1 : r < 36524 ∨ (r = 36524 ∧ c = 3) := by omega
    have hd' : doe = 36524 * c + r := by omega
    obtain h | h | h | h : c = 0 ∨ c = 1 ∨ c = 2 ∨ c = 3 := by omega
    all_goals subst h; clear hr he hd; omega
  have h2 : doe / 1460 = 25 * c + q + (24 * c + q + 365 * y + doy) / 1460 := by omega
  have h3 : doe - doe / 1460 + doe / 36524 - doe / 146096 =
      365 * (100 * c + 4 * q + y) + (doy - (24 * c + q + 365 * y + doy) / 1460) := by omega
  rw [h3]
  have h4 : 0 ≤ doy - (24 * c + q + 365 * y + doy) / 1460 := by omega
  have h5 : doy - (24 * c + q + 365 * y + doy) / 1460 < 365 := by omega
  omega

/-- Month and day from the number of days since 1 March of year `y`. -/
def civ (y doy : Int) : Int × Int × Int :=
  (y + (if (if (5 * doy + 2) / 153 < 10 then (5 * doy + 2) / 153 + 3 else (5 * doy + 2) / 153 - 9) ≤ 2
      then 1 else 0),
   if (5 * doy + 2) / 153 < 10 then (5 * doy + 2) / 153 + 3 else (5 * doy + 2) / 153 - 9,
   doy - (153 * ((5 * doy + 2) / 153) + 2) / 5 + 1)

theorem civil_eq (n era c q y doy : Int)
    (hn : n + 719468 = 146097 * era + (36524 * c + 1461 * q + 365 * y + doy))
    (hc0 : 0 ≤ c) (hc : c ≤ 3) (hq0 : 0 ≤ q)
    (hq : q ≤ 24) (hy0 : 0 ≤ y) (hy : y ≤ 3) (hd0 : 0 ≤ doy)
    (hd : doy ≤ 364 ∨ (doy = 365 ∧ y = 3 ∧ (q ≠ 24 ∨ c = 3))) :
    civilFromDays n = civ (400 * era + (100 * c + 4 * q + y)) doy := by
  have hR : ∀ R : Int, n + 719468 = 146097 * era + R → 0 ≤ R → R < 146097 →
      (n + 719468) / 146097 = era ∧ (n + 719468) % 146097 = R := by
    clear hn
    intro R hn h0 h1
    constructor <;> omega
  obtain ⟨he, hm⟩ := hR _ hn (by clear hn hd; omega) (by clear hn; omega)
  have hye := yoe_eq c q y doy _ rfl hc0 hc hq0 hq hy0 hy hd0 hd
  have hdoy : 36524 * c + 1461 * q + 365 * y + doy -
      (365 * (100 * c + 4 * q + y) + (100 * c + 4 * q + y) / 4 - (100 * c + 4 * q + y) / 100) = doy := by
    have h4 : (100 * c + 4 * q + y) / 4 = 25 * c + q := by clear hn hd hR hye he hm; omega
    have h100 : (100 * c + 4 * q + y) / 100 = c := by clear hn hd hR hye he hm; omega
    rw [h4, h100]
    clear hn hd hR hye he hm
    omega
  unfold civilFromDays
  simp only
  rw [he, hm, hye, hdoy]
  unfold civ
  rw [show 100 * c + 4 * q + y + era * 400 = 400 * era + (100 * c + 4 * q + y) by omega]

theorem civ_of_mp (y doy k : Int) (h : (5 * doy + 2) / 153 = k) :
    civ y doy = (y + (if (if k < 10 then k + 3 else k - 9) ≤ 2 then 1 else 0),
      (if k < 10 then k + 3 else k - 9), doy - (153 * k + 2) / 5 + 1) := by
  subst h; rfl

theorem nextDay_inside (y m d : Int) (h : d < monthLength y m) : nextDay (y, m, d) = (y, m, d + 1) := by
  simp only [nextDay]; rw [if_pos h]

theorem nextDay_month (y m d : Int) (h : ¬ d < monthLength y m) (hm : m < 12) :
    nextDay (y, m, d) = (y, m + 1, 1) := by
  simp only [nextDay]; rw [if_neg h, if_pos hm]

theorem nextDay_year (y m d : Int) (h : ¬ d < monthLength y m) (hm : ¬ m < 12) :
    nextDay (y, m, d) = (y + 1, 1, 1) := by
  simp only [nextDay]; rw [if_neg h, if_neg hm]

/-- Inside a month of `len` days which starts `lo` days after 1 March. -/
theorem civ_month (y doy k lo len m a : Int) (hlo : (153 * k + 2) / 5 = lo)
    (hlo' : (153 * (k + 1) + 2) / 5 = lo + len)
    (hm : (if k < 10 then k + 3 else k - 9) = m) (ha : (if m ≤ 2 then 1 else 0) = a)
    (h1 : lo ≤ doy) (h2 : doy < lo + len) :
    civ y doy = (y + a, m, doy - lo + 1) := by
  have hk : (5 * doy + 2) / 153 = k := by omega
  rw [civ_of_mp y doy k hk, hm, ha, hlo]

theorem civ_step (y doy : Int) (h0 : 0 ≤ doy)
    (h : doy < 364 ∨ (doy = 364 ∧ isLeapYear (y + 1))) :
    civ y (doy + 1) = nextDay (civ y doy) := by
  have hlen : ∀ Y m : Int, m ≠ 2 → monthLength Y m = monthLength 0 m := by
    intro Y m hm
    simp only [monthLength]
    rw [if_neg hm, if_neg hm]
  have key : ∀ k lo len m a lo' len' m' a' : Int,
      (153 * k + 2) / 5 = lo → (153 * (k + 1) + 2) / 5 = lo + len → lo' = lo + len →
      (153 * (k + 1 + 1) + 2) / 5 = lo' + len' →
      (if k < 10 then k + 3 else k - 9) = m → (if m ≤ 2 then 1 else 0) = a →
      (if k + 1 < 10 then (k + 1) + 3 else (k + 1) - 9) = m' → (if m' ≤ 2 then 1 else 0) = a' →
      m ≠ 2 → monthLength 0 m = len → 0 < len' →
      ((m < 12 ∧ m' = m + 1 ∧ a' = a) ∨ (m = 12 ∧ m' = 1 ∧ a' = a + 1)) →
      lo ≤ doy → doy < lo + len → civ y (doy + 1) = nextDay (civ y doy) := by
    intro k lo len m a lo' len' m' a' e1 e2 e3 e4 e5 e6 e7 e8 hm2 hml hl' hnext h1 h2
    rw [civ_month y doy k lo len m a e1 e2 e5 e6 h1 h2]
    by_cases hin : doy + 1 < lo + len
    · rw [civ_month y (doy + 1) k lo len m a e1 e2 e5 e6 (by omega) hin,
        nextDay_inside _ _ _ (by rw [hlen _ _ hm2, hml]; omega)]
      congr 2; omega
    · rw [civ_month y (doy + 1) (k + 1) lo' len' m' a' (by omega) e4 e7 e8 (by omega) (by omega)]
      have hn : ¬ doy - lo + 1 < monthLength (y + a) m := by rw [hlen _ _ hm2, hml]; omega
      rcases hnext with ⟨hlt, rfl, rfl⟩ | ⟨rfl, rfl, rfl⟩
      · rw [nextDay_month _ _ _ hn hlt]
        congr 2; omega
      · rw [nextDay_year _ _ _ hn (by omega)]
        have : doy + 1 - lo' + 1 = 1 := by omega
        rw [this, Int.add_assoc]
  by_cases hl : 337 ≤ doy
  · rw [civ_month y doy 11 337 30 2 1 (by decide) (by decide) (by decide) (by decide) hl (by omega),
      civ_month y (doy + 1) 11 337 30 2 1 (by decide) (by decide) (by decide) (by decide) (by omega) (by omega)]
    have hm : doy - 337 + 1 < monthLength (y + 1) 2 := by
      unfold monthLength
      rw [if_pos rfl]
      by_cases hle : isLeapYear (y + 1)
      · rw [if_pos hle]; omega
      · rw [if_neg hle]
        rcases h with h | h
        · omega
        · exact absurd h.2 hle
    rw [nextDay_inside _ _ _ hm]
    congr 2; omega
  · by_cases g : doy < 31
    · exact key 0 0 31 3 0 31 30 4 0 (by decide) (by decide) (by decide) (by decide) (by decide) (by decide) (by decide) (by decide) (by decide) (by decide) (by decide) (by decide) (by omega) (by omega)
    by_cases g : doy < 61
    · exact key 1 31 30 4 0 61 31 5 0 (by decide) (by decide) (by decide) (by decide) (by decide) (by decide) (by decide) (by decide) (by decide) (by decide) (by decide) (by decide) (by omega) (by omega)
    by_cases g : doy < 92
    · exact key 2 61 31 5 0 92 30 6 0 (by decide) (by decide) (by decide) (by decide) (by decide) (by decide) (by decide) (by decide) (by decide) (by decide) (by decide) (by decide) (by omega) (by omega)
    by_cases g : doy < 122
    · exact key 3 92 30 6 0 122 31 7 0 (by decide) (by decide) (by decide) (by decide) (by decide) (by decide) (by decide) (by decide) (by decide) (by decide) (by decide) (by decide) (by omega) (by omega)
    by_cases g : doy < 153
    · exact key 4 122 31 7 0 153 31 8 0 (by decide) (by decide) (by decide) (by decide) (by decide) (by decide) (by decide) (by decide) (by decide) (by decide) (by decide) (by decide) (by omega) (by omega)
    by_cases g : doy < 184
    · exact key 5 153 31 8 0 184 30 9 0 (by decide) (by decide) (by decide) (by decide) (by decide) (by decide) (by decide) (by decide) (by decide) (by decide) (by decide) (by decide) (by omega) (by omega)
    by_cases g : doy < 214
    · exact key 6 184 30 9 0 214 31 10 0 (by decide) (by decide) (by decide) (by decide) (by decide) (by decide) (by decide) (by decide) (by decide) (by decide) (by decide) (by decide) (by omega) (by omega)
    by_cases g : doy < 245
    · exact key 7 214 31 10 0 245 30 11 0 (by decide) (by decide) (by decide) (by decide) (by decide) (by decide) (by decide) (by decide) (by decide) (by decide) (by decide) (by decide) (by omega) (by omega)
    by_cases g : doy < 275
    · exact key 8 245 30 11 0 275 31 12 0 (by decide) (by decide) (by decide) (by decide) (by decide) (by decide) (by decide) (by decide) (by decide) (by decide) (by decide) (by decide) (by omega) (by omega)
    by_cases g : doy < 306
    · exact key 9 275 31 12 0 306 31 1 1 (by decide) (by decide) (by decide) (by decide) (by decide) (by decide) (by decide) (by decide) (by decide) (by decide) (by decide) (by decide) (by omega) (by omega)
    · exact key 10 306 31 1 1 337 30 2 1 (by decide) (by decide) (by decide) (by decide) (by decide) (by decide) (by decide) (by decide) (by decide) (by decide) (by decide) (by decide) (by omega) (by omega)

theorem civ_wrap (y doy : Int) (h : (doy = 364 ∧ ¬ isLeapYear (y + 1)) ∨ (doy = 365 ∧ isLeapYear (y + 1))) :
    civ (y + 1) 0 = nextDay (civ y doy) := by
  rcases h with ⟨rfl, h⟩ | ⟨rfl, h⟩ <;> simp [civ, nextDay, monthLength, h]

theorem civil_succ (n : Int) : civilFromDays (n + 1) = nextDay (civilFromDays n) := by
  obtain ⟨era, doe, hz, h0, hlt⟩ : ∃ era doe, n + 719468 = 146097 * era + doe ∧ 0 ≤ doe ∧ doe < 146097 :=
    ⟨(n + 719468) / 146097, (n + 719468) % 146097, by omega, by omega, by omega⟩
  obtain ⟨c, q, y, doy, he, hc0, hc, hq0, hq, hy0, hy, hd0, hd⟩ := doe_split doe h0 hlt
  rw [he] at hz
  rw [civil_eq n era c q y doy hz hc0 hc hq0 hq hy0 hy hd0 hd]
  have hleap : isLeapYear (400 * era + (100 * c + 4 * q + y) + 1) ↔ (y = 3 ∧ (q ≠ 24 ∨ c = 3)) := by
    unfold isLeapYear
    constructor
    · intro h; omega
    · intro h; omega
  by_cases hlast : doy < 364 ∨ (doy = 364 ∧ (y = 3 ∧ (q ≠ 24 ∨ c = 3)))
  · rw [civil_eq (n + 1) era c q y (doy + 1) (by omega) hc0 hc hq0 hq hy0 hy (by omega) (by omega)]
    exact civ_step _ _ hd0 (by rw [hleap]; exact hlast)
  · rw [← civ_wrap _ doy (by rw [hleap]; omega)]
    by_cases h3 : y < 3
    · rw [civil_eq (n + 1) era c q (y + 1) 0 (by omega) hc0 hc hq0 hq (by omega) (by omega) (by omega) (by omega)]
      congr 1; omega
    · by_cases h24 : q < 24
      · rw [civil_eq (n + 1) era c (q + 1) 0 0 (by omega) hc0 hc (by omega) (by omega) (by omega) (by omega) (by omega) (by omega)]
        congr 1; omega
      · by_cases hc3 : c < 3
        · rw [civil_eq (n + 1) era (c + 1) 0 0 0 (by omega) (by omega) (by omega) (by omega) (by omega) (by omega) (by omega) (by omega) (by omega)]
          congr 1; omega
        · rw [civil_eq (n + 1) (era + 1) 0 0 0 0 (by omega) (by omega) (by omega) (by omega) (by omega) (by omega) (by omega) (by omega) (by omega)]
          congr 1; omega

end Httpsig
