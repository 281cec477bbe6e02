import Verif.Time.Calendar
import Mathlib.Tactic.LinearCombination
import Mathlib.Tactic.Positivity

/-!
# C04: `convert_julian`, C06: `calendar_to_julian`
-/
namespace Verif.Time
open Spec

/-- Integer form of the date part of `convert_julian`. -/
def julianC (JDO : ℤ) : ℤ :=
  if JDO < 2299161 then JDO + 1524
  else JDO + (4 * JDO - 7468865) / 146097 - (4 * JDO - 7468865) / 146097 / 4 + 1525

theorem convertJulian_date (JD : ℚ) :
    let C := julianC ⌊JD + 0.5⌋
    let D := (20 * C - 2442) / 7305
    let E := 365 * D + D / 4
    let F := 10000 * (C - E) / 306001
    let r := convertJulian JD
    r.day = C - E - 306001 * F / 10000 ∧ r.month = F - 1 - 12 * (F / 14) ∧
    r.year = D - 4715 - (7 + r.month) / 10 := by
  intro C D E F r
  have eC : (if ⌊JD + 0.5⌋ < 2299161 then ⌊JD + 0.5⌋ + 1524
      else ⌊JD + 0.5⌋ + ⌊((⌊JD + 0.5⌋ : ℤ) - 1867216.25 : ℚ) / 36524.25⌋
        - ⌊((⌊((⌊JD + 0.5⌋ : ℤ) - 1867216.25 : ℚ) / 36524.25⌋ : ℤ) : ℚ) / 4⌋ + 1525) = C := by
    have e1 : ⌊((⌊JD + 0.5⌋ : ℤ) - 1867216.25 : ℚ) / 36524.25⌋ =
        (4 * ⌊JD + 0.5⌋ - 7468865) / 146097 :=
      floor_eq_div _ _ _ (by norm_num) (by push_cast; norm_num; ring)
    rw [e1]
    have e2 : ⌊(((4 * ⌊JD + 0.5⌋ - 7468865) / 146097 : ℤ) : ℚ) / 4⌋ =
        (4 * ⌊JD + 0.5⌋ - 7468865) / 146097 / 4 :=
      floor_eq_div _ _ _ (by norm_num) (by push_cast; rfl)
    rw [e2]; rfl
  have eD : ⌊((C : ℚ) - 122.1) / 365.25⌋ = D :=
    floor_eq_div _ _ _ (by norm_num) (by push_cast; norm_num; ring)
  have eE : ⌊365 * (D : ℚ) + ⌊(D : ℚ) / 4⌋⌋ = E := by
    have : ⌊(D : ℚ) / 4⌋ = D / 4 := floor_eq_div _ _ _ (by norm_num) (by push_cast; rfl)
    rw [this]
    have : (365 * (D : ℚ) + ((D / 4 : ℤ) : ℚ)) = ((365 * D + D / 4 : ℤ) : ℚ) := by push_cast; ring
    rw [this, Int.floor_intCast]
  have eF : ⌊((C : ℚ) - E) / 30.6001⌋ = F :=
    floor_eq_div _ _ _ (by norm_num) (by push_cast; norm_num; ring)
  have eday1 : ⌊(C : ℚ) - E + 0.5⌋ = C - E := by
    rw [Int.floor_eq_iff]; push_cast; constructor <;> norm_num
  have eday2 : ⌊30.6001 * (F : ℚ)⌋ = 306001 * F / 10000 :=
    floor_eq_div _ _ _ (by norm_num) (by push_cast; norm_num; ring)
  have emon : ⌊(F : ℚ) / 14⌋ = F / 14 := floor_eq_div _ _ _ (by norm_num) (by push_cast; rfl)
  have hd : r.day = C - E - 306001 * F / 10000 := by
    simp only [r, convertJulian]
    rw [eC, eD, eE, eF, eday1, eday2]
  have hm : r.month = F - 1 - 12 * (F / 14) := by
    simp only [r, convertJulian]
    rw [eC, eD, eE, eF, emon]
  refine ⟨hd, hm, ?_⟩
  have hy : r.year = D - 4715 - ⌊(7 + (r.month : ℚ)) / 10⌋ := by
    simp only [r, convertJulian]
    rw [eC, eD]
  rw [hy]
  congr 1
  exact floor_eq_div _ _ _ (by norm_num) (by push_cast; rfl)

/-- Time-of-day part of `convert_julian`. -/
theorem convertJulian_time (JD : ℚ) :
    let f := JD + 0.5 - ⌊JD + 0.5⌋
    let r := convertJulian JD
    r.hour = ⌊24 * f⌋ ∧ r.minute = ⌊(f - r.hour / 24) * 1440⌋ ∧
    r.second = (f - r.hour / 24 - r.minute / 1440) * 86400 := by
  intro f r
  exact ⟨rfl, rfl, rfl⟩

/-- C04: for *every* Julian day the returned month, day, hour, minute and second
are in range, and the time of day adds up to the fraction of the day. -/
theorem convertJulian_ranges (JD : ℚ) :
    let r := convertJulian JD
    1 ≤ r.month ∧ r.month ≤ 12 ∧ 1 ≤ r.day ∧ r.day ≤ 31 ∧
    0 ≤ r.hour ∧ r.hour ≤ 23 ∧ 0 ≤ r.minute ∧ r.minute ≤ 59 ∧ 0 ≤ r.second ∧ r.second < 60 ∧
    (r.hour / 24 + r.minute / 1440 + r.second / 86400 : ℚ) = JD + 0.5 - ⌊JD + 0.5⌋ := by
  intro r
  obtain ⟨hd, hm, hy⟩ := convertJulian_date JD
  obtain ⟨th, tm, ts⟩ := convertJulian_time JD
  change r.day = _ at hd
  change r.month = _ at hm
  change r.hour = _ at th
  change r.minute = ⌊(_ - (r.hour : ℚ) / 24) * 1440⌋ at tm
  change r.second = (_ - (r.hour : ℚ) / 24 - (r.minute : ℚ) / 1440) * 86400 at ts
  generalize julianC ⌊JD + 0.5⌋ = C at hd hm
  have f0 : 0 ≤ JD + 0.5 - ⌊JD + 0.5⌋ := by have := Int.floor_le (JD + 0.5); linarith
  have f1 : JD + 0.5 - ⌊JD + 0.5⌋ < 1 := by have := Int.lt_floor_add_one (JD + 0.5); linarith
  generalize JD + 0.5 - ⌊JD + 0.5⌋ = f at th tm ts f0 f1 ⊢
  have h0 : 0 ≤ r.hour := by rw [th]; exact Int.floor_nonneg.2 (by linarith)
  have h1 : r.hour < 24 := by rw [th]; exact Int.floor_lt.2 (by push_cast; linarith)
  have g0 : (r.hour : ℚ) ≤ 24 * f := by rw [th]; exact Int.floor_le _
  have g1 : 24 * f < r.hour + 1 := by rw [th]; exact Int.lt_floor_add_one _
  have m0 : 0 ≤ r.minute := by rw [tm]; exact Int.floor_nonneg.2 (by linarith)
  have m1 : r.minute < 60 := by rw [tm]; exact Int.floor_lt.2 (by push_cast; linarith)
  have k0 : (r.minute : ℚ) ≤ (f - r.hour / 24) * 1440 := by rw [tm]; exact Int.floor_le _
  have k1 : (f - r.hour / 24) * 1440 < r.minute + 1 := by rw [tm]; exact Int.lt_floor_add_one _
  refine ⟨?_, ?_, ?_, ?_, h0, by omega, m0, by omega, ?_, ?_, ?_⟩
  · omega
  · omega
  · omega
  · omega
  · rw [ts]; linarith
  · rw [ts]; linarith
  · rw [ts]; ring

/-- Year starting in March. -/
def marchYear (y m : ℤ) : ℤ := if m ≤ 2 then y - 1 else y

/-- Days since 1 March. -/
def marchDay (m d : ℤ) : ℤ :=
  (if m = 3 then 0 else if m = 4 then 31 else if m = 5 then 61 else if m = 6 then 92
   else if m = 7 then 122 else if m = 8 then 153 else if m = 9 then 184 else if m = 10 then 214
   else if m = 11 then 245 else if m = 12 then 275 else if m = 1 then 306 else 337) + d - 1

theorem dayNumber_march (y m d : ℤ) (h1 : 1 ≤ m) (h2 : m ≤ 12) :
    dayNumber y m d = 365 * marchYear y m + marchYear y m / 4 - marchYear y m / 100
      + marchYear y m / 400 + marchDay m d - 678881 := by
  unfold dayNumber daysBefore marchYear marchDay gregLeap
  interval_cases m <;> simp <;> (try split_ifs) <;> omega

theorem marchDay_bounds (y m d : ℤ) (hv : Valid y m d) :
    0 ≤ marchDay m d ∧ marchDay m d ≤ 365 ∧
    (marchDay m d = 365 → gregLeap (marchYear y m + 1)) := by
  obtain ⟨h1, h2, h3, h4⟩ := hv
  unfold monthLen at h4
  unfold marchDay marchYear
  by_cases hl : gregLeap y
  · interval_cases m <;> simp [hl] at h4 ⊢ <;> omega
  · interval_cases m <;> simp [hl] at h4 ⊢ <;> omega

theorem marchDay_F (y m d : ℤ) (hv : Valid y m d) :
    10000 * (marchDay m d + 123) / 306001 = (if m ≤ 2 then m + 13 else m + 1) := by
  obtain ⟨h1, h2, h3, h4⟩ := hv
  unfold monthLen at h4; unfold marchDay
  interval_cases m <;> simp at h4 ⊢ <;> (try split_ifs at h4) <;> omega

theorem march_decomp (y : ℤ) : ∃ a b c e : ℤ, y = 400 * a + 100 * b + 4 * c + e ∧
    0 ≤ b ∧ b ≤ 3 ∧ 0 ≤ c ∧ c ≤ 24 ∧ 0 ≤ e ∧ e ≤ 3 :=
  ⟨y / 400, y % 400 / 100, y % 100 / 4, y % 4,
    by omega, by omega, by omega, by omega, by omega, by omega, by omega⟩

theorem julian_core (y m d : ℤ) (hv : Valid y m d) (hg : -100840 ≤ dayNumber y m d) :
    let C := julianC (dayNumber y m d + 2400001)
    let D := (20 * C - 2442) / 7305
    let E := 365 * D + D / 4
    D = marchYear y m + 4716 ∧ C - E = marchDay m d + 123 := by
  intro C D E
  obtain ⟨n0, n1, n2⟩ := marchDay_bounds y m d hv
  have hdn := dayNumber_march y m d hv.1 hv.2.1
  obtain ⟨a, b, c, e, hY, hb, hb', hc, hc', he, he'⟩ := march_decomp (marchYear y m)
  rw [hY] at hdn n2 ⊢
  generalize marchDay m d = n at *
  have g4 : (400 * a + 100 * b + 4 * c + e) / 4 = 100 * a + 25 * b + c := by omega
  have g100 : (400 * a + 100 * b + 4 * c + e) / 100 = 4 * a + b := by omega
  have g400 : (400 * a + 100 * b + 4 * c + e) / 400 = a := by omega
  have gl : n = 365 → (e = 3 ∧ (c ≠ 24 ∨ b = 3)) := by
    intro h; have := n2 h; unfold gregLeap at this; omega
  rw [g4, g100, g400] at hdn
  have hB : (4 * (dayNumber y m d + 2400001) - 7468865) / 146097 = 4 * a + b - 4 := by
    rw [hdn]; omega
  have hC : C = 146100 * a + 36525 * b + 1461 * c + 365 * e + n + 1722642 := by
    simp only [C, julianC]
    rw [if_neg (by omega), hB]; omega
  have hD : D = 400 * a + 100 * b + 4 * c + e + 4716 := by
    simp only [D]; rw [hC]; omega
  refine ⟨hD, ?_⟩
  simp only [E]; rw [hD, hC]; omega

/-- C04: `convert_julian` of the Julian day of a Gregorian date (from 1582-10-15
on) and time of day returns exactly that date and time. -/
theorem convertJulian_inverse (y m d h mi : ℤ) (s : ℚ) (hv : Valid y m d)
    (hg : -100840 ≤ dayNumber y m d)
    (hh : 0 ≤ h ∧ h ≤ 23) (hm : 0 ≤ mi ∧ mi ≤ 59) (hs : 0 ≤ s ∧ s < 60) :
    convertJulian (dayNumber y m d + (h / 24 + mi / 1440 + s / 86400 : ℚ) + 2400000.5) =
      ⟨y, m, d, h, mi, s⟩ := by
  set JD : ℚ := dayNumber y m d + (h / 24 + mi / 1440 + s / 86400 : ℚ) + 2400000.5 with hJD
  obtain ⟨hh0, hh1⟩ := hh
  obtain ⟨hm0, hm1⟩ := hm
  obtain ⟨hs0, hs1⟩ := hs
  have qh0 : (0:ℚ) ≤ h := by exact_mod_cast hh0
  have qh1 : (h:ℚ) ≤ 23 := by exact_mod_cast hh1
  have qm0 : (0:ℚ) ≤ mi := by exact_mod_cast hm0
  have qm1 : (mi:ℚ) ≤ 59 := by exact_mod_cast hm1
  have hfl : ⌊JD + 0.5⌋ = dayNumber y m d + 2400001 := by
    rw [Int.floor_eq_iff, hJD]; push_cast; constructor <;> linarith
  obtain ⟨ed, em, ey⟩ := convertJulian_date JD
  obtain ⟨th, tm, ts⟩ := convertJulian_time JD
  obtain ⟨cD, cE⟩ := julian_core y m d hv hg
  have hf : JD + 0.5 - ⌊JD + 0.5⌋ = (h / 24 + mi / 1440 + s / 86400 : ℚ) := by
    rw [hfl, hJD]; push_cast; ring
  rw [hf] at th tm ts
  have eh : (convertJulian JD).hour = h := by
    rw [th, Int.floor_eq_iff]; constructor <;> linarith
  rw [eh] at tm ts
  have emi : (convertJulian JD).minute = mi := by
    rw [tm, Int.floor_eq_iff]; constructor <;> linarith
  rw [emi] at ts
  have es : (convertJulian JD).second = s := by rw [ts]; ring
  rw [hfl] at ed em ey
  rw [cE] at ed em
  rw [cD] at ey
  have hmonth : (convertJulian JD).month = m := by
    rw [em, marchDay_F y m d hv]
    obtain ⟨h1, h2, h3, h4⟩ := hv
    clear ed ey em cD cE h4
    split_ifs <;> omega
  have hday : (convertJulian JD).day = d := by
    rw [ed, marchDay_F y m d hv]
    obtain ⟨h1, h2, h3, h4⟩ := hv
    clear ed ey em cD cE hmonth h4
    unfold marchDay
    interval_cases m <;> simp <;> omega
  have hyear : (convertJulian JD).year = y := by
    rw [ey, hmonth]
    obtain ⟨h1, h2, h3, h4⟩ := hv
    unfold marchYear; split_ifs <;> omega
  generalize convertJulian JD = r at *
  cases r
  simp_all

/-- C04: the conversion to Modified Julian Days followed by `convert_julian` is
the identity on every date from 1582-10-15 on outside the skewed months. -/
theorem calendar_julian_roundtrip (y m d h mi : ℤ) (s : ℚ) (hv : Valid y m d)
    (hg : -100840 ≤ dayNumber y m d) (hk : ¬ Skewed y m)
    (hh : 0 ≤ h ∧ h ≤ 23) (hm : 0 ≤ mi ∧ mi ≤ 59) (hs : 0 ≤ s ∧ s < 60) :
    convertJulian (convertCalendarDates y m d h mi s 0 + 2400000.5) = ⟨y, m, d, h, mi, s⟩ := by
  rw [mjd_spec y m d h mi s hv.1 hv.2.1, if_neg hk]
  have := convertJulian_inverse y m d h mi s hv hg hh hm hs
  rw [← this]; congr 1; ring

/-- Every day number from 1582-10-15 on is the number of a calendar date. -/
theorem dayNumber_surj (n : ℤ) (hn : -100840 ≤ n) : ∃ y m d, Valid y m d ∧ dayNumber y m d = n := by
  induction n, hn using Int.leInduction with
  | base => exact ⟨1582, 10, 15, by decide, by decide⟩
  | succ n _ ih =>
    obtain ⟨y, m, d, hv, hd⟩ := ih
    obtain ⟨a, b⟩ := dayNumber_next y m d hv
    exact ⟨_, _, _, a, by rw [b, hd]⟩

/-- C04: conversely, for every Julian day from 1582-10-15 on the returned date is a
valid Gregorian date whose Julian day is the argument; so distinct Julian days
have distinct dates. -/
theorem convertJulian_right_inverse (JD : ℚ) (hJ : 2299160.5 ≤ JD) :
    let r := convertJulian JD
    Valid r.year r.month r.day ∧
    dayNumber r.year r.month r.day + (r.hour / 24 + r.minute / 1440 + r.second / 86400 : ℚ)
      + 2400000.5 = JD := by
  intro r
  have hn : (2299161 : ℤ) ≤ ⌊JD + 0.5⌋ := Int.le_floor.2 (by push_cast; norm_num at hJ ⊢; linarith)
  obtain ⟨y, m, d, hv, hd⟩ := dayNumber_surj (⌊JD + 0.5⌋ - 2400001) (by omega)
  obtain ⟨-, -, -, -, h0, h1, m0, m1, s0, s1, hsum⟩ := convertJulian_ranges JD
  have key := convertJulian_inverse y m d r.hour r.minute r.second hv (by omega)
    ⟨h0, h1⟩ ⟨m0, m1⟩ ⟨s0, s1⟩
  have harg : (dayNumber y m d : ℚ) + (r.hour / 24 + r.minute / 1440 + r.second / 86400 : ℚ)
      + 2400000.5 = JD := by
    rw [hd, hsum]; push_cast; ring
  rw [harg] at key
  have e1 : r.year = y := congrArg CalDate.year key
  have e2 : r.month = m := congrArg CalDate.month key
  have e3 : r.day = d := congrArg CalDate.day key
  rw [e1, e2, e3]
  exact ⟨hv, harg⟩

/-- C04: `convert_julian` is injective from 1582-10-15 on. -/
theorem convertJulian_injective (J K : ℚ) (hJ : 2299160.5 ≤ J) (hK : 2299160.5 ≤ K)
    (h : convertJulian J = convertJulian K) : J = K := by
  have a := (convertJulian_right_inverse J hJ).2
  have b := (convertJulian_right_inverse K hK).2
  rw [h] at a
  linarith

-- hypotheses are met by e.g. 1582-10-15 and 2000-02-29, 23:59:59.5
example : Valid 1582 10 15 ∧ -100840 ≤ dayNumber 1582 10 15 ∧ ¬ Skewed 1582 10 := by decide
example : convertJulian (convertCalendarDates 2000 2 29 23 59 (119/2) 0 + 2400000.5) =
    ⟨2000, 2, 29, 23, 59, 119/2⟩ := by decide +kernel

/-! ## C06 -/

/-- C06: `calendar_to_julian(y + f)` is one day less than the Julian day of
1 January of year `y` plus `f` times the length of the year. -/
theorem calendarToJulian_one_day_early (y : ℤ) (f : ℚ) (h0 : 0 ≤ f) (h1 : f < 1)
    (h4 : y % 4000 ≠ 0) :
    calendarToJulian (y + f) =
      some (dayNumber y 1 1 + 2400000.5 + f * yearLen y - 1) := by
  obtain ⟨dpm, e1, -, -, -, e2, -⟩ := calendarDays_spec y
  have hfl : ⌊(y : ℚ) + f⌋ = y := by
    rw [Int.floor_eq_iff]; constructor <;> linarith
  unfold calendarToJulian
  simp only [hfl, e1, Option.map_some, e2 h4, Option.some.injEq]
  have f1 : ⌊7 * (y : ℚ) / 4⌋ = 7 * y / 4 := floor_eq_div _ _ _ (by norm_num) (by push_cast; rfl)
  have f2 : ⌊(7 * (y : ℚ) - 1) / 700⌋ = (7 * y - 1) / 700 :=
    floor_eq_div _ _ _ (by norm_num) (by push_cast; rfl)
  have f3 : ⌊3 * (((7 * y - 1) / 700 : ℤ) + 1 : ℚ) / 4⌋ = 3 * ((7 * y - 1) / 700 + 1) / 4 :=
    floor_eq_div _ _ _ (by norm_num) (by push_cast; rfl)
  rw [f1, f2, f3]
  have key : 367 * y - 7 * y / 4 - 3 * ((7 * y - 1) / 700 + 1) / 4 + 1721058 =
      dayNumber y 1 1 + 2399999 := by
    obtain ⟨a, b, c, d, rfl, hb, hb', hc, hc', hd, hd'⟩ := year_decomp y
    have g4 : (400 * a + 100 * b + 4 * c + d + 1 - 1) / 4 = 100 * a + 25 * b + c := by omega
    have g100 : (400 * a + 100 * b + 4 * c + d + 1 - 1) / 100 = 4 * a + b := by omega
    have g400 : (400 * a + 100 * b + 4 * c + d + 1 - 1) / 400 = a := by omega
    have gc : (7 * (400 * a + 100 * b + 4 * c + d + 1) - 1) / 700 = 4 * a + b := by omega
    unfold dayNumber daysBefore
    rw [g4, g100, g400, gc]
    simp
    interval_cases b <;> interval_cases d <;> omega
  have keyq : (367 * (y:ℚ) - ((7 * y / 4 : ℤ) : ℚ) - ((3 * ((7 * y - 1) / 700 + 1) / 4 : ℤ) : ℚ)
      + 1721058) = dayNumber y 1 1 + 2399999 := by exact_mod_cast key
  have e3 : (y : ℚ) + f - y = f := by ring
  rw [e3]
  linear_combination keyq

/-- C06: the chain `calendar_to_julian` -> `convert_julian` applied to midnight of
the `n`-th day (n ≥ 1, zero based) of a year returns the date of the day before. -/
theorem calendar_chain_previous_day (y m d n : ℤ) (h4 : y % 4000 ≠ 0) (hv : Valid y m d)
    (hn : dayNumber y m d = dayNumber y 1 1 + n - 1) (hn1 : 0 ≤ n) (hn2 : n < yearLen y)
    (hg : -100840 ≤ dayNumber y m d) :
    (calendarToJulian (y + n / yearLen y)).map convertJulian = some ⟨y, m, d, 0, 0, 0⟩ := by
  have hl : (0:ℚ) < yearLen y := by unfold yearLen; split_ifs <;> norm_num
  have q1 : (0:ℚ) ≤ n := by exact_mod_cast hn1
  have q2 : (n:ℚ) < yearLen y := by exact_mod_cast hn2
  rw [calendarToJulian_one_day_early y _ (by positivity) (by rw [div_lt_one hl]; exact q2) h4]
  have := convertJulian_inverse y m d 0 0 0 hv hg (by norm_num) (by norm_num) (by norm_num)
  rw [Option.map_some, ← this]
  congr 2
  rw [hn]; push_cast; field_simp; ring

-- calendar_to_julian(2000.0) is 2451543.5 (1999-12-31); 1 January 2000 is 2451544.5
example : calendarToJulian 2000 = some 2451543.5 := by decide +kernel
example : (2000:ℤ) % 4000 ≠ 0 ∧ Valid 2000 1 14 ∧ dayNumber 2000 1 14 = dayNumber 2000 1 1 + 14 - 1 ∧
  14 < yearLen 2000 ∧ -100840 ≤ dayNumber 2000 1 14 := by decide

end Verif.Time
