import Verif.Time.Model
import Verif.Time.Spec
import Mathlib.Tactic.Linarith
import Mathlib.Tactic.Ring
import Mathlib.Tactic.NormNum
import Mathlib.Tactic.FieldSimp
import Mathlib.Tactic.IntervalCases

/-!
# Calendar theorems: C01, C02, C03
-/
namespace Verif.Time
open Spec

/-! ## floor of a quotient of integers -/

theorem floor_eq_div (x : ℚ) (a b : ℤ) (hb : 0 < b) (h : x = a / b) : ⌊x⌋ = a / b := by
  subst h
  obtain ⟨n, rfl⟩ := Int.eq_ofNat_of_zero_le hb.le
  exact_mod_cast Rat.floor_intCast_div_natCast a n

/-! ## C01 GRACE months -/

theorem calendarToGrace_int (y m : ℤ) : calendarToGrace y m = 12 * (y - 2002) + m := by
  unfold calendarToGrace
  have : (12 * ((y : ℚ) - 2002)) = ((12 * (y - 2002) : ℤ) : ℚ) := by push_cast; ring
  rw [this, Int.floor_intCast]

/-- C01: calendar -> GRACE -> calendar is the identity. -/
theorem grace_calendar_roundtrip (y m : ℤ) (h1 : 1 ≤ m) (h2 : m ≤ 12) :
    graceToCalendar (calendarToGrace y m) = (y, m) := by
  rw [calendarToGrace_int]; unfold graceToCalendar
  ext <;> simp only <;> omega

/-- C01: GRACE -> calendar -> GRACE is the identity, for every integer month,
and the calendar month is in 1..12. -/
theorem calendar_grace_roundtrip (g : ℤ) :
    calendarToGrace (graceToCalendar g).1 (graceToCalendar g).2 = g ∧
    1 ≤ (graceToCalendar g).2 ∧ (graceToCalendar g).2 ≤ 12 := by
  rw [calendarToGrace_int]; unfold graceToCalendar
  refine ⟨?_, ?_, ?_⟩ <;> simp only <;> omega

/-- C01: the GRACE month of a date is larger iff the calendar month is later,
and the following calendar month has the following number. -/
theorem grace_month_order (y m y' m' : ℤ) (h1 : 1 ≤ m) (h2 : m ≤ 12) (h1' : 1 ≤ m')
    (h2' : m' ≤ 12) :
    (calendarToGrace y m < calendarToGrace y' m' ↔ (y < y' ∨ (y = y' ∧ m < m'))) ∧
    (calendarToGrace y' m' = calendarToGrace y m + 1 ↔
      (y', m') = if m < 12 then (y, m + 1) else (y + 1, 1)) := by
  simp only [calendarToGrace_int]
  refine ⟨by omega, ?_⟩
  split <;> simp only [Prod.mk.injEq] <;> omega

/-- C01: a decimal year `y + f` (0 ≤ f < 1) is assigned to the month of year `y`
whose twelfth of the year contains `f`. -/
theorem grace_month_decimal (y : ℤ) (f : ℚ) (h0 : 0 ≤ f) (h1 : f < 1) :
    ∃ k : ℤ, 1 ≤ k ∧ k ≤ 12 ∧ ((k : ℚ) - 1) / 12 ≤ f ∧ f < k / 12 ∧
      calendarToGrace (y + f) = calendarToGrace y k ∧
      graceToCalendar (calendarToGrace (y + f)) = (y, k) := by
  have hf : calendarToGrace (y + f) = calendarToGrace y (⌊12 * f⌋ + 1) := by
    rw [calendarToGrace_int]; unfold calendarToGrace
    have : (12 * ((y : ℚ) + f - 2002)) = 12 * f + ((12 * (y - 2002) : ℤ) : ℚ) := by
      push_cast; ring
    rw [this, Int.floor_add_intCast]; ring
  have l1 : (0:ℤ) ≤ ⌊12 * f⌋ := Int.floor_nonneg.2 (by linarith)
  have l2 : ⌊12 * f⌋ < 12 := Int.floor_lt.2 (by push_cast; linarith)
  refine ⟨⌊12 * f⌋ + 1, by omega, by omega, ?_, ?_, hf, ?_⟩
  · have := Int.floor_le (12 * f); push_cast; linarith
  · have := Int.lt_floor_add_one (12 * f); push_cast; linarith
  · rw [hf]; exact grace_calendar_roundtrip _ _ (by omega) (by omega)

-- concrete cases: April 2002 is month 4, December 2001 is month 0
example : calendarToGrace 2002 4 = 4 := by
  have := calendarToGrace_int 2002 4; simpa using this
example : graceToCalendar 0 = (2001, 12) := by decide
example : graceToCalendar (-25) = (1999, 11) := by decide

/-! ## C02 calendar_days -/

/-- C02: exactly one of the two conditions holds, for every integer year. -/
theorem leap_stnd_exclusive (y : ℤ) : leapCond y = !stndCond y := by
  unfold leapCond stndCond
  rw [Bool.eq_iff_iff]
  simp only [Bool.or_eq_true, Bool.and_eq_true, decide_eq_true_eq, Bool.not_eq_true',
    Bool.or_eq_false_iff, Bool.and_eq_false_iff, decide_eq_false_iff_not, ne_eq, Decidable.not_not]
  omega

/-- The code's leap condition is the Gregorian one except in multiples of 4000. -/
theorem leapCond_iff (y : ℤ) : leapCond y = true ↔ (gregLeap y ∧ y % 4000 ≠ 0) := by
  unfold leapCond gregLeap
  simp only [Bool.or_eq_true, Bool.and_eq_true, decide_eq_true_eq]
  omega

/-- C02: `calendar_days` never returns `None`; its `i`-th entry is the Gregorian
length of month `i+1` unless the year is a multiple of 4000, in which case the
standard-year table is returned. -/
theorem calendarDays_spec (y : ℤ) :
    ∃ dpm, calendarDays y = some dpm ∧ dpm.length = 12 ∧
      (∀ m : ℤ, 1 ≤ m → m ≤ 12 → y % 4000 ≠ 0 →
        dpm[(m - 1).toNat]? = some (monthLen y m : ℚ)) ∧
      (y % 4000 = 0 → dpm = dpmStnd) ∧
      (y % 4000 ≠ 0 → dpm.sum = (yearLen y : ℚ)) ∧ (dpm.sum = 365 ∨ dpm.sum = 366) := by
  have hs := leap_stnd_exclusive y
  have hl := leapCond_iff y
  unfold calendarDays
  by_cases h : leapCond y = true
  · have hg := hl.1 h
    refine ⟨dpmLeap, by simp [h], by decide, ?_, ?_, ?_, ?_⟩
    · intro m h1 h2 _
      unfold monthLen
      interval_cases m <;> simp [dpmLeap, hg.1]
    · intro h0; exact absurd h0 hg.2
    · intro _; unfold yearLen; rw [if_pos hg.1]; decide +kernel
    · right; decide +kernel
  · have h' : stndCond y = true := by
      rcases hb : stndCond y with _ | _
      · simp [hb] at hs; exact absurd hs h
      · rfl
    refine ⟨dpmStnd, by simp [h, h'], by decide, ?_, fun _ => rfl, ?_, ?_⟩
    · intro m h1 h2 h4
      have hg : ¬ gregLeap y := fun hg => h (hl.2 ⟨hg, h4⟩)
      unfold monthLen
      interval_cases m <;> simp [dpmStnd, hg]
    · intro h4
      have hg : ¬ gregLeap y := fun hg => h (hl.2 ⟨hg, h4⟩)
      unfold yearLen; rw [if_neg hg]; decide +kernel
    · left; decide +kernel

/-- C02 (deviation): in year 4000k the code has a standard year, the Gregorian
calendar a leap year. -/
theorem calendarDays_4000 (k : ℤ) :
    calendarDays (4000 * k) = some dpmStnd ∧ gregLeap (4000 * k) := by
  obtain ⟨d, h1, -, -, h2, -⟩ := calendarDays_spec (4000 * k)
  refine ⟨by rw [h1, h2 (by omega)], Or.inr (by omega)⟩

example : calendarDays 2000 = some dpmLeap ∧ calendarDays 1900 = some dpmStnd := by decide +kernel

/-! ## The specification's day number -/

/-- 1858-11-17 is day 0. -/
theorem dayNumber_epoch : dayNumber 1858 11 17 = 0 := by decide

/-- The following calendar day is valid and has the following number. -/
theorem dayNumber_next (y m d : ℤ) (h : Valid y m d) :
    let n := nextDay y m d
    Valid n.1 n.2.1 n.2.2 ∧ dayNumber n.1 n.2.1 n.2.2 = dayNumber y m d + 1 := by
  obtain ⟨h1, h2, h3, h4⟩ := h
  simp only [nextDay]
  by_cases hlt : d < monthLen y m
  · simp only [hlt, if_true]
    refine ⟨⟨h1, h2, by omega, by omega⟩, ?_⟩
    unfold dayNumber; omega
  · simp only [hlt, if_false]
    have hd : d = monthLen y m := by omega
    subst hd
    by_cases hm : m < 12
    · simp only [hm, if_true]
      refine ⟨⟨by omega, by omega, by omega, ?_⟩, ?_⟩
      · unfold monthLen; split_ifs <;> omega
      · unfold dayNumber daysBefore monthLen gregLeap
        interval_cases m <;> simp <;> (try split_ifs) <;> omega
    · simp only [hm, if_false]
      have hm : m = 12 := by omega
      subst hm
      refine ⟨by unfold Valid monthLen; simp, ?_⟩
      unfold dayNumber daysBefore monthLen gregLeap
      simp; split_ifs <;> omega

/-! ## C03 convert_calendar_dates -/

/-- The dates on which the day count of the code is one too large: January of a
year 100k+1 and March to August of a year 100k, with 4 not dividing k. -/
def Skewed (y m : ℤ) : Prop :=
  ((m = 1 ∧ y % 100 = 1) ∨ (3 ≤ m ∧ m ≤ 8 ∧ y % 100 = 0)) ∧ (y / 100) % 4 ≠ 0

instance (y m : ℤ) : Decidable (Skewed y m) := by unfold Skewed; infer_instance

theorem mjd_int (y m : ℤ) (d h mi s : ℚ) :
    mjd y m d h mi s = ((367 * y - 7 * (y + (m + 9) / 12) / 4
      - 3 * ((7 * y + m - 9) / 700 + 1) / 4 + 275 * m / 9 - 678972 : ℤ) : ℚ)
      + d + h / 24 + mi / 1440 + s / 86400 := by
  unfold mjd
  have e1 : ⌊((m : ℚ) + 9) / 12⌋ = (m + 9) / 12 :=
    floor_eq_div _ (m + 9) 12 (by norm_num) (by push_cast; ring)
  have e2 : ⌊7 * ((y : ℚ) + ((m + 9) / 12 : ℤ)) / 4⌋ = 7 * (y + (m + 9) / 12) / 4 :=
    floor_eq_div _ (7 * (y + (m + 9) / 12)) 4 (by norm_num) (by push_cast; ring)
  have e3 : ⌊((y : ℚ) + ((m : ℚ) - 9) / 7) / 100⌋ = (7 * y + m - 9) / 700 :=
    floor_eq_div _ (7 * y + m - 9) 700 (by norm_num) (by push_cast; ring)
  have e4 : ⌊3 * (((7 * y + m - 9) / 700 : ℤ) + 1 : ℚ) / 4⌋ = 3 * ((7 * y + m - 9) / 700 + 1) / 4 :=
    floor_eq_div _ (3 * ((7 * y + m - 9) / 700 + 1)) 4 (by norm_num) (by push_cast; ring)
  have e5 : ⌊275 * (m : ℚ) / 9⌋ = 275 * m / 9 :=
    floor_eq_div _ (275 * m) 9 (by norm_num) (by push_cast; ring)
  rw [e1, e2, e3, e4, e5]
  push_cast; ring

/-- Decomposition of a year in the 400-year cycle. -/
theorem year_decomp (y : ℤ) : ∃ a b c d : ℤ, y = 400 * a + 100 * b + 4 * c + d + 1 ∧
    0 ≤ b ∧ b ≤ 3 ∧ 0 ≤ c ∧ c ≤ 24 ∧ 0 ≤ d ∧ d ≤ 3 :=
  ⟨(y - 1) / 400, (y - 1) % 400 / 100, (y - 1) % 100 / 4, (y - 1) % 4,
    by omega, by omega, by omega, by omega, by omega, by omega, by omega⟩

/-- century term of the code -/
theorem century_term (a b c d m : ℤ) (hc : 0 ≤ c) (hc' : c ≤ 24)
    (hd : 0 ≤ d) (hd' : d ≤ 3) (h1 : 1 ≤ m) (h2 : m ≤ 12) :
    (7 * (400 * a + 100 * b + 4 * c + d + 1) + m - 9) / 700 = 4 * a + b +
      (if m = 1 ∧ c = 0 ∧ d = 0 then -1 else if 9 ≤ m ∧ c = 24 ∧ d = 3 then 1 else 0) := by
  split_ifs <;> omega

theorem mjd_core (y m : ℤ) (h1 : 1 ≤ m) (h2 : m ≤ 12) :
    367 * y - 7 * (y + (m + 9) / 12) / 4
      - 3 * ((7 * y + m - 9) / 700 + 1) / 4 + 275 * m / 9 - 678972 =
    dayNumber y m 0 + (if Skewed y m then 1 else 0) := by
  obtain ⟨a, b, c, d, rfl, hb, hb', hc, hc', hd, hd'⟩ := year_decomp y
  rw [century_term a b c d m hc hc' hd hd' h1 h2]
  have g4 : (400 * a + 100 * b + 4 * c + d + 1 - 1) / 4 = 100 * a + 25 * b + c := by omega
  have g100 : (400 * a + 100 * b + 4 * c + d + 1 - 1) / 100 = 4 * a + b := by omega
  have g400 : (400 * a + 100 * b + 4 * c + d + 1 - 1) / 400 = a := by omega
  have gl : gregLeap (400 * a + 100 * b + 4 * c + d + 1) ↔ (d = 3 ∧ (c ≠ 24 ∨ b = 3)) := by
    unfold gregLeap; omega
  have gs : Skewed (400 * a + 100 * b + 4 * c + d + 1) m ↔
      ((m = 1 ∧ c = 0 ∧ d = 0 ∧ b ≠ 0) ∨ (3 ≤ m ∧ m ≤ 8 ∧ c = 24 ∧ d = 3 ∧ b ≠ 3)) := by
    unfold Skewed; omega
  unfold dayNumber daysBefore
  rw [g4, g100, g400]
  simp only [gl, gs]
  generalize hA : (if m = 1 ∧ c = 0 ∧ d = 0 then (-1:ℤ)
    else if 9 ≤ m ∧ c = 24 ∧ d = 3 then 1 else 0) = A
  have e7 : 7 * (400 * a + 100 * b + 4 * c + d + 1 + (m + 9) / 12) / 4 =
     700 * a + 175 * b + 7 * c + 7 * (d + 1 + (m + 9) / 12) / 4 := by omega
  have e3 : 3 * (4 * a + b + A + 1) / 4 = 3 * a + 3 * (b + A + 1) / 4 := by omega
  rw [e7, e3]
  clear e7 e3 gl gs g4 g100 g400
  interval_cases m <;> interval_cases d <;> simp at hA ⊢ <;> (try split_ifs at hA ⊢) <;> omega

/-- C03: the Modified Julian Day of a calendar date is the number of days since
1858-11-17 plus the fraction of the day, except in the `Skewed` months where it
is one day too large. -/
theorem mjd_spec (y m d : ℤ) (h mi s : ℚ) (h1 : 1 ≤ m) (h2 : m ≤ 12) :
    convertCalendarDates y m d h mi s 0 =
      dayNumber y m d + (if Skewed y m then 1 else 0) + (h / 24 + mi / 1440 + s / 86400) := by
  unfold convertCalendarDates
  rw [mjd_int, mjd_core y m h1 h2]
  have : dayNumber y m d = dayNumber y m 0 + d := by unfold dayNumber; ring
  rw [this]; push_cast; split_ifs <;> ring

/-- C03: consecutive calendar days get consecutive numbers (same time of day)
when neither lies in a skewed month. -/
theorem convertCalendarDates_next (y m d : ℤ) (h mi s e : ℚ) (hv : Valid y m d)
    (hs : ¬ Skewed y m) (hs' : ¬ Skewed (nextDay y m d).1 (nextDay y m d).2.1) :
    convertCalendarDates (nextDay y m d).1 (nextDay y m d).2.1 (nextDay y m d).2.2 h mi s e =
      convertCalendarDates y m d h mi s e + 1 := by
  have hn := dayNumber_next y m d hv
  simp only at hn
  obtain ⟨hv', hn⟩ := hn
  have a := mjd_spec y m d h mi s hv.1 hv.2.1
  have b := mjd_spec (nextDay y m d).1 (nextDay y m d).2.1 (nextDay y m d).2.2 h mi s hv'.1 hv'.2.1
  rw [if_neg hs] at a
  rw [if_neg hs', hn] at b
  unfold convertCalendarDates at *
  push_cast at *
  linarith

/-- C03: the result is in `scale` units of a day since the output epoch:
if the epoch is the calendar date `(y0,m0,d0)` then, outside skewed months, the
value is the number of calendar days between the dates. -/
theorem convertCalendarDates_epoch (y m d y0 m0 d0 : ℤ) (scale : ℚ)
    (h1 : 1 ≤ m) (h2 : m ≤ 12) (hs : ¬ Skewed y m) :
    convertCalendarDates y m d 0 0 0 (dayNumber y0 m0 d0) scale =
      scale * (dayNumber y m d - dayNumber y0 m0 d0 : ℤ) := by
  have a := mjd_spec y m d 0 0 0 h1 h2
  rw [if_neg hs] at a
  unfold convertCalendarDates at *
  push_cast at *
  have : mjd y m d 0 0 0 = dayNumber y m d := by linarith
  rw [this]

/-- C03 (deviation): in every year 100k+1 with 4 not dividing k, 31 January and
1 February get the same number, and 31 December and 1 January differ by two. -/
theorem january_skew (k : ℤ) (hk : k % 4 ≠ 0) :
    convertCalendarDates (100 * k + 1 : ℤ) (1 : ℤ) (31 : ℤ) 0 0 0 0 =
      convertCalendarDates (100 * k + 1 : ℤ) (2 : ℤ) (1 : ℤ) 0 0 0 0 ∧
    convertCalendarDates (100 * k + 1 : ℤ) (1 : ℤ) (1 : ℤ) 0 0 0 0 =
      convertCalendarDates (100 * k : ℤ) (12 : ℤ) (31 : ℤ) 0 0 0 0 + 2 := by
  have s1 : Skewed (100 * k + 1) 1 := by unfold Skewed; omega
  have s2 : ¬ Skewed (100 * k + 1) 2 := by unfold Skewed; omega
  have s3 : ¬ Skewed (100 * k) 12 := by unfold Skewed; omega
  rw [mjd_spec _ _ _ _ _ _ (by norm_num) (by norm_num),
    mjd_spec _ _ _ _ _ _ (by norm_num) (by norm_num),
    mjd_spec _ _ _ _ _ _ (by norm_num) (by norm_num),
    mjd_spec _ _ _ _ _ _ (by norm_num) (by norm_num), if_pos s1, if_neg s2, if_neg s3]
  have e1 : dayNumber (100 * k + 1) 1 31 + 1 = dayNumber (100 * k + 1) 2 1 := by
    unfold dayNumber daysBefore; simp; omega
  have e2 : dayNumber (100 * k + 1) 1 1 = dayNumber (100 * k) 12 31 + 1 := by
    unfold dayNumber daysBefore gregLeap; simp; split_ifs <;> omega
  constructor
  · rw [← e1]; push_cast; ring
  · rw [e2]; push_cast; ring

/-- C03 (deviation): in every year 100k with 4 not dividing k the numbers from
1 March to 31 August are one too large, so 31 August and 1 September coincide. -/
theorem march_august_skew (k : ℤ) (hk : k % 4 ≠ 0) :
    convertCalendarDates (100 * k : ℤ) (8 : ℤ) (31 : ℤ) 0 0 0 0 =
      convertCalendarDates (100 * k : ℤ) (9 : ℤ) (1 : ℤ) 0 0 0 0 ∧
    convertCalendarDates (100 * k : ℤ) (3 : ℤ) (1 : ℤ) 0 0 0 0 =
      convertCalendarDates (100 * k : ℤ) (2 : ℤ) (28 : ℤ) 0 0 0 0 + 2 := by
  have s1 : Skewed (100 * k) 8 := by unfold Skewed; omega
  have s2 : ¬ Skewed (100 * k) 9 := by unfold Skewed; omega
  have s3 : Skewed (100 * k) 3 := by unfold Skewed; omega
  have s4 : ¬ Skewed (100 * k) 2 := by unfold Skewed; omega
  have gl : ¬ gregLeap (100 * k) := by unfold gregLeap; omega
  rw [mjd_spec _ _ _ _ _ _ (by norm_num) (by norm_num),
    mjd_spec _ _ _ _ _ _ (by norm_num) (by norm_num),
    mjd_spec _ _ _ _ _ _ (by norm_num) (by norm_num),
    mjd_spec _ _ _ _ _ _ (by norm_num) (by norm_num), if_pos s1, if_neg s2, if_pos s3, if_neg s4]
  have e1 : dayNumber (100 * k) 8 31 + 1 = dayNumber (100 * k) 9 1 := by
    unfold dayNumber daysBefore; simp [gl]; omega
  have e2 : dayNumber (100 * k) 3 1 = dayNumber (100 * k) 2 28 + 1 := by
    unfold dayNumber daysBefore; simp [gl]; omega
  constructor
  · rw [← e1]; push_cast; ring
  · rw [e2]; push_cast; ring

-- concrete: J2000 (2000-01-01) is MJD 51544; 1900-03-01 is 15079 but the code gives 15080
example : convertCalendarDates 2000 1 1 12 0 0 0 = 51544.5 := by decide +kernel
example : convertCalendarDates 1900 3 1 0 0 0 0 = 15080 ∧ dayNumber 1900 3 1 = 15079 := by
  decide +kernel
example : Valid 2024 2 29 ∧ ¬ Skewed 2024 2 ∧ ¬ Skewed (nextDay 2024 2 29).1 (nextDay 2024 2 29).2.1 := by
  decide

/-! ## rounding to the nearest month -/

/-- C01: with `around=np.round` the month number of a decimal year (default month 1) is an integer at
distance at most one half from `12 (year - 2002) + 1`; at exactly one half the even multiple of months is
taken -/
theorem calendarToGrace_round (year : ℚ) :
    |(calendarToGrace year 1 npRound : ℚ) - (12 * (year - 2002) + 1)| ≤ 1 / 2 ∧
    (|(calendarToGrace year 1 npRound : ℚ) - (12 * (year - 2002) + 1)| = 1 / 2 →
      (calendarToGrace year 1 npRound - 1) % 2 = 0) := by
  unfold calendarToGrace
  generalize 12 * (year - 2002) = x
  have h1 := Int.floor_le x
  have h2 := Int.lt_floor_add_one x
  unfold npRound
  push_cast
  split_ifs with a b c
  · refine ⟨by rw [abs_le]; constructor <;> linarith, fun e => ?_⟩
    rw [abs_of_nonpos (by linarith)] at e; linarith
  · push_cast
    refine ⟨by rw [abs_le]; constructor <;> linarith, fun e => ?_⟩
    rw [abs_of_nonneg (by linarith)] at e; linarith
  · refine ⟨by rw [abs_le]; constructor <;> linarith, fun _ => by omega⟩
  · push_cast
    refine ⟨by rw [abs_le]; constructor <;> linarith, fun _ => by omega⟩

/-- a tie: 2002 plus one 24th of a year is half-way between months 1 and 2 -/
example : calendarToGrace (2002 + 1 / 24) 1 npRound = 1 ∧ calendarToGrace (2002 + 3 / 24) 1 npRound = 3 := by
  decide +kernel

end Verif.Time
