import Verif.Time.Calendar
import Mathlib.Tactic.Positivity
import Mathlib.Tactic.LinearCombination

/-!
# C05: `convert_calendar_decimal`;  C09: `convert_delta_time`
-/
namespace Verif.Time
open Spec

theorem daysBeforeMonth_leap (m : ℤ) (h1 : 1 ≤ m) (h2 : m ≤ 12) (y : ℤ) (hy : gregLeap y) :
    daysBeforeMonth dpmLeap (m - 1) = some (daysBefore y m : ℚ) := by
  unfold daysBefore
  simp only [hy, and_true]
  interval_cases m <;> decide +kernel

theorem daysBeforeMonth_stnd (m : ℤ) (h1 : 1 ≤ m) (h2 : m ≤ 12) (y : ℤ) (hy : ¬ gregLeap y) :
    daysBeforeMonth dpmStnd (m - 1) = some (daysBefore y m : ℚ) := by
  unfold daysBefore
  simp only [hy, and_false, if_false]
  interval_cases m <;> decide +kernel

theorem sumLeap : dpmLeap.sum = 366 := by decide +kernel
theorem sumStnd : dpmStnd.sum = 365 := by decide +kernel

theorem leap_cases (y : ℤ) (h4 : y % 4000 ≠ 0) :
    (gregLeap y ∧ leapCond y = true ∧ stndCond y = false) ∨
    (¬ gregLeap y ∧ leapCond y = false ∧ stndCond y = true) := by
  have a := leapCond_iff y
  have b := leap_stnd_exclusive y
  by_cases h : gregLeap y
  · left; have hl := a.2 ⟨h, h4⟩
    refine ⟨h, hl, ?_⟩
    rw [hl] at b; clear a; cases hs : stndCond y <;> rw [hs] at b <;> simp at b ⊢
  · right
    have hl : leapCond y = false := by
      cases hl : leapCond y
      · rfl
      · exact absurd (a.1 hl).1 h
    refine ⟨h, hl, ?_⟩
    rw [hl] at b; clear a; cases hs : stndCond y <;> rw [hs] at b <;> simp at b ⊢

/-- C05: the decimal year of a calendar date is the year plus the time elapsed
since 1 January divided by the length of the year. -/
theorem decimal_of_date (y m d : ℤ) (h mi s : ℚ) (h4 : y % 4000 ≠ 0) (h1 : 1 ≤ m) (h2 : m ≤ 12) :
    convertCalendarDecimal y m (day := some (d : ℚ)) (hour := some h) (minute := some mi)
      (second := some s) =
    some (y + ((dayNumber y m d - dayNumber y 1 1 : ℤ) + (h / 24 + mi / 1440 + s / 86400)) / yearLen y) := by
  have e : dayNumber y m d - dayNumber y 1 1 = daysBefore y m + d - 1 := by
    unfold dayNumber; simp [daysBefore]; ring
  rw [e]
  rcases leap_cases y h4 with ⟨a, b, c⟩ | ⟨a, b, c⟩
  · unfold convertCalendarDecimal yearLen
    simp [b, c, daysBeforeMonth_leap m h1 h2 y a, sumLeap, a]
    ring
  · unfold convertCalendarDecimal yearLen
    simp [b, c, daysBeforeMonth_stnd m h1 h2 y a, sumStnd, a]
    ring

/-- C05: passing the day of the year (1 January = 1) gives the same value; the
month argument is then ignored. -/
theorem decimal_of_dofy (y m m' d : ℤ) (h mi s : ℚ) (h4 : y % 4000 ≠ 0) (h1 : 1 ≤ m) (h2 : m ≤ 12) :
    convertCalendarDecimal y m' (hour := some h) (minute := some mi) (second := some s)
      (dofy := some ((dayNumber y m d - dayNumber y 1 1 + 1 : ℤ) : ℚ)) =
    convertCalendarDecimal y m (day := some (d : ℚ)) (hour := some h) (minute := some mi)
      (second := some s) := by
  rw [decimal_of_date y m d h mi s h4 h1 h2]
  rcases leap_cases y h4 with ⟨a, b, c⟩ | ⟨a, b, c⟩
  · unfold convertCalendarDecimal yearLen
    simp [b, c, sumLeap, a]; ring
  · unfold convertCalendarDecimal yearLen
    simp [c, sumStnd, a]; ring

theorem dayOfYear_range (y m d : ℤ) (hv : Valid y m d) :
    0 ≤ dayNumber y m d - dayNumber y 1 1 ∧ dayNumber y m d - dayNumber y 1 1 + 1 ≤ yearLen y := by
  obtain ⟨h1, h2, h3, h4⟩ := hv
  unfold monthLen at h4
  unfold dayNumber daysBefore yearLen
  by_cases hl : gregLeap y
  · interval_cases m <;> simp [hl] at h4 ⊢ <;> omega
  · interval_cases m <;> simp [hl] at h4 ⊢ <;> omega

/-- C05: the decimal year lies in `[year, year+1)`. -/
theorem decimal_range (y m d : ℤ) (h mi s : ℚ) (h4 : y % 4000 ≠ 0) (hv : Valid y m d)
    (hh : 0 ≤ h ∧ h ≤ 23) (hm : 0 ≤ mi ∧ mi ≤ 59) (hs : 0 ≤ s ∧ s < 60) :
    ∃ t, convertCalendarDecimal y m (day := some (d : ℚ)) (hour := some h) (minute := some mi)
      (second := some s) = some t ∧ (y : ℚ) ≤ t ∧ t < y + 1 := by
  refine ⟨_, decimal_of_date y m d h mi s h4 hv.1 hv.2.1, ?_, ?_⟩
  · obtain ⟨r0, -⟩ := dayOfYear_range y m d hv
    have : (0:ℚ) ≤ (dayNumber y m d - dayNumber y 1 1 : ℤ) := by exact_mod_cast r0
    have hl : (0:ℚ) < yearLen y := by unfold yearLen; split_ifs <;> norm_num
    have : 0 ≤ ((dayNumber y m d - dayNumber y 1 1 : ℤ) + (h / 24 + mi / 1440 + s / 86400)) / (yearLen y : ℚ) := by
      apply div_nonneg _ hl.le
      obtain ⟨a, _⟩ := hh; obtain ⟨b, _⟩ := hm; obtain ⟨c, _⟩ := hs
      linarith
    linarith
  · obtain ⟨-, r1⟩ := dayOfYear_range y m d hv
    have hl : (0:ℚ) < yearLen y := by unfold yearLen; split_ifs <;> norm_num
    have q : ((dayNumber y m d - dayNumber y 1 1 : ℤ) : ℚ) + 1 ≤ yearLen y := by exact_mod_cast r1
    have : ((dayNumber y m d - dayNumber y 1 1 : ℤ) + (h / 24 + mi / 1440 + s / 86400)) / (yearLen y : ℚ) < 1 := by
      rw [div_lt_one hl]; linarith [hh.2, hm.2, hs.2]
    linarith

theorem dayNumber_mono (y m d m' d' : ℤ) (hv : Valid y m d) (hv' : Valid y m' d')
    (hb : m < m' ∨ (m = m' ∧ d < d')) : dayNumber y m d < dayNumber y m' d' := by
  rcases hb with hb | ⟨rfl, hb⟩
  · obtain ⟨h1, h2, h3, h4⟩ := hv
    obtain ⟨h1', h2', h3', h4'⟩ := hv'
    have key : daysBefore y m + monthLen y m ≤ daysBefore y m' := by
      clear h4 h4'
      unfold monthLen daysBefore
      by_cases hl : gregLeap y
      · interval_cases m <;> interval_cases m' <;> simp_all
      · interval_cases m <;> interval_cases m' <;> simp_all
    unfold dayNumber; omega
  · unfold dayNumber; omega

/-- C05: the decimal year is strictly increasing in the date and time. -/
theorem decimal_strictMono (y m d y' m' d' : ℤ) (h mi s h' mi' s' : ℚ)
    (h4 : y % 4000 ≠ 0) (h4' : y' % 4000 ≠ 0) (hv : Valid y m d) (hv' : Valid y' m' d')
    (hh : 0 ≤ h ∧ h ≤ 23) (hm : 0 ≤ mi ∧ mi ≤ 59) (hs : 0 ≤ s ∧ s < 60)
    (hh' : 0 ≤ h' ∧ h' ≤ 23) (hm' : 0 ≤ mi' ∧ mi' ≤ 59) (hs' : 0 ≤ s' ∧ s' < 60)
    (hlt : Before y m d y' m' d' ∨
      ((y, m, d) = (y', m', d') ∧ 3600 * h + 60 * mi + s < 3600 * h' + 60 * mi' + s')) :
    ∃ t t', convertCalendarDecimal y m (day := some (d : ℚ)) (hour := some h) (minute := some mi)
        (second := some s) = some t ∧
      convertCalendarDecimal y' m' (day := some (d' : ℚ)) (hour := some h') (minute := some mi')
        (second := some s') = some t' ∧ t < t' := by
  obtain ⟨t, ht, t0, t1⟩ := decimal_range y m d h mi s h4 hv hh hm hs
  obtain ⟨t', ht', t0', t1'⟩ := decimal_range y' m' d' h' mi' s' h4' hv' hh' hm' hs'
  refine ⟨t, t', ht, ht', ?_⟩
  by_cases hy : y < y'
  · have : ((y : ℚ) + 1) ≤ y' := by exact_mod_cast hy
    linarith
  · have hyy : y = y' := by
      rcases hlt with hb | ⟨he, _⟩
      · unfold Before at hb; omega
      · exact congrArg Prod.fst he
    subst hyy
    rw [decimal_of_date y m d h mi s h4 hv.1 hv.2.1] at ht
    rw [decimal_of_date y m' d' h' mi' s' h4 hv'.1 hv'.2.1] at ht'
    simp only [Option.some.injEq] at ht ht'
    rw [← ht, ← ht']
    have hl : (0:ℚ) < yearLen y := by unfold yearLen; split_ifs <;> norm_num
    apply add_lt_add_right
    rw [div_lt_div_iff_of_pos_right hl]
    rcases hlt with hb | ⟨he, hlt⟩
    · have hb' : m < m' ∨ (m = m' ∧ d < d') := by unfold Before at hb; omega
      have := dayNumber_mono y m d m' d' hv hv' hb'
      have q : ((dayNumber y m d - dayNumber y 1 1 : ℤ) : ℚ) + 1 ≤
          ((dayNumber y m' d' - dayNumber y 1 1 : ℤ) : ℚ) := by exact_mod_cast (by omega)
      linarith [hh.2, hm.2, hs.2, hh'.1, hm'.1, hs'.1]
    · simp only [Prod.mk.injEq, true_and] at he
      obtain ⟨rfl, rfl⟩ := he
      linarith

/-- C05: without a day the value is the middle of the month. -/
theorem decimal_mid_month (y m : ℤ) (h4 : y % 4000 ≠ 0) (h1 : 1 ≤ m) (h2 : m ≤ 12) :
    convertCalendarDecimal y m =
      some (y + ((dayNumber y m 1 - dayNumber y 1 1 : ℤ) + (monthLen y m : ℚ) / 2) / yearLen y) := by
  have e : dayNumber y m 1 - dayNumber y 1 1 = daysBefore y m := by
    unfold dayNumber; simp [daysBefore]
  rw [e]
  rcases leap_cases y h4 with ⟨a, b, c⟩ | ⟨a, b, c⟩
  · have hp : pyIdx dpmLeap (m - 1) = some (monthLen y m : ℚ) := by
      unfold monthLen; simp only [a, if_true]
      interval_cases m <;> decide +kernel
    unfold convertCalendarDecimal yearLen
    simp [b, c, daysBeforeMonth_leap m h1 h2 y a, sumLeap, a, hp]
    ring
  · have hp : pyIdx dpmStnd (m - 1) = some (monthLen y m : ℚ) := by
      unfold monthLen; simp only [a, if_false]
      interval_cases m <;> decide +kernel
    unfold convertCalendarDecimal yearLen
    simp [b, c, daysBeforeMonth_stnd m h1 h2 y a, sumStnd, a, hp]
    ring

-- hypotheses are met: 29 February 2004, noon
example : convertCalendarDecimal 2004 2 (day := some 29) (hour := some 12) (minute := some 0)
   (second := some 0) = some (2004 + 59.5 / 366) := by decide +kernel
example : Valid 2004 2 29 ∧ Valid 2004 3 1 ∧ Before 2004 2 29 2004 3 1 ∧ (2004:ℤ) % 4000 ≠ 0 := by
  unfold Before; decide

/-! ## C09 -/

/-- C09: conversions between epochs compose. -/
theorem deltaTime_comp (t e1 e2 e3 : ℚ) :
    convertDeltaTime (convertDeltaTime t e1 e2) e2 e3 = convertDeltaTime t e1 e3 := by
  unfold convertDeltaTime; ring

/-- C09: there and back is the identity, also with reciprocal scales. -/
theorem deltaTime_inverse (t e1 e2 c : ℚ) (hc : c ≠ 0) :
    convertDeltaTime (convertDeltaTime t e1 e2 c / c) e2 e1 = t := by
  unfold convertDeltaTime; field_simp; ring

/-- C09: seconds since `epoch1` of an instant become seconds since `epoch2` of the
same instant. -/
theorem deltaTime_same_instant (x e1 e2 c : ℚ) :
    convertDeltaTime (convertDatetime x e1) e1 e2 c = c * convertDatetime x e2 := by
  unfold convertDeltaTime convertDatetime; ring

example : convertDeltaTime 1514764800 0 1514764800 = 0 := by decide +kernel

end Verif.Time
