import Verif.Gfc.Props

/-!
# C87: files of month 0
-/
namespace Verif.Gfc
open Verif.Names Verif.Time Verif.Time.Spec Verif.Dates

/-- **C87** (deviation) a name with month `00` is not refused: `parse_gfc_file` gives month 0 with 31 days, and `grace_date` counts
these days from the first of December of the same year -/
theorem month_zero_days (y : ℤ) (h4 : y % 4000 ≠ 0) (s e : Clock) (h : monthDates y 0 = .ok (s, e)) :
    (fileDates s e).startYr = y ∧ (fileDates s e).startDay = daysBefore y 12 + 1 ∧
    (fileDates s e).endDay = daysBefore y 12 + 31 + (monthEnd y 12).frac := by
  rw [monthDates_zero] at h
  simp only [Except.ok.injEq, Prod.mk.injEq] at h
  obtain ⟨rfl, rfl⟩ := h
  have hz : sumTo (dpm y) (0 - 1) = daysBefore y 12 := by
    rw [← sumTo_spec y 12 h4 (by norm_num) (by norm_num)]
    unfold sumTo
    rw [(dpm_spec y).1]
    rfl
  refine ⟨rfl, ?_, ?_⟩
  · simp only [fileDates, dayOf, hz]; norm_num
  · simp only [fileDates, dayOf, hz, Clock.frac, monthEnd]; norm_num; ring

example : ∃ s e, monthDates 2003 0 = .ok (s, e) ∧ (fileDates s e).startDay = 335 := by
  obtain ⟨_, h, _⟩ := month_zero_days 2003 (by norm_num) _ _ (monthDates_zero 2003)
  refine ⟨_, _, monthDates_zero 2003, h.trans ?_⟩
  norm_num [daysBefore, gregLeap]

end Verif.Gfc
