import Verif.Gfc.Match
import Verif.Dates.Props

/-!
# C87: the dates in the names of gfc files
-/
namespace Verif.Gfc
open Verif.Names Verif.Time Verif.Time.Spec Verif.Dates Verif.SLR
open Verif.Dealias (IsDigits)

/-! ## Specification -/

/-- first second of a calendar month -/
def monthStart (y m : ℤ) : Clock := ⟨y, m, 1, 0, 0, 0⟩

/-- last second of a calendar month -/
def monthEnd (y m : ℤ) : Clock := ⟨y, m, monthLen y m, 23, 59, 59⟩

/-- fraction of the day -/
def Clock.frac (c : Clock) : ℚ := c.hour / 24 + c.minute / 1440 + c.second / 86400

/-- days since 1858-11-17 of a date with the day `d` -/
def Clock.instant (c : Clock) (d : ℤ) : ℚ := dayNumber c.year c.month d + c.frac

/-! ## Helper lemmas -/

theorem dpm_spec (y : ℤ) : (dpm y).length = 12 ∧ (∀ m : ℤ, 1 ≤ m → m ≤ 12 → y % 4000 ≠ 0 →
    (dpm y)[(m - 1).toNat]? = some (monthLen y m : ℚ)) ∧ (y % 4000 ≠ 0 → (dpm y).sum = yearLen y) ∧
    (dpm y = dpmLeap ∨ dpm y = dpmStnd) ∧ (y % 4000 ≠ 0 → (dpm y = dpmLeap ↔ gregLeap y)) := by
  obtain ⟨d, h1, h2, h3, -, h5, -⟩ := calendarDays_spec y
  have e : dpm y = d := by unfold dpm; rw [h1]; rfl
  rw [e]
  refine ⟨h2, h3, h5, ?_, ?_⟩
  · unfold calendarDays at h1
    split at h1
    · left; exact (Option.some.inj h1).symm
    · split at h1
      · right; exact (Option.some.inj h1).symm
      · simp at h1
  · intro h4
    have hl := leapCond_iff y
    unfold calendarDays at h1
    split at h1
    · rename_i hh
      exact ⟨fun _ => (hl.1 hh).1, fun _ => (Option.some.inj h1).symm⟩
    · rename_i hh
      split at h1
      · have : d = dpmStnd := (Option.some.inj h1).symm
        rw [this]
        constructor
        · intro hh; exact absurd hh (by decide +kernel)
        · intro hg; exact absurd (hl.2 ⟨hg, h4⟩) hh
      · simp at h1

theorem sumTo_spec (y m : ℤ) (h4 : y % 4000 ≠ 0) (h1 : 1 ≤ m) (h2 : m ≤ 12) : sumTo (dpm y) (m - 1) = daysBefore y m := by
  obtain ⟨-, -, -, hd, hl⟩ := dpm_spec y
  have hl := hl h4
  unfold sumTo daysBefore
  rcases hd with hd | hd
  · have hg := hl.1 hd
    rw [hd]
    interval_cases m <;> simp [dpmLeap, hg] <;> norm_num
  · have hg : ¬ gregLeap y := fun hg => by
      have := hl.2 hg; rw [hd] at this; exact absurd this (by decide +kernel)
    rw [hd]
    interval_cases m <;> simp [dpmStnd, hg] <;> norm_num

theorem monthDates_ok (y m : ℤ) (h4 : y % 4000 ≠ 0) (h1 : 1 ≤ m) (h2 : m ≤ 12) :
    monthDates y m = .ok (monthStart y m, monthEnd y m) := by
  unfold monthDates pyIdx
  rw [if_pos (by omega), (dpm_spec y).2.1 m h1 h2 h4]
  rfl

theorem monthDates_zero (y : ℤ) : monthDates y 0 = .ok (⟨y, 0, 1, 0, 0, 0⟩, ⟨y, 0, 31, 23, 59, 59⟩) := by
  unfold monthDates
  rcases (dpm_spec y).2.2.2.1 with h | h <;> rw [h] <;> rfl

theorem monthDates_big (y m : ℤ) (h : 12 < m) : monthDates y m = .error .noMonth := by
  unfold monthDates pyIdx
  rw [if_pos (by omega), List.getElem?_eq_none (by rw [(dpm_spec y).1]; omega)]

theorem dayOf_month (y0 m : ℤ) (c : Clock) (hc : c.month = m) (h4 : y0 % 4000 ≠ 0) (h1 : 1 ≤ m) (h2 : m ≤ 12) :
    dayOf (dpm y0) c = daysBefore y0 m + c.day + c.frac := by
  unfold dayOf Clock.frac
  rw [hc, sumTo_spec y0 m h4 h1 h2]; ring

/-- the calendar date of a Modified Julian Day -/
theorem convertJulian_of_day (x : ℚ) (y m d : ℤ) (hv : Valid y m d) (hg : 1583 ≤ y) (hlo : (dayNumber y m d : ℚ) ≤ x)
    (hhi : x < dayNumber y m d + 1) :
    (convertJulian (x + 2400000.5)).year = y ∧ (convertJulian (x + 2400000.5)).month = m ∧
      (convertJulian (x + 2400000.5)).day = d := by
  have hlow := dayNumber_low y m d hv hg
  have hJ : (2299160.5 : ℚ) ≤ x + 2400000.5 := by
    have q1 : ((-100840 : ℤ) : ℚ) ≤ dayNumber y m d := by exact_mod_cast hlow
    push_cast at q1 ⊢; norm_num; linarith
  obtain ⟨hv', -⟩ := convertJulian_right_inverse _ hJ
  obtain ⟨-, he⟩ := convertJulian_right_inverse _ hJ
  obtain ⟨-, -, -, -, r1, r2, r3, r4, r5, r6, r7⟩ := convertJulian_ranges (x + 2400000.5)
  have hf0 := Int.fract_nonneg (x + 2400000.5 + 0.5)
  have hf1 := Int.fract_lt_one (x + 2400000.5 + 0.5)
  unfold Int.fract at hf0 hf1
  rw [← r7] at hf0 hf1
  set r := convertJulian (x + 2400000.5)
  have h1 : (dayNumber r.year r.month r.day : ℚ) ≤ x := by linarith
  have h2 : x < dayNumber r.year r.month r.day + 1 := by linarith
  have i1 : dayNumber r.year r.month r.day < dayNumber y m d + 1 := by
    have : (dayNumber r.year r.month r.day : ℚ) < dayNumber y m d + 1 := by linarith
    exact_mod_cast this
  have i2 : dayNumber y m d < dayNumber r.year r.month r.day + 1 := by
    have : (dayNumber y m d : ℚ) < dayNumber r.year r.month r.day + 1 := by linarith
    exact_mod_cast this
  have b : dayNumber r.year r.month r.day = dayNumber y m d := by omega
  have e1 := convertJulian_inverse _ _ _ 0 0 0 hv' (by rw [b]; exact hlow) (by norm_num) (by norm_num) (by norm_num)
  have e2 := convertJulian_inverse _ _ _ 0 0 0 hv hlow (by norm_num) (by norm_num) (by norm_num)
  rw [b, e2] at e1
  simp only [CalDate.mk.injEq] at e1
  exact ⟨e1.1.symm, e1.2.1.symm, e1.2.2.1.symm⟩

theorem zip_gfc (ci : Bool) (u : Name) (h : Spelled ci ".gfc" u) : (findall (litF true "ZIP".toList) u).isEmpty = true := by
  have hz : ∀ k, runs (litF true "ZIP".toList) (u.drop k) = [] := by
    intro k
    rw [List.eq_nil_iff_forall_not_mem]
    rintro ⟨c, q⟩ hm
    obtain ⟨x, hx, lx⟩ := (runs_lang _ (noEnd_litF true _) _ q).1 ⟨c, hm⟩
    rw [lang_spelled] at lx
    have hl := spelled_lower lx
    have hzx : 'z' ∈ x.map Char.toLower := by rw [hl]; decide
    obtain ⟨a, ha, haz⟩ := List.mem_map.1 hzx
    have hau : a ∈ u := List.mem_of_mem_drop (i := k) (by rw [hx]; simp [ha])
    have : 'z' ∈ u.map Char.toLower := List.mem_map.2 ⟨a, hau, haz⟩
    rw [spelled_lower h] at this
    revert this; decide
  have none : ∀ (n : ℕ) (t : Name), (∀ k, runs (litF true "ZIP".toList) (t.drop k) = []) →
      findallN n (litF true "ZIP".toList) t = [] := by
    intro n
    induction n with
    | zero => intros; rfl
    | succ n ih =>
      intro t ht
      rw [findallN, show runs _ t = [] from by simpa using ht 0]
      dsimp only
      split
      · rfl
      · exact ih _ fun k => by rw [← List.drop_one, List.drop_drop]; exact ht _
  unfold findall
  rw [none _ _ hz]; rfl

theorem zip_zip (ci : Bool) (u : Name) (h : Spelled ci ".ZIP" u) : (findall (litF true "ZIP".toList) u).isEmpty = false := by
  have hl := spelled_lower h
  cases u with
  | nil => simp at hl
  | cons a v =>
    have hv : Spelled true "ZIP" v := by
      unfold Spelled
      simp only [if_true]
      have hl2 : a.toLower :: v.map Char.toLower = '.'.toLower :: "ZIP".toList.map Char.toLower := hl
      exact (List.cons.inj hl2).2
    have hf := first_litF true "ZIP" v [] hv
    rw [List.append_nil] at hf
    have hlen := spelled_length hv
    have := findall_single (litF true "ZIP".toList) [a] v [] [] (by
      intro k hk
      have : k = 0 := by simpa using hk
      subst this
      simpa using runs_litF_none true "ZIP".toList ".ZIP".toList (a :: v) [] hl (by decide +kernel)) hf (by rw [hlen]; decide)
      (fun k => by simp; rfl)
    rw [show a :: v = [a] ++ v from rfl, this]; rfl

/-! ## What is found in the names -/

/-- C87: for a file of a month from Graz, in letters of any case, `parse_gfc_file` finds the first and the last second of
the month -/
theorem itsg_dates (parse : Name → Option Clock) (DSET : String) (n : ItsgName) (h : n.Ok true)
    (h4 : digitsVal n.year % 4000 ≠ 0) (h1 : 1 ≤ digitsVal n.month) (h2 : digitsVal n.month ≤ 12) :
    parseGfc parse n.text "GRAZ" DSET =
      .ok (monthStart (digitsVal n.year) (digitsVal n.month), monthEnd (digitsVal n.year) (digitsVal n.month)) := by
  obtain ⟨c, hc, g4, g5, -⟩ := first_itsg true n h
  unfold parseGfc itsgDates
  rw [if_pos rfl, findall_whole _ _ _ hc (text_ne_itsg n) (runs_itsg_nil true)]
  simp only [List.getLast?_singleton, g4, g5]
  exact monthDates_ok _ _ (by omega) (by omega) (by omega)

/-- C87 (deviation): a month above 12 raises `IndexError`, month 0 is taken with the length of December -/
theorem itsg_bad_month (parse : Name → Option Clock) (DSET : String) (n : ItsgName) (h : n.Ok true) :
    (12 < digitsVal n.month → parseGfc parse n.text "GRAZ" DSET = .error .noMonth) ∧
    (digitsVal n.month = 0 → parseGfc parse n.text "GRAZ" DSET =
      .ok (⟨digitsVal n.year, 0, 1, 0, 0, 0⟩, ⟨digitsVal n.year, 0, 31, 23, 59, 59⟩)) := by
  obtain ⟨c, hc, g4, g5, -⟩ := first_itsg true n h
  unfold parseGfc itsgDates
  rw [if_pos rfl, findall_whole _ _ _ hc (text_ne_itsg n) (runs_itsg_nil true)]
  simp only [List.getLast?_singleton, g4, g5]
  constructor
  · intro hm; exact monthDates_big _ _ (by omega)
  · intro hm; rw [hm]; exact monthDates_zero _

/-- C87: for a Swarm gravity field, in letters of any case, the two dates are what `dateutil` reads in the two date fields -/
theorem swarm_dates (parse : Name → Option Clock) (n : SwarmName) (h : n.Ok true) (s e : Clock)
    (hs : parse n.start = some s) (he : parse n.stop = some e) : parseGfc parse n.text "Swarm" "GSM" = .ok (s, e) := by
  have hf := findall_whole _ _ _ (first_swarm true n h) (text_ne_swarm n) (runs_swarm_nil true)
  unfold parseGfc swarmDates
  rw [if_neg (by decide), if_pos (by decide), hf]
  simp only [List.getLast?_singleton]
  simp [group, List.lookup, dateOf, parseDateString, hs, he, bind, Except.bind, pure, Except.pure]

/-- C87: for a Swarm model of a month, in letters of any case, `parse_gfc_file` finds the first and the last second of the
month -/
theorem swarm_model_dates (parse : Name → Option Clock) (DSET : String) (hd : DSET ≠ "GSM") (n : SwarmModelName)
    (h : n.Ok true) (h4 : digitsVal n.year % 4000 ≠ 0) (h1 : 1 ≤ digitsVal n.month) (h2 : digitsVal n.month ≤ 12) :
    parseGfc parse n.text "Swarm" DSET =
      .ok (monthStart (digitsVal n.year) (digitsVal n.month), monthEnd (digitsVal n.year) (digitsVal n.month)) := by
  have hf := findall_whole _ _ _ (first_swarmModel true n h) (text_ne_swarmModel n) (runs_swarmModel_nil true)
  unfold parseGfc swarmModelDates
  rw [if_neg (by decide), if_neg (by tauto), if_pos ⟨rfl, hd⟩, hf]
  simp only [List.getLast?_singleton]
  show monthDates (digitsVal n.year) (digitsVal n.month) = _
  exact monthDates_ok _ _ (by omega) (by omega) (by omega)

/-! ## Times -/

/-- C87: the decimal date of a file that holds one calendar month is the middle of the first and the last second of
the month (days of the year counted from one) -/
theorem month_time (y m : ℤ) (h4 : y % 4000 ≠ 0) (h1 : 1 ≤ m) (h2 : m ≤ 12) :
    tdec (fileDates (monthStart y m) (monthEnd y m)) =
      y + (daysBefore y m + (1 + monthLen y m + 86399 / 86400) / 2) / yearLen y := by
  have hd : dpy (fileDates (monthStart y m) (monthEnd y m)) = yearLen y := dpy_eq _ h4
  unfold tdec midDay endCyclic
  rw [hd]
  simp only [fileDates, monthStart, monthEnd]
  rw [dayOf_month y m _ rfl h4 h1 h2, dayOf_month y m _ rfl h4 h1 h2]
  simp only [Clock.frac]
  push_cast
  congr 2
  ring

/-- C87: `grace_date` gives a file that holds one calendar month the number of this month -/
theorem month_number (first : FileDates) (y m : ℤ) (h4 : y % 4000 ≠ 0) (hs : ¬ Skewed y 1) (hg : 1583 ≤ y) (h1 : 1 ≤ m)
    (h2 : m ≤ 12) : rawMonth false first (fileDates (monthStart y m) (monthEnd y m)) = 12 * (y - 2002) + m := by
  have hd : dpy (fileDates (monthStart y m) (monthEnd y m)) = yearLen y := dpy_eq _ h4
  have hL : 28 ≤ monthLen y m ∧ monthLen y m ≤ 31 := by
    unfold monthLen; split_ifs <;> constructor <;> norm_num
  have hmid : midDay (fileDates (monthStart y m) (monthEnd y m)) =
      daysBefore y m + (1 + monthLen y m + 86399 / 86400) / 2 := by
    unfold midDay endCyclic
    rw [hd]
    simp only [fileDates, monthStart, monthEnd]
    rw [dayOf_month y m _ rfl h4 h1 h2, dayOf_month y m _ rfl h4 h1 h2]
    simp only [Clock.frac]
    push_cast
    ring
  have hx : convertCalendarDates (y : ℚ) 1 (midDay (fileDates (monthStart y m) (monthEnd y m))) 0 0 0 0 =
      dayNumber y m 0 + (1 + monthLen y m + 86399 / 86400) / 2 := by
    unfold convertCalendarDates
    have e1 := mjd_int y 1 (midDay (fileDates (monthStart y m) (monthEnd y m))) 0 0 0
    have e2 := mjd_core y 1 (by norm_num) (by norm_num)
    rw [e2, if_neg hs] at e1
    push_cast at e1 ⊢
    rw [e1, hmid]
    have : dayNumber y m 0 = dayNumber y 1 0 + daysBefore y m := by
      unfold dayNumber
      have : daysBefore y 1 = 0 := by unfold daysBefore; simp
      rw [this]; ring
    rw [this]; push_cast; ring
  set D : ℤ := (2 + monthLen y m) / 2 - (if (2 + monthLen y m) % 2 = 0 then 1 else 0) with hD
  have hDb : (D : ℚ) ≤ (1 + monthLen y m + 86399 / 86400) / 2 ∧ (1 + monthLen y m + 86399 / 86400) / 2 < (D : ℚ) + 1 := by
    obtain ⟨a, b⟩ := hL
    generalize monthLen y m = L at *
    have : L = 28 ∨ L = 29 ∨ L = 30 ∨ L = 31 := by omega
    rcases this with rfl | rfl | rfl | rfl <;> norm_num [hD]
  have hv : Valid y m D := by
    refine ⟨h1, h2, ?_, ?_⟩ <;> rw [hD] <;> split_ifs <;> omega
  have hn : dayNumber y m D = dayNumber y m 0 + D := by unfold dayNumber; ring
  obtain ⟨c1, c2, -⟩ := convertJulian_of_day _ y m D hv hg
    (show (dayNumber y m D : ℚ) ≤ convertCalendarDates (y : ℚ) 1 (midDay (fileDates (monthStart y m) (monthEnd y m))) 0 0 0 0 by
      rw [hx, hn]; push_cast; linarith [hDb.1])
    (by rw [hx, hn]; push_cast; linarith [hDb.2])
  unfold rawMonth calDate
  simp only [Bool.false_eq_true, if_false]
  rw [show (fileDates (monthStart y m) (monthEnd y m)).startYr = y from rfl, c1, c2]
  exact calendarToGrace_int y m

/-- C87: `grace_date` numbers a list of files of different calendar months by their months -/
theorem months_of_files (ms : List (ℤ × ℤ)) (hn : ms.Nodup)
    (h : ∀ p ∈ ms, p.1 % 4000 ≠ 0 ∧ ¬ Skewed p.1 1 ∧ 1583 ≤ p.1 ∧ 1 ≤ p.2 ∧ p.2 ≤ 12) :
    months false (ms.map fun p => fileDates (monthStart p.1 p.2) (monthEnd p.1 p.2)) =
      ms.map fun p => 12 * (p.1 - 2002) + p.2 := by
  unfold months
  have e : ((ms.map fun p => fileDates (monthStart p.1 p.2) (monthEnd p.1 p.2)).map fun f =>
      rawMonth false ((ms.map fun p => fileDates (monthStart p.1 p.2) (monthEnd p.1 p.2)).headD f) f) =
      ms.map fun p => 12 * (p.1 - 2002) + p.2 := by
    rw [List.map_map]
    refine List.map_congr_left fun p hp => ?_
    obtain ⟨a1, a2, a3, a4, a5⟩ := h p hp
    exact month_number _ _ _ a1 a2 a3 a4 a5
  rw [e]
  apply adjustMonths_nodup
  rw [List.nodup_map_iff_inj_on hn]
  intro p hp q hq hpq
  obtain ⟨-, -, -, a4, a5⟩ := h p hp
  obtain ⟨-, -, -, b4, b5⟩ := h q hq
  apply Prod.ext <;> omega

/-- C87: the decimal date of a file from one instant to another in the same or the next year is the middle of both
instants, except that a span ending in March or later of a year that is a leap year unlike (or that is no leap year unlike)
the start year is taken half a day too early (or too late) -/
theorem span_time (s e : Clock) (ds de : ℤ) (hs : s.day = ds) (he : e.day = de) (vs : Valid s.year s.month ds)
    (ve : Valid e.year e.month de) (hy : e.year = s.year ∨ e.year = s.year + 1) (h4 : s.year % 4000 ≠ 0) :
    tdec (fileDates s e) = s.year + ((s.instant ds + e.instant de) / 2 - dayNumber s.year 1 1 + 1
      + (if 3 ≤ e.month then ((yearLen s.year : ℚ) - yearLen e.year) / 2 else 0)) / yearLen s.year := by
  have hd : dpy (fileDates s e) = yearLen s.year := dpy_eq _ h4
  have hb : (daysBefore s.year e.month : ℚ) = daysBefore e.year e.month +
      (if 3 ≤ e.month then ((yearLen s.year : ℚ) - yearLen e.year) else 0) := by
    have : daysBefore s.year e.month = daysBefore e.year e.month +
      (if 3 ≤ e.month then (yearLen s.year - yearLen e.year) else 0) := by
      unfold daysBefore yearLen
      by_cases h3 : 3 ≤ e.month <;> by_cases a : gregLeap s.year <;> by_cases b : gregLeap e.year <;> simp [h3, a, b]
    rw [this]; push_cast; split_ifs <;> rfl
  have hstep := yearLen_step s.year
  have hdn : ∀ y m d : ℤ, dayNumber y m d = dayNumber y 1 1 + daysBefore y m + d - 1 := by
    intro y m d
    unfold dayNumber
    have : daysBefore y 1 = 0 := by unfold daysBefore; simp
    rw [this]; ring
  unfold tdec midDay endCyclic
  rw [hd]
  simp only [fileDates]
  rw [dayOf_month s.year s.month s rfl h4 vs.1 vs.2.1, dayOf_month s.year e.month e rfl h4 ve.1 ve.2.1, hb, hs, he]
  simp only [Clock.instant]
  rw [hdn s.year s.month ds, hdn e.year e.month de]
  congr 2
  rcases hy with hy | hy
  · rw [hy]; push_cast; split_ifs <;> ring
  · rw [hy, hstep]; push_cast; split_ifs <;> ring

/-- C87: the Julian dates of the start and the end of a month are the calendar's -/
theorem month_julian (y m : ℤ) (h1 : 1 ≤ m) (h2 : m ≤ 12) (hs : ¬ Skewed y m) :
    julian (monthStart y m) = 2400000.5 + dayNumber y m 1 ∧
    julian (monthEnd y m) = 2400000.5 + dayNumber y m (monthLen y m) + 86399 / 86400 ∧
    julian (monthEnd y m) - julian (monthStart y m) = monthLen y m - 1 / 86400 := by
  have e1 := mjd_spec y m 1 0 0 0 h1 h2
  have e2 := mjd_spec y m (monthLen y m) 23 59 59 h1 h2
  rw [if_neg hs] at e1 e2
  have hn : dayNumber y m (monthLen y m) = dayNumber y m 1 + monthLen y m - 1 := by unfold dayNumber; ring
  unfold julian monthStart monthEnd
  simp only
  push_cast at e1 e2
  rw [e1, e2]
  refine ⟨by ring, by ring, ?_⟩
  rw [hn]; push_cast; ring

/-! ## Reading -/

theorem dated_time (sfx : Name) (s e : Clock) : (dated sfx (dpm s.year) s e).time = tdec (fileDates s e) := by
  have : dpy (fileDates s e) = (dpm s.year).sum := by
    unfold dpy dpm
    simp only [fileDates]
    cases calendarDays s.year with
    | none => rfl
    | some d => rfl
  unfold tdec midDay endCyclic
  rw [this]
  rfl

/-- C87: whenever `read_gfc_harmonics` finds dates in a name, they are those of `parse_gfc_file`, and the time is the one
that `grace_date` computes from them -/
theorem read_agrees (parse : Name → Option Clock) (name : Name) (d : Dated) (h : readGfc parse name = .ok d) :
    ∃ PROC DSET s e, parseGfc parse name PROC DSET = .ok (s, e) ∧ d.time = tdec (fileDates s e) ∧
      d.start = julian s ∧ d.end_ = julian e := by
  unfold readGfc at h
  split at h
  · split at h
    · simp at h
    · rename_i g hg
      split at h
      · simp at h
      · rename_i s e hm
        simp only [Except.ok.injEq] at h
        subst h
        refine ⟨"GRAZ", "GSM", s, e, ?_, ?_, rfl, rfl⟩
        · unfold parseGfc itsgDates
          rw [if_pos rfl, hg]; exact hm
        · have : s.year = digitsVal (group g 4) := by
            unfold monthDates at hm
            split at hm
            · simp only [Except.ok.injEq, Prod.mk.injEq] at hm; rw [← hm.1]
            · simp at hm
          rw [← dated_time (group g 6), this]
  · split at h
    · split at h
      · simp at h
      · rename_i g hg
        split at h
        · simp at h
        · rename_i s hs
          split at h
          · simp at h
          · rename_i e he
            simp only [Except.ok.injEq] at h
            subst h
            refine ⟨"Swarm", "GSM", s, e, ?_, dated_time _ s e, rfl, rfl⟩
            unfold parseGfc swarmDates
            rw [if_neg (by decide), if_pos (by decide), hg]
            simp [hs, he, bind, Except.bind, pure, Except.pure]
    · split at h
      · split at h <;> simp at h
      · simp at h

/-- C87: a file of a month from Graz (correctly written) is read as text and gets the middle of the month and the Julian
dates of its first and last second -/
theorem read_itsg (parse : Name → Option Clock) (n : ItsgName) (h : n.Ok false) (h4 : digitsVal n.year % 4000 ≠ 0)
    (h1 : 1 ≤ digitsVal n.month) (h2 : digitsVal n.month ≤ 12) (hs : ¬ Skewed (digitsVal n.year) (digitsVal n.month)) :
    ∃ d, readGfc parse n.text = .ok d ∧ d.zip = false ∧
      d.time = digitsVal n.year + (daysBefore (digitsVal n.year) (digitsVal n.month) +
        (1 + monthLen (digitsVal n.year) (digitsVal n.month) + 86399 / 86400) / 2) / yearLen (digitsVal n.year) ∧
      d.start = 2400000.5 + dayNumber (digitsVal n.year) (digitsVal n.month) 1 ∧
      d.end_ = 2400000.5 + dayNumber (digitsVal n.year) (digitsVal n.month) (monthLen (digitsVal n.year) (digitsVal n.month))
        + 86399 / 86400 := by
  obtain ⟨c0, hc0, -⟩ := first_itsg false n h
  obtain ⟨c, hc, g4, g5, g6⟩ := first_itsg true n h.any
  have hf := findall_whole _ _ _ hc (text_ne_itsg n) (runs_itsg_nil true)
  have hm := monthDates_ok (digitsVal n.year) (digitsVal n.month) (by omega) (by omega) (by omega)
  have hj := month_julian (digitsVal n.year) (digitsVal n.month) (by omega) (by omega) hs
  refine ⟨dated (group c 6) (dpm (digitsVal n.year)) (monthStart (digitsVal n.year) (digitsVal n.month))
    (monthEnd (digitsVal n.year) (digitsVal n.month)), ?_, ?_, ?_, hj.1, hj.2.1⟩
  · unfold readGfc
    rw [if_pos (accepts_first hc0), hf]
    simp only [List.getLast?_singleton, g4, g5, hm]
  · show (!(findall (litF true "ZIP".toList) (group c 6)).isEmpty) = false
    rw [g6, zip_gfc false n.sfx h.sfx]; rfl
  · have := month_time (digitsVal n.year) (digitsVal n.month) (by omega) (by omega) (by omega)
    push_cast at this
    rw [← this]
    exact dated_time (group c 6) (monthStart (digitsVal n.year) (digitsVal n.month)) (monthEnd (digitsVal n.year) (digitsVal n.month))

theorem none_of_first (e : Re) (name : Name) (hn : runs e name = []) : accepts e name = false := by
  unfold accepts; rw [hn]; rfl

/-- first letters of the alternatives -/
theorem litF_head (a x : Char) (t w : Name) (hx : x ≠ a) : runs (litF false (a :: t)) (x :: w) = [] := by
  rw [litF_cons]
  refine runs_seq_none ?_
  have : sameChar false a x = false := by
    simp only [sameChar, Bool.false_eq_true, if_false, beq_eq_false_iff_ne]; exact hx.symm
  simp [runs, this]

theorem itsg_head (x : Char) (w : Name) (hx : x ≠ 'A' ∧ x ≠ 'm' ∧ x ≠ 'I') : accepts (itsgRe false) (x :: w) = false := by
  refine none_of_first _ _ (runs_seq_none ?_)
  have e1 := litF_head 'A' x "OD1B_RL".toList w hx.1
  have e2 := litF_head 'm' x "odel".toList w hx.2.1
  have e3 := litF_head 'I' x "TSG".toList w hx.2.2
  have : runs (oneOf [cat [litF false "AOD1B_RL".toList, digits], litF false "model".toList, litF false "ITSG".toList]) (x :: w) = [] := by
    simp only [oneOf, runs]
    rw [show "AOD1B_RL".toList = 'A' :: "OD1B_RL".toList from rfl, show "model".toList = 'm' :: "odel".toList from rfl,
      show "ITSG".toList = 'I' :: "TSG".toList from rfl, e2, e3]
    have : runs (cat [litF false ('A' :: "OD1B_RL".toList), digits]) (x :: w) = [] := runs_seq_none e1
    rw [this]; rfl
  simp only [runs, this]; rfl

theorem swarm_head (x : Char) (w : Name) (hx : x ≠ 'S') : accepts (swarmRe false) (x :: w) = false := by
  refine none_of_first _ _ (runs_seq_none ?_)
  have e1 := litF_head 'S' x "W".toList w hx
  simp only [runs, show "SW".toList = 'S' :: "W".toList from rfl, e1]; rfl

theorem swarmModel_head (x : Char) (w : Name) (hx : x ≠ 'G') : accepts (swarmModelRe false) (x :: w) = false := by
  refine none_of_first _ _ (runs_seq_none ?_)
  have : runs (oneOf (["GAA", "GAB", "GAC", "GAD"].map fun p => litF false p.toList)) (x :: w) = [] := by
    simp only [oneOf, runs, List.map_cons, List.map_nil]
    rw [show "GAA".toList = 'G' :: "AA".toList from rfl, show "GAB".toList = 'G' :: "AB".toList from rfl,
      show "GAC".toList = 'G' :: "AC".toList from rfl, show "GAD".toList = 'G' :: "AD".toList from rfl]
    rw [litF_head 'G' x _ w hx, litF_head 'G' x _ w hx, litF_head 'G' x _ w hx, litF_head 'G' x _ w hx]; rfl
  simp only [runs, this]; rfl

/-- C87: a Swarm gravity field (correctly written) is read from the zip file exactly if its suffix is `.ZIP`, and its time is
the one of `grace_date` -/
theorem read_swarm (parse : Name → Option Clock) (n : SwarmName) (h : n.Ok false) (s e : Clock)
    (hs : parse n.start = some s) (he : parse n.stop = some e) :
    ∃ d, readGfc parse n.text = .ok d ∧ (d.zip = true ↔ Spelled false ".ZIP" n.sfx) ∧ d.time = tdec (fileDates s e) ∧
      d.start = julian s ∧ d.end_ = julian e := by
  have hf := findall_whole _ _ _ (first_swarm true n h.any) (text_ne_swarm n) (runs_swarm_nil true)
  refine ⟨dated n.sfx (dpm s.year) s e, ?_, ?_, dated_time _ s e, rfl, rfl⟩
  · have hi : accepts (itsgRe false) n.text = false := by
      have hsat : n.sat = 'S' :: "W".toList := by
        have := h.sat; unfold Spelled at this; simpa using this
      unfold SwarmName.text
      rw [hsat]
      exact itsg_head 'S' _ (by decide)
    unfold readGfc
    rw [if_neg (by rw [hi]; simp), if_pos (accepts_first (first_swarm false n h)), hf]
    simp [List.getLast?_singleton, group, List.lookup, dateOf, parseDateString, hs, he]
  · show (!(findall (litF true "ZIP".toList) n.sfx).isEmpty) = true ↔ _
    rcases h.sfx with hx | hx
    · rw [zip_gfc false _ hx]
      constructor
      · intro hh; simp at hh
      · intro hh
        unfold Spelled at hx hh
        simp only [Bool.false_eq_true, if_false] at hx hh
        rw [hx] at hh; exact absurd hh (by decide)
    · rw [zip_zip false _ hx]
      exact ⟨fun _ => hx, fun _ => rfl⟩

/-- C87 (deviation): `read_gfc_harmonics` never reads a Swarm model, although `parse_gfc_file` knows its name -/
theorem read_swarm_model (parse : Name → Option Clock) (n : SwarmModelName) (h : n.Ok false) :
    ∃ r, readGfc parse n.text = .error r ∧ (r = .noMatch ∨ r = .unpack) := by
  obtain ⟨t, ht⟩ : ∃ t, n.text = 'G' :: t := by
    obtain ⟨w, hw, hp⟩ := h.prod
    unfold Spelled at hp
    simp only [Bool.false_eq_true, if_false] at hp
    unfold SwarmModelName.text
    rw [hp]
    simp only [List.mem_cons, List.not_mem_nil, or_false] at hw
    rcases hw with rfl | rfl | rfl | rfl <;> exact ⟨_, rfl⟩
  have hi := itsg_head 'G' t (by decide)
  have hsw := swarm_head 'G' t (by decide)
  have ha := accepts_first (first_swarmModel false n h)
  unfold readGfc
  rw [ht] at ha ⊢
  rw [if_neg (by rw [hi]; simp), if_neg (by rw [hsw]; simp), if_pos ha]
  split
  · exact ⟨_, rfl, Or.inl rfl⟩
  · exact ⟨_, rfl, Or.inr rfl⟩

/-- C87 (deviation): a name that does not begin with the right letter in the right case is not read (`UnboundLocalError`),
even if `parse_gfc_file` finds its dates -/
theorem read_wrong_case (parse : Name → Option Clock) (x : Char) (w : Name)
    (hx : x ≠ 'A' ∧ x ≠ 'm' ∧ x ≠ 'I' ∧ x ≠ 'S' ∧ x ≠ 'G') : readGfc parse (x :: w) = .error .unbound := by
  unfold readGfc
  rw [if_neg (by rw [itsg_head x w ⟨hx.1, hx.2.1, hx.2.2.1⟩]; simp), if_neg (by rw [swarm_head x w hx.2.2.2.1]; simp),
    if_neg (by rw [swarmModel_head x w hx.2.2.2.2]; simp)]

/-- C87 (deviation): other processing centres raise `UnboundLocalError` -/
theorem parse_other (parse : Name → Option Clock) (name : Name) (PROC DSET : String) (h : PROC ≠ "GRAZ" ∧ PROC ≠ "Swarm") :
    parseGfc parse name PROC DSET = .error .unbound := by
  unfold parseGfc
  rw [if_neg h.1, if_neg (by tauto), if_neg (by tauto)]

/-- C87 (deviation): `from_gfc(date=True)` raises for every name, `KeyError` if the name holds dates, because the
dictionary has no months; without dates nothing is read from the name -/
theorem from_gfc_dates (parse : Name → Option Clock) (keys : List String) (month : ℤ) (name : Name) (h : "month" ∉ keys) :
    (∃ r, fromGfcDates parse keys month name true = .error r) ∧
    (∀ d, readGfc parse name = .ok d → fromGfcDates parse keys month name true = .error .noKey) ∧
    fromGfcDates parse keys month name false = .ok ⟨none, none⟩ := by
  have hm : "month" ∉ keys ++ ["time", "start", "end"] := by simp [h]
  refine ⟨?_, ?_, rfl⟩
  · unfold fromGfcDates
    rw [if_pos rfl]
    split
    · exact ⟨_, rfl⟩
    · exact ⟨_, by rw [if_neg hm]⟩
  · intro d hd
    unfold fromGfcDates
    rw [if_pos rfl, hd]
    simp only
    rw [if_neg hm]

/-! ## Examples -/

/-- `ITSG-Grace2018_n60_2002-04.gfc` -/
def exItsg : ItsgName := ⟨"ITSG".toList, '-', "Grace2018".toList, "_n60".toList, "2002".toList, "04".toList, ".gfc".toList⟩

theorem exItsg_ok : exItsg.Ok false where
  pfx := Or.inr (Or.inl rfl)
  sep := Or.inl rfl
  prod := ⟨"Grace2018", by simp, rfl⟩
  trunc := Or.inr ⟨"_n".toList, "60".toList, rfl, rfl, by simp, by decide⟩
  year := ⟨by simp [exItsg], by decide⟩
  month := ⟨by simp [exItsg], by decide⟩
  sfx := rfl

example : exItsg.text = "ITSG-Grace2018_n60_2002-04.gfc".toList ∧ digitsVal exItsg.year = 2002 ∧ digitsVal exItsg.month = 4 ∧
    ¬ Skewed (digitsVal exItsg.year) (digitsVal exItsg.month) := by decide

-- the same name in small letters: dates are found, but the file is not read
example (parse : Name → Option Clock) :
    (∃ s e, parseGfc parse "itsg-grace2018_n60_2002-04.gfc".toList "GRAZ" "GSM" = .ok (s, e)) ∧
    readGfc parse "itsg-grace2018_n60_2002-04.gfc".toList = .error .unbound := by
  refine ⟨⟨_, _, itsg_dates parse "GSM" ⟨"itsg".toList, '-', "grace2018".toList, "_n60".toList, "2002".toList, "04".toList,
    ".gfc".toList⟩ ⟨Or.inr (Or.inl (by unfold Spelled; decide)), Or.inl rfl, ⟨"Grace2018", by simp, by unfold Spelled; decide⟩,
      Or.inr ⟨"_n".toList, "60".toList, rfl, by unfold Spelled; decide, by simp, by decide⟩, ⟨by simp, by decide⟩,
      ⟨by simp, by decide⟩, by unfold Spelled; decide⟩ (by decide) (by decide) (by decide)⟩, ?_⟩
  exact read_wrong_case parse 'i' _ (by decide)

/-- `SW_OPER_EGF_SHA_2__20131201T000000_20131231T235959_0101.ZIP` -/
def exSwarm : SwarmName := ⟨"SW".toList, "OPER".toList, "EGF_SHA_2".toList, "20131201T000000".toList, "20131231T235959".toList,
  "0101".toList, ".ZIP".toList⟩

theorem exSwarm_ok : exSwarm.Ok false where
  sat := rfl
  cls := by decide
  prod := rfl
  start := by decide
  stop := by decide
  rel := by decide
  sfx := Or.inr rfl

example : exSwarm.text = "SW_OPER_EGF_SHA_2__20131201T000000_20131231T235959_0101.ZIP".toList := by decide

/-- `GAA_Swarm_60_12_2013.gfc` -/
def exSwarmModel : SwarmModelName := ⟨"GAA".toList, "_Swarm_".toList, "60".toList, "12".toList, "2013".toList, ".gfc".toList⟩

theorem exSwarmModel_ok (ci : Bool) : exSwarmModel.Ok ci where
  prod := ⟨"GAA", by simp, spelled_self ci _⟩
  mid := spelled_self ci _
  trunc := ⟨by simp [exSwarmModel], by decide⟩
  month := ⟨rfl, by decide⟩
  year := ⟨rfl, by decide⟩
  sfx := Or.inl (spelled_self ci _)

example : exSwarmModel.text = "GAA_Swarm_60_12_2013.gfc".toList ∧ digitsVal exSwarmModel.month = 12 := by decide

-- a span from December 2003 to March 2004: half a day too early
example : tdec (fileDates ⟨2003, 12, 1, 0, 0, 0⟩ ⟨2004, 3, 31, 0, 0, 0⟩) =
    2003 + (((dayNumber 2003 12 1 + dayNumber 2004 3 31 : ℤ) : ℚ) / 2 - dayNumber 2003 1 1 + 1 - 1 / 2) / 365 := by
  decide +kernel

end Verif.Gfc
