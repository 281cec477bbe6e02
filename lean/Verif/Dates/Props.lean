import Verif.Dates.Model
import Verif.Time.Calendar
import Verif.Time.Julian
import Verif.Time.Decimal
import Verif.Time.Adjust

/-!
# C10, C11: dating of the data files and the list of missing months
-/
namespace Verif.Dates
open Verif.Time Verif.Time.Spec

/-- The file `f` covers the calendar days from `y1-m1-d1` to `y2-m2-d2`: its name holds the
years and the one-based days of the year of both dates. -/
structure Covers (f : FileDates) (y1 m1 d1 y2 m2 d2 : ℤ) : Prop where
  valid1 : Valid y1 m1 d1
  valid2 : Valid y2 m2 d2
  yr1 : f.startYr = y1
  yr2 : f.endYr = y2
  day1 : f.startDay = ((dayNumber y1 m1 d1 - dayNumber y1 1 1 + 1 : ℤ) : ℚ)
  day2 : f.endDay = ((dayNumber y2 m2 d2 - dayNumber y2 1 1 + 1 : ℤ) : ℚ)

theorem dpy_eq (f : FileDates) (h4 : f.startYr % 4000 ≠ 0) : dpy f = yearLen f.startYr := by
  obtain ⟨dpm, e, -, -, -, e2, -⟩ := calendarDays_spec f.startYr
  unfold dpy
  rw [e]; simpa using e2 h4

theorem yearLen_step (y : ℤ) : dayNumber (y + 1) 1 1 = dayNumber y 1 1 + yearLen y := by
  unfold dayNumber yearLen daysBefore gregLeap
  simp only [le_refl, if_true]
  obtain ⟨a, b, c, d, rfl, hb, hb', hc, hc', hd, hd'⟩ := year_decomp y
  split_ifs <;> omega

/-- the middle day of the year, for files ending in the start year or the next -/
theorem midDay_eq (f : FileDates) (y1 m1 d1 y2 m2 d2 : ℤ) (hc : Covers f y1 m1 d1 y2 m2 d2)
    (hy : y2 = y1 ∨ y2 = y1 + 1) (h4 : y1 % 4000 ≠ 0) :
    midDay f = (((dayNumber y1 m1 d1 + dayNumber y2 m2 d2 : ℤ) : ℚ) / 2)
      - dayNumber y1 1 1 + 1 := by
  have hd := dpy_eq f (by rw [hc.yr1]; exact h4)
  unfold midDay endCyclic
  rw [hd, hc.day1, hc.day2, hc.yr1, hc.yr2]
  rcases hy with rfl | rfl
  · push_cast; ring
  · have := yearLen_step y1
    rw [this]; push_cast; ring

theorem daysBefore_nonneg (y m : ℤ) : 0 ≤ daysBefore y m := by
  unfold daysBefore
  apply add_nonneg
  · repeat' (first | omega | split)
  · split <;> omega

theorem dayNumber_low (y m d : ℤ) (hv : Valid y m d) (hg : 1583 ≤ y) :
    (-100840 : ℤ) ≤ dayNumber y m d := by
  obtain ⟨-, -, a3, -⟩ := hv
  have hb := daysBefore_nonneg y m
  unfold dayNumber
  have q1 : (y - 1) / 4 - (y - 1) / 100 + (y - 1) / 400 ≥ 383 := by
    obtain ⟨a, b, c, d, rfl, hb, hb', hc, hc', hd, hd'⟩ := year_decomp y
    clear hb a3
    omega
  omega

/-- C10: the calendar date computed for a file is the day holding the mid-point of the first
and the last day covered (also across a year end). -/
theorem calDate_midpoint (f : FileDates) (y1 m1 d1 y2 m2 d2 : ℤ) (hc : Covers f y1 m1 d1 y2 m2 d2)
    (hy : y2 = y1 ∨ y2 = y1 + 1) (h4 : y1 % 4000 ≠ 0) (hs : ¬ Skewed y1 1)
    (hg : 1583 ≤ y1) (hle : dayNumber y1 m1 d1 ≤ dayNumber y2 m2 d2) :
    Valid (calDate f).year (calDate f).month (calDate f).day ∧
    dayNumber (calDate f).year (calDate f).month (calDate f).day =
      (dayNumber y1 m1 d1 + dayNumber y2 m2 d2) / 2 := by
  have hmid := midDay_eq f y1 m1 d1 y2 m2 d2 hc hy h4
  have hJ : convertCalendarDates f.startYr 1 (midDay f) 0 0 0 0 =
      ((dayNumber y1 m1 d1 + dayNumber y2 m2 d2 : ℤ) : ℚ) / 2 := by
    unfold convertCalendarDates
    have h1 := mjd_int y1 1 (midDay f) 0 0 0
    have h2 := mjd_core y1 1 (by norm_num) (by norm_num)
    rw [h2, if_neg hs] at h1
    rw [hc.yr1]
    push_cast at h1 ⊢
    rw [h1, hmid]
    have : dayNumber y1 1 1 = dayNumber y1 1 0 + 1 := by unfold dayNumber; ring
    rw [this]; push_cast; ring
  have hbig : (-100840 : ℤ) ≤ dayNumber y1 m1 d1 := dayNumber_low _ _ _ hc.valid1 hg
  have hJ2 : (2299160.5 : ℚ) ≤ convertCalendarDates f.startYr 1 (midDay f) 0 0 0 0 + 2400000.5 := by
    rw [hJ]
    have q1 : ((-100840 : ℤ) : ℚ) ≤ dayNumber y1 m1 d1 := by exact_mod_cast hbig
    have q2 : (dayNumber y1 m1 d1 : ℚ) ≤ dayNumber y2 m2 d2 := by exact_mod_cast hle
    push_cast at q1 ⊢; norm_num; linarith
  obtain ⟨hv, he⟩ := convertJulian_right_inverse _ hJ2
  obtain ⟨-, -, -, -, r1, r2, r3, r4, r5, r6, r7⟩ := convertJulian_ranges
    (convertCalendarDates f.startYr 1 (midDay f) 0 0 0 0 + 2400000.5)
  refine ⟨hv, ?_⟩
  unfold calDate
  set r := convertJulian (convertCalendarDates f.startYr 1 (midDay f) 0 0 0 0 + 2400000.5)
  rw [hJ] at he r7
  have hf0 := Int.fract_nonneg
    (((dayNumber y1 m1 d1 + dayNumber y2 m2 d2 : ℤ) : ℚ) / 2 + 2400000.5 + 0.5)
  have hf1 := Int.fract_lt_one
    (((dayNumber y1 m1 d1 + dayNumber y2 m2 d2 : ℤ) : ℚ) / 2 + 2400000.5 + 0.5)
  unfold Int.fract at hf0 hf1
  rw [← r7] at hf0 hf1
  set N := dayNumber y1 m1 d1 + dayNumber y2 m2 d2
  set n := dayNumber r.year r.month r.day
  have h1 : (n : ℚ) ≤ (N : ℚ) / 2 := by linarith
  have h2 : (N : ℚ) / 2 < n + 1 := by linarith
  have h1' : (2 * n : ℚ) ≤ N := by linarith
  have h2' : (N : ℚ) < 2 * n + 2 := by linarith
  have i1 : 2 * n ≤ N := by exact_mod_cast h1'
  have i2 : N < 2 * n + 2 := by exact_mod_cast h2'
  omega

/-- C10: the month number assigned to a file (before the adjustment of repeated months) is the
GRACE month of the calendar month containing the mid-point of the covered days. -/
theorem rawMonth_midpoint (f first : FileDates) (y1 m1 d1 y2 m2 d2 y m d : ℤ)
    (hc : Covers f y1 m1 d1 y2 m2 d2)
    (hy : y2 = y1 ∨ y2 = y1 + 1) (h4 : y1 % 4000 ≠ 0) (hs : ¬ Skewed y1 1)
    (hg : 1583 ≤ y1) (hle : dayNumber y1 m1 d1 ≤ dayNumber y2 m2 d2)
    (hv : Valid y m d)
    (hmid : dayNumber y m d = (dayNumber y1 m1 d1 + dayNumber y2 m2 d2) / 2) :
    rawMonth false first f = 12 * (y - 2002) + m ∧
    graceToCalendar (rawMonth false first f) = (y, m) := by
  obtain ⟨a, b⟩ := calDate_midpoint f y1 m1 d1 y2 m2 d2 hc hy h4 hs hg hle
  obtain ⟨h1, h2⟩ : (calDate f).year = y ∧ (calDate f).month = m := by
    rw [← hmid] at b
    -- both dates are recovered from their common day number
    have hlow : (-100840 : ℤ) ≤ dayNumber y m d := by
      rw [hmid]
      have hbig : (-100840 : ℤ) ≤ dayNumber y1 m1 d1 := dayNumber_low _ _ _ hc.valid1 hg
      omega
    have e1 := convertJulian_inverse _ _ _ 0 0 0 a (by rw [b]; exact hlow)
      (by norm_num) (by norm_num) (by norm_num)
    have e2 := convertJulian_inverse _ _ _ 0 0 0 hv hlow
      (by norm_num) (by norm_num) (by norm_num)
    rw [b, e2] at e1
    simp only [CalDate.mk.injEq] at e1
    exact ⟨e1.1.symm, e1.2.1.symm⟩
  have hr : rawMonth false first f = calendarToGrace y m := by
    unfold rawMonth; simp [h1, h2]
  rw [hr]
  exact ⟨calendarToGrace_int y m, grace_calendar_roundtrip y m hv.1 hv.2.1⟩

/-- C10: the decimal date is the start year plus the middle day of the year over the length of
the start year. -/
theorem tdec_midpoint (f : FileDates) (y1 m1 d1 y2 m2 d2 : ℤ) (hc : Covers f y1 m1 d1 y2 m2 d2)
    (hy : y2 = y1 ∨ y2 = y1 + 1) (h4 : y1 % 4000 ≠ 0) :
    tdec f = y1 + (((dayNumber y1 m1 d1 + dayNumber y2 m2 d2 : ℤ) : ℚ) / 2
      - dayNumber y1 1 1 + 1) / yearLen y1 := by
  unfold tdec
  rw [midDay_eq f y1 m1 d1 y2 m2 d2 hc hy h4, dpy_eq f (by rw [hc.yr1]; exact h4), hc.yr1]

/-- C10 (deviation): the decimal date is exactly one day later than the decimal date
`convert_calendar_decimal` assigns to the same (one-based, possibly half) day of the year. -/
theorem tdec_one_day_late (f : FileDates) (y1 m1 d1 y2 m2 d2 : ℤ)
    (hc : Covers f y1 m1 d1 y2 m2 d2) (h4 : y1 % 4000 ≠ 0) :
    convertCalendarDecimal y1 1 none none none none (some (midDay f)) =
      some (tdec f - 1 / yearLen y1) := by
  have hd := dpy_eq f (by rw [hc.yr1]; exact h4)
  have hx := leap_stnd_exclusive y1
  have hl := leapCond_iff y1
  unfold convertCalendarDecimal tdec
  rw [hd, hc.yr1]
  unfold yearLen
  by_cases hgl : gregLeap y1
  · have e1 : leapCond y1 = true := hl.2 ⟨hgl, h4⟩
    have e2 : stndCond y1 = false := by rw [e1] at hx; simpa using hx.symm
    simp [e1, e2, hgl, dpmLeap]
    norm_num; ring
  · have e1 : leapCond y1 = false := by
      rw [Bool.eq_false_iff]; intro h; exact hgl (hl.1 h).1
    have e2 : stndCond y1 = true := by rw [e1] at hx; simpa using hx.symm
    simp [e1, e2, hgl, dpmStnd]
    norm_num; ring

theorem priorDays_eq (n : ℕ) (h : n ≤ 1998) : priorDays (2002 + n) =
    ((dayNumber (2002 + n) 1 1 - dayNumber 2002 1 1 : ℤ) : ℚ) := by
  unfold priorDays
  have : (2002 + (n : ℤ) - 2002).toNat = n := by omega
  rw [this]
  induction n with
  | zero => simp
  | succ n ih =>
    rw [List.range_succ, List.map_append, List.sum_append, ih (by omega) (by omega)]
    obtain ⟨dpm, e, -, -, -, e2, -⟩ := calendarDays_spec (2002 + n)
    have e3 := e2 (by omega)
    have := yearLen_step (2002 + n)
    simp only [List.map_cons, List.map_nil, List.sum_cons, List.sum_nil, e, Option.map_some,
      Option.getD_some, e3]
    push_cast
    rw [show (2002 + ((n : ℤ) + 1)) = 2002 + n + 1 by ring, this]
    push_cast; ring

/-- C10: the total day count is the number of days from the start of 2002 to the middle of the
file, counting 1 January 2002 as day 1. -/
theorem totDays_midpoint (f : FileDates) (y1 m1 d1 y2 m2 d2 : ℤ) (hc : Covers f y1 m1 d1 y2 m2 d2)
    (hy : y2 = y1 ∨ y2 = y1 + 1) (h0 : 2002 ≤ y1) (h1 : y1 < 4000) :
    totDays f = ((dayNumber y1 m1 d1 + dayNumber y2 m2 d2 : ℤ) : ℚ) / 2
      - dayNumber 2002 1 1 + 1 := by
  have hm := midDay_eq f y1 m1 d1 y2 m2 d2 hc hy (by omega)
  have hp := priorDays_eq (y1 - 2002).toNat (by omega)
  rw [show (2002 + ((y1 - 2002).toNat : ℤ)) = y1 by omega] at hp
  unfold midDay at hm
  unfold totDays
  rw [hc.yr1, hp]
  push_cast at hm ⊢
  linarith

/-- C10: ten-day solutions (CNES RL01/RL02) spaced by multiples of ten days are numbered by
those multiples, starting at one. -/
theorem cnes_number (first f : FileDates) (k : ℤ) (h : totDays f = totDays first + 10 * k) :
    rawMonth true first f = k + 1 := by
  unfold rawMonth npRound
  have : (1 + (totDays f - totDays first) / 10 : ℚ) = ((k + 1 : ℤ) : ℚ) := by
    rw [h]; push_cast; ring
  simp only [if_true]
  rw [this, Int.floor_intCast, if_pos (by norm_num)]

/-! ## the dictionary -/

theorem buildDict_append {N : Type} (ps qs : List (ℤ × N)) (d : ℤ → Option N) :
    (ps ++ qs).foldl (fun d (p : ℤ × N) => Function.update d p.1 (some p.2)) d =
      qs.foldl (fun d (p : ℤ × N) => Function.update d p.1 (some p.2))
        (ps.foldl (fun d (p : ℤ × N) => Function.update d p.1 (some p.2)) d) :=
  List.foldl_append

theorem foldl_update_not_mem {N : Type} (ps : List (ℤ × N)) (d : ℤ → Option N) (k : ℤ)
    (h : ∀ p ∈ ps, p.1 ≠ k) :
    ps.foldl (fun d (p : ℤ × N) => Function.update d p.1 (some p.2)) d k = d k := by
  induction ps generalizing d with
  | nil => rfl
  | cons p ps ih =>
    rw [List.foldl_cons, ih _ (fun q hq => h q (List.mem_cons_of_mem _ hq)),
      Function.update_of_ne (h p List.mem_cons_self).symm]

/-- C10: a month is a key of the dictionary exactly if it is one of the (adjusted) months. -/
theorem buildDict_keys {N : Type} (ms : List ℤ) (names : List N) (hl : ms.length = names.length)
    (k : ℤ) : (buildDict ms names k).isSome ↔ k ∈ ms := by
  unfold buildDict
  have gen : ∀ (ps : List (ℤ × N)) (d : ℤ → Option N),
      (ps.foldl (fun d (p : ℤ × N) => Function.update d p.1 (some p.2)) d k).isSome ↔
        (d k).isSome ∨ k ∈ ps.map Prod.fst := by
    intro ps
    induction ps with
    | nil => intro d; simp
    | cons p ps ih =>
      intro d
      rw [List.foldl_cons, ih]
      by_cases h : p.1 = k
      · subst h; simp
      · rw [Function.update_of_ne (Ne.symm h)]
        simp [Ne.symm h]
  rw [gen]
  simp [List.map_fst_zip (by omega : ms.length ≤ names.length)]

/-- C10: the file stored under a month is the last file of the index assigned to it. -/
theorem buildDict_last {N : Type} (ms : List ℤ) (names : List N) (hl : ms.length = names.length)
    (t : ℕ) (ht : t < ms.length) (hlast : ∀ s, t < s → (hs : s < ms.length) → ms[s] ≠ ms[t]) :
    buildDict ms names ms[t] = some names[t] := by
  unfold buildDict
  have hz : t < (ms.zip names).length := by simp; omega
  have hsplit : ms.zip names = (ms.zip names).take t ++ (ms.zip names)[t] :: (ms.zip names).drop (t + 1) := by
    rw [List.cons_getElem_drop_succ, List.take_append_drop]
  rw [hsplit, List.foldl_append, List.foldl_cons, foldl_update_not_mem]
  · simp
  · intro p hp
    obtain ⟨k, hk, rfl⟩ := List.getElem_of_mem hp
    simp only [List.length_drop, List.length_zip] at hk
    simp only [List.getElem_drop, List.getElem_zip]
    exact hlast (t + 1 + k) (by omega) (by omega)

theorem months_length (cnes : Bool) (fs : List FileDates) : (months cnes fs).length = fs.length := by
  unfold months; rw [adjustMonths_length]; simp

/-- C10: if the true months are strictly increasing and every file's mid-point month is its true
month or differs in one of the documented ways, each file is stored under its true month and
there are no other keys. -/
theorem graceDate_files {N : Type} (files : List (N × FileDates)) (t : List ℤ)
    (hlen : files.length = t.length)
    (hmono : ∀ i k, i < k → k < t.length → t.getD i 0 < t.getD k 0)
    (hest : ∀ i, i < t.length → Estimate t
      ((files.map Prod.snd).map fun f => rawMonth false ((files.map Prod.snd).headD f) f) i) :
    (∀ i (hi : i < files.length), graceDate false files (t.getD i 0) = some files[i].1) ∧
    (∀ k, (graceDate false files k).isSome ↔ k ∈ t) := by
  have hm : months false (files.map Prod.snd) = t := by
    unfold months
    exact adjustMonths_repair t _ (by simp [hlen]) hmono hest
  unfold graceDate
  rw [hm]
  constructor
  · intro i hi
    have hi' : i < t.length := by omega
    have e : t.getD i 0 = t[i] := by simp [hi']
    rw [e]
    rw [buildDict_last t (files.map Prod.fst) (by simp [hlen]) i hi']
    · simp
    · intro s hs hs'
      have := hmono i s hs hs'
      simp [hi', hs'] at this
      omega
  · intro k
    exact buildDict_keys t _ (by simp [hlen]) k

-- November 2011 of CSR: days 289-317 of 2011 (16 October to 13 November) is centred in October
example : rawMonth false ⟨2011, 289, 2011, 317⟩ ⟨2011, 289, 2011, 317⟩ = 118 := by decide +kernel
-- a span crossing a year end: 13 Dec 2011 (347) to 17 Jan 2012
example : Covers ⟨2011, 347, 2012, 17⟩ 2011 12 13 2012 1 17 :=
  ⟨by decide, by decide, rfl, rfl, by decide +kernel, by decide +kernel⟩
example : (calDate ⟨2011, 347, 2012, 17⟩).month = 12 ∧ (calDate ⟨2011, 347, 2012, 17⟩).day = 30 := by
  decide +kernel
example : ¬ Skewed 2011 1 := by decide
example : (graceDate false [("a", ⟨2002, 91, 2002, 120⟩), ("b", ⟨2002, 121, 2002, 151⟩)] 5) = some "b" := by
  decide +kernel

/-! ## C11 missing months -/

theorem mem_arange1 (e m : ℤ) : m ∈ arange1 e ↔ 1 ≤ m ∧ m < e := by
  unfold arange1
  simp only [List.mem_map, List.mem_range]
  constructor
  · rintro ⟨i, hi, rfl⟩; omega
  · rintro ⟨h1, h2⟩; exact ⟨(m - 1).toNat, by omega, by omega⟩

theorem arange1_sorted (e : ℤ) : (arange1 e).Pairwise (· < ·) := by
  unfold arange1
  rw [List.pairwise_map]
  exact List.pairwise_lt_range.imp fun h => by omega

/-- C11: `start` and `end` are the smallest and largest available month. -/
theorem findMonths_bounds (cnes : Bool) (mons : List ℤ) (r : MonthInfo)
    (h : findMonths cnes mons = some r) :
    r.start ∈ mons ∧ r.end_ ∈ mons ∧ (∀ m ∈ mons, r.start ≤ m ∧ m ≤ r.end_) ∧ r.months = mons := by
  unfold findMonths at h
  split at h
  · rename_i s e hs he
    have h1 := List.min?_eq_some_iff.1 hs
    have h2 := List.max?_eq_some_iff.1 he
    obtain rfl := Option.some.inj h
    exact ⟨h1.1, h2.1, fun m hm => ⟨h1.2 m hm, h2.2 m hm⟩, rfl⟩
  · simp at h

/-- C11: it fails only on an empty list. -/
theorem findMonths_total (cnes : Bool) (mons : List ℤ) (h : mons ≠ []) :
    ∃ r, findMonths cnes mons = some r := by
  unfold findMonths
  cases h1 : mons.min? with
  | none => simp at h1; exact absurd h1 h
  | some s =>
    cases h2 : mons.max? with
    | none => simp at h2; exact absurd h2 h
    | some e => exact ⟨_, rfl⟩

/-- C11: the missing months are strictly increasing and none is available. -/
theorem findMonths_missing_sorted (cnes : Bool) (mons : List ℤ) (r : MonthInfo)
    (h : findMonths cnes mons = some r) :
    r.missing.Pairwise (· < ·) ∧ ∀ m ∈ r.missing, m ∉ mons ∧ 1 ≤ m ∧ m < r.end_ := by
  unfold findMonths at h
  split at h
  · rename_i s e hs he
    obtain rfl := Option.some.inj h
    have hp := (arange1_sorted e).filter (fun m => decide (m ∉ mons))
    have hm : ∀ m ∈ (arange1 e).filter (fun m => decide (m ∉ mons)), m ∉ mons ∧ 1 ≤ m ∧ m < e := by
      intro m hm
      rw [List.mem_filter, mem_arange1] at hm
      exact ⟨by simpa using hm.2, hm.1⟩
    constructor
    · simp only; split_ifs
      · exact hp
      · exact hp.sublist (List.drop_sublist _ _)
    · intro m hmm
      simp only at hmm ⊢
      split_ifs at hmm
      · exact hm m hmm
      · exact hm m (List.mem_of_mem_drop hmm)
  · simp at h

theorem arange1_split (e : ℤ) (h : 4 ≤ e) :
    arange1 e = [1, 2, 3] ++ (List.range (e - 4).toNat).map fun i : ℕ => (i : ℤ) + 4 := by
  unfold arange1
  have : (e - 1).toNat = 3 + (e - 4).toNat := by omega
  rw [this, List.range_add, List.map_append, List.map_map]
  congr 1
  apply List.map_congr_left
  intro i _; simp; ring

/-- C11: when no month before April 2002 is available, a month is reported missing exactly if it
lies between month 4 and the last month and is not available. -/
theorem findMonths_exact (mons : List ℤ) (r : MonthInfo) (h : findMonths false mons = some r)
    (h3 : ∀ m ∈ mons, 4 ≤ m) (m : ℤ) :
    m ∈ r.missing ↔ 4 ≤ m ∧ m < r.end_ ∧ m ∉ mons := by
  have hb := findMonths_bounds false mons r h
  have he4 := h3 _ hb.2.1
  unfold findMonths at h
  split at h
  · rename_i s e hs he
    obtain rfl := Option.some.inj h
    simp only [Bool.false_eq_true, if_false] at he4 ⊢
    rw [arange1_split e he4, List.filter_append]
    have n1 : (1:ℤ) ∉ mons := fun hh => by have := h3 _ hh; omega
    have n2 : (2:ℤ) ∉ mons := fun hh => by have := h3 _ hh; omega
    have n3 : (3:ℤ) ∉ mons := fun hh => by have := h3 _ hh; omega
    have e3 : List.filter (fun m => decide (m ∉ mons)) [1, 2, 3] = [1, 2, 3] := by
      simp [List.filter, n1, n2, n3]
    rw [e3]
    simp only [List.cons_append, List.nil_append, List.drop_succ_cons, List.drop_zero,
      List.mem_filter, List.mem_map, List.mem_range, decide_eq_true_eq]
    constructor
    · rintro ⟨⟨i, hi, rfl⟩, hn⟩; exact ⟨by omega, by omega, hn⟩
    · rintro ⟨h1, h2, hn⟩; exact ⟨⟨(m - 4).toNat, by omega, by omega⟩, hn⟩
  · simp at h

/-- C11 (ten-day solutions): every absent number from 1 up to the last one is reported. -/
theorem findMonths_exact_cnes (mons : List ℤ) (r : MonthInfo) (h : findMonths true mons = some r)
    (m : ℤ) : m ∈ r.missing ↔ 1 ≤ m ∧ m < r.end_ ∧ m ∉ mons := by
  unfold findMonths at h
  split at h
  · rename_i s e hs he
    obtain rfl := Option.some.inj h
    simp only [if_true, List.mem_filter, mem_arange1, decide_eq_true_eq]
    tauto
  · simp at h

/-- C11 (deviation): the first three *absent* months are dropped whatever they are; with a month
before April 2002 available, a genuinely missing later month is not reported. -/
theorem findMonths_dropped : ∃ r, findMonths false [1, 6, 7] = some r ∧ 4 ∉ r.missing ∧
    (4:ℤ) ∉ [1, 6, 7] ∧ r.end_ = 7 :=
  ⟨⟨1, 7, [5], [1, 6, 7]⟩, by decide, by decide, by decide, rfl⟩

/-- C11: with at least one available month from 4 on, the number of reported months plus three is
the number of absent months in `1..end-1` (so exactly three are dropped). -/
theorem findMonths_count (mons : List ℤ) (r : MonthInfo) (h : findMonths false mons = some r)
    (h3 : 3 ≤ ((arange1 r.end_).filter fun m => decide (m ∉ mons)).length) :
    r.missing.length + 3 = ((arange1 r.end_).filter fun m => decide (m ∉ mons)).length := by
  unfold findMonths at h
  split at h
  · rename_i s e hs he
    obtain rfl := Option.some.inj h
    simp only [Bool.false_eq_true, if_false, List.length_drop] at h3 ⊢
    omega
  · simp at h

example : (findMonths false [4, 5, 8, 10]).map MonthInfo.missing = some [6, 7, 9] := by decide

/-- C12: the months read are exactly those from start to end that are not excluded, in
increasing order. -/
theorem inputMonths_spec (s e : ℤ) (missing : List ℤ) :
    (inputMonths s e missing).Pairwise (· < ·) ∧
    ∀ m, m ∈ inputMonths s e missing ↔ s ≤ m ∧ m ≤ e ∧ m ∉ missing := by
  unfold inputMonths
  constructor
  · apply List.Pairwise.filter
    rw [List.pairwise_map]
    exact List.pairwise_lt_range.imp fun h => by omega
  · intro m
    simp only [List.mem_filter, List.mem_map, List.mem_range, decide_eq_true_eq]
    constructor
    · rintro ⟨⟨i, hi, rfl⟩, h⟩; exact ⟨by omega, by omega, h⟩
    · rintro ⟨h1, h2, h⟩; exact ⟨⟨(m - s).toNat, by omega, by omega⟩, h⟩

/-- C11/C12: with the bounds and missing months found by `grace_find_months` (no month before
April 2002), reading from start to end reads exactly the available months. -/
theorem inputMonths_findMonths (mons : List ℤ) (r : MonthInfo)
    (h : findMonths false mons = some r) (h3 : ∀ m ∈ mons, 4 ≤ m) (m : ℤ) :
    m ∈ inputMonths r.start r.end_ r.missing ↔ m ∈ mons := by
  rw [(inputMonths_spec _ _ _).2, findMonths_exact mons r h h3]
  obtain ⟨b1, b2, b3, -⟩ := findMonths_bounds false mons r h
  constructor
  · rintro ⟨h1, h2, hn⟩
    by_contra hm
    have hend : m ≠ r.end_ := fun e => hm (e ▸ b2)
    have : 4 ≤ r.start := h3 _ b1
    exact hn ⟨by omega, by omega, hm⟩
  · intro hm
    exact ⟨(b3 m hm).1, (b3 m hm).2, fun hh => hh.2.2 hm⟩

end Verif.Dates
