import Verif.Dealias.Model
import Verif.Time.Julian
import Mathlib.Tactic.IntervalCases

/-!
# Days of a month (C86)
-/
namespace Verif.Dealias
open Verif.Time Verif.Time.Spec

/-! ## Specification -/

/-- the years at the turn of a century without leap day: 1899, 1900, 2099, 2100, ... -/
def Turn (y : ℤ) : Prop := (y % 100 = 99 ∨ y % 100 = 0) ∧ ((y + 1) / 100) % 4 ≠ 0

instance (y : ℤ) : Decidable (Turn y) := by unfold Turn; infer_instance

/-- the calendar date `k` days after a date -/
def later : ℕ → ℤ × ℤ × ℤ → ℤ × ℤ × ℤ
  | 0, p => p
  | k + 1, p => later k (nextDay p.1 p.2.1 p.2.2)

/-! ## Proofs -/

theorem julian_day_value (y n : ℤ) :
    calcJulianDay y n = dayNumber y 1 1 + n - 1 + 2400000.5 - (if Turn y then 1 else 0) := by
  have h1 : ⌊7 * ((y : ℚ) + ⌊(10 : ℚ) / 12⌋) / 4⌋ = 7 * y / 4 := by
    have : ⌊(10 : ℚ) / 12⌋ = 0 := by norm_num [Int.floor_eq_iff]
    rw [this]
    have e : (7 * ((y : ℚ) + ((0 : ℤ) : ℚ)) / 4) = ((7 * y : ℤ) : ℚ) / ((4 : ℤ) : ℚ) := by push_cast; ring
    rw [e]
    exact_mod_cast Rat.floor_intCast_div_natCast (7 * y) 4
  have h2 : ⌊((y : ℚ) + 8 / 7) / 100⌋ = (y + 1) / 100 := by
    rw [Int.floor_eq_iff]
    have a := Int.emod_add_mul_ediv (y + 1) 100
    have b := Int.emod_nonneg (y + 1) (show (100 : ℤ) ≠ 0 by norm_num)
    have c := Int.emod_lt_of_pos (y + 1) (show (0 : ℤ) < 100 by norm_num)
    have c' : (y + 1) % 100 ≤ 99 := by omega
    have aq : (((y + 1) % 100 : ℤ) : ℚ) + 100 * (((y + 1) / 100 : ℤ) : ℚ) = (y : ℚ) + 1 := by exact_mod_cast a
    have bq : (0 : ℚ) ≤ (((y + 1) % 100 : ℤ) : ℚ) := by exact_mod_cast b
    have cq : (((y + 1) % 100 : ℤ) : ℚ) ≤ 99 := by exact_mod_cast c'
    constructor
    · rw [le_div_iff₀ (by norm_num)]; linarith
    · rw [div_lt_iff₀ (by norm_num)]; linarith
  have h3 : ⌊3 * (((((y + 1) / 100 : ℤ)) : ℚ) + 1) / 4⌋ = 3 * ((y + 1) / 100 + 1) / 4 := by
    have e : (3 * (((((y + 1) / 100 : ℤ)) : ℚ) + 1) / 4) = ((3 * ((y + 1) / 100 + 1) : ℤ) : ℚ) / ((4 : ℤ) : ℚ) := by
      push_cast; ring
    rw [e]
    exact_mod_cast Rat.floor_intCast_div_natCast (3 * ((y + 1) / 100 + 1)) 4
  have h4 : ⌊(275 : ℚ) / 9⌋ = 30 := by norm_num [Int.floor_eq_iff]
  unfold calcJulianDay
  rw [h1, h2, h3, h4]
  have key : 367 * y - 7 * y / 4 - 3 * ((y + 1) / 100 + 1) / 4 + 30 + n + 1721028 =
      dayNumber y 1 1 + n - 1 + 2400000 - (if Turn y then 1 else 0) := by
    have hd : dayNumber y 1 1 = 365 * (y - 1) + (y - 1) / 4 - (y - 1) / 100 + (y - 1) / 400 + 1 - 678576 := by
      unfold dayNumber daysBefore; simp
    rw [hd]
    unfold Turn
    have hq : (y + 1) / 100 % 4 = 0 ∨ (y + 1) / 100 % 4 = 1 ∨ (y + 1) / 100 % 4 = 2 ∨ (y + 1) / 100 % 4 = 3 := by omega
    have h4 : y % 4 = 0 ∨ y % 4 = 1 ∨ y % 4 = 2 ∨ y % 4 = 3 := by omega
    have e7 : 7 * y / 4 = y + 3 * (y / 4) + 3 * (y % 4) / 4 := by omega
    have e1 : (y - 1) / 100 = (y + 1) / 100 - (if y % 100 = 99 ∨ y % 100 = 0 then 1 else 0) := by split_ifs <;> omega
    have e4 : (y - 1) / 400 = ((y - 1) / 100) / 4 := by omega
    rw [e4, e1, e7]
    rcases hq with h | h | h | h <;> rcases h4 with k | k | k | k <;> split_ifs with ht <;> omega
  have kq : (367 * (y : ℚ) - ((7 * y / 4 : ℤ) : ℚ) - ((3 * ((y + 1) / 100 + 1) / 4 : ℤ) : ℚ) + 30 + n + 1721028) =
      dayNumber y 1 1 + n - 1 + 2400000 - (if Turn y then 1 else 0) := by
    have := congrArg (fun z : ℤ => (z : ℚ)) key
    push_cast at this ⊢
    convert this using 1
  push_cast at kq ⊢
  linarith

theorem later_number (k : ℕ) (p : ℤ × ℤ × ℤ) (hv : Valid p.1 p.2.1 p.2.2) :
    Valid (later k p).1 (later k p).2.1 (later k p).2.2 ∧
    dayNumber (later k p).1 (later k p).2.1 (later k p).2.2 = dayNumber p.1 p.2.1 p.2.2 + k := by
  induction k generalizing p with
  | zero => exact ⟨hv, by simp [later]⟩
  | succ k ih =>
    obtain ⟨a, b⟩ := dayNumber_next p.1 p.2.1 p.2.2 hv
    obtain ⟨c, d⟩ := ih (nextDay p.1 p.2.1 p.2.2) a
    refine ⟨c, ?_⟩
    have e : later (k + 1) p = later k (nextDay p.1 p.2.1 p.2.2) := rfl
    rw [e, d, b]; push_cast; ring

theorem later_year (y : ℤ) (k : ℕ) (hk : (k : ℤ) < yearLen y) : (later k (y, 1, 1)).1 = y := by
  have hv : Valid y 1 1 := by unfold Valid monthLen; norm_num
  obtain ⟨a, b⟩ := later_number k (y, 1, 1) hv
  generalize later k (y, 1, 1) = q at a b
  obtain ⟨y', m', d'⟩ := q
  simp only at a b ⊢
  obtain ⟨h1, h2, h3, h4⟩ := a
  have hy : 0 ≤ daysBefore y' m' + d' - 1 ∧ daysBefore y' m' + d' - 1 < yearLen y' := by
    unfold monthLen at h4; unfold daysBefore yearLen
    interval_cases m' <;> simp at h4 ⊢ <;> (try split_ifs at h4 ⊢) <;> omega
  have e : dayNumber y' m' d' = dayNumber y' 1 1 + (daysBefore y' m' + d' - 1) := by
    unfold dayNumber
    have : daysBefore y' 1 = 0 := by simp [daysBefore]
    rw [this]; ring
  have f : ∀ z, dayNumber z 1 1 = 365 * (z - 1) + (z - 1) / 4 - (z - 1) / 100 + (z - 1) / 400 + 1 - 678576 := by
    intro z; unfold dayNumber daysBefore; simp
  have g : ∀ z, dayNumber (z + 1) 1 1 = dayNumber z 1 1 + yearLen z := by
    intro z; rw [f, f]; unfold yearLen gregLeap; split_ifs <;> omega
  have mono : ∀ (z : ℤ) (j : ℕ), dayNumber z 1 1 ≤ dayNumber (z + j) 1 1 := by
    intro z j
    induction j with
    | zero => simp
    | succ j ih =>
      have := g (z + j)
      have h0 : 0 ≤ yearLen (z + j) := by unfold yearLen; split_ifs <;> norm_num
      rw [show z + ((j + 1 : ℕ) : ℤ) = z + j + 1 by push_cast; ring]
      omega
  by_contra hne
  rcases lt_or_gt_of_ne hne with h | h
  · have := mono (y' + 1) (y - (y' + 1)).toNat
    rw [show y' + 1 + (((y - (y' + 1)).toNat : ℕ) : ℤ) = y by omega] at this
    have := g y'
    omega
  · have := mono (y + 1) (y' - (y + 1)).toNat
    rw [show y + 1 + (((y' - (y + 1)).toNat : ℕ) : ℤ) = y' by omega] at this
    have := g y
    omega

theorem dayOf_number (y m d : ℤ) (hv : Valid y m d) (hg : -100840 ≤ dayNumber y m d) :
    dayOf (dayNumber y m d + 2400000.5) = (y, m, d) := by
  have := convertJulian_inverse y m d 0 0 0 hv hg (by norm_num) (by norm_num) (by norm_num)
  simp only [Int.cast_zero, zero_div, add_zero] at this
  unfold dayOf
  rw [this]

theorem later_add (a b : ℕ) (p : ℤ × ℤ × ℤ) : later a (later b p) = later (b + a) p := by
  induction b generalizing p with
  | zero => simp [later]
  | succ b ih => rw [Nat.succ_add]; exact ih _

theorem valid_newYear (y : ℤ) : Valid y 1 1 := by unfold Valid monthLen; norm_num

theorem newYear_bound (y : ℤ) (hy : 1583 ≤ y) : -100839 ≤ dayNumber y 1 1 := by
  unfold dayNumber daysBefore; simp; omega

/-- the date of the day of the year `n` -/
theorem dayOf_julian (y n : ℤ) (hy : 1583 ≤ y) (hn : 1 ≤ n) :
    dayOf (calcJulianDay y n) =
      if Turn y then (if n = 1 then (y - 1, 12, 31) else later (n - 2).toNat (y, 1, 1)) else later (n - 1).toNat (y, 1, 1) := by
  have hb := newYear_bound y hy
  rw [julian_day_value]
  have key : ∀ k : ℕ, dayOf ((dayNumber y 1 1 : ℚ) + k + 2400000.5) = later k (y, 1, 1) := by
    intro k
    obtain ⟨a, b⟩ := later_number k (y, 1, 1) (valid_newYear y)
    have := dayOf_number _ _ _ a (by rw [b]; simp only; omega)
    rw [b] at this
    push_cast at this
    exact this
  split_ifs with ht h1
  · subst h1
    have hd : dayNumber (y - 1) 12 31 = dayNumber y 1 1 - 1 := by
      have hv : Valid (y - 1) 12 31 := by unfold Valid monthLen; norm_num
      have := (dayNumber_next (y - 1) 12 31 hv).2
      have e : nextDay (y - 1) 12 31 = (y, 1, 1) := by simp [nextDay, monthLen]
      rw [e] at this
      simp only at this
      omega
    have := dayOf_number (y - 1) 12 31 (by unfold Valid monthLen; norm_num) (by rw [hd]; omega)
    rw [hd] at this
    rw [← this]; congr 1; push_cast; ring
  · rw [← key]
    congr 1
    have : (((n - 2).toNat : ℕ) : ℚ) = (n : ℚ) - 2 := by
      have : (((n - 2).toNat : ℕ) : ℤ) = n - 2 := by omega
      exact_mod_cast this
    rw [this]; ring
  · rw [← key]
    congr 1
    have : (((n - 1).toNat : ℕ) : ℚ) = (n : ℚ) - 1 := by
      have : (((n - 1).toNat : ℕ) : ℤ) = n - 1 := by omega
      exact_mod_cast this
    rw [this]; ring

/-- C86: the days read for a month inside a year are the calendar days from the first to the last day of the year that
the file of dates names, one after the other, all in that year (1583 and later, except at the turn of the centuries) -/
theorem days_of_month (r : DateRow) (hs : r.styr = r.endyr) (hy : 1583 ≤ r.styr) (ht : ¬ Turn r.styr) (h1 : 1 ≤ r.stday)
    (h3 : r.endday ≤ yearLen r.styr) :
    ∃ days, daysToRead r = some days ∧ days.length = (r.endday + 1 - r.stday).toNat ∧
      (∀ i : ℕ, i < days.length → (days[i]?).map dayOf = some (later i (later (r.stday - 1).toNat (r.styr, 1, 1)))) ∧
      (∀ jd ∈ days, (dayOf jd).1 = r.styr) := by
  refine ⟨(List.range (r.endday + 1 - r.stday).toNat).map fun i : ℕ => calcJulianDay r.styr (r.stday + i), ?_, by simp, ?_, ?_⟩
  · unfold daysToRead
    rw [if_neg (by simpa using hs)]
  · intro i hi
    simp only [List.length_map, List.length_range] at hi
    rw [List.getElem?_map, List.getElem?_range hi, Option.map_some, Option.map_some,
      dayOf_julian _ _ hy (by omega), if_neg ht, later_add]
    congr 2
    omega
  · intro jd hj
    simp only [List.mem_map, List.mem_range] at hj
    obtain ⟨i, hi, rfl⟩ := hj
    rw [dayOf_julian _ _ hy (by omega), if_neg ht]
    exact later_year _ _ (by omega)

/-- C86 (deviation): in 1899, 1900, 2099, 2100 and the other years at the turn of a century without leap day, the day
before is read for each day -/
theorem days_turn (y n : ℤ) (hy : 1583 ≤ y) (ht : Turn y) (hn : 2 ≤ n) :
    dayOf (calcJulianDay y n) = later (n - 2).toNat (y, 1, 1) ∧ dayOf (calcJulianDay y 1) = (y - 1, 12, 31) := by
  rw [dayOf_julian y n hy (by omega), dayOf_julian y 1 hy (by omega), if_pos ht, if_pos ht, if_neg (by omega), if_pos rfl]
  exact ⟨rfl, rfl⟩

/-- C86 (deviation): a month that begins in one year and ends in another always raises an exception -/
theorem days_across (r : DateRow) (h : r.styr ≠ r.endyr) : daysToRead r = none := by
  unfold daysToRead; exact if_pos h

/-- the years of the missions are not at the turn of a century -/
example : ∀ y, 1976 ≤ y → y ≤ 2098 → ¬ Turn y := by
  intro y h1 h2; unfold Turn; omega

/-- days 93 to 120 of 2004 are 2 April to 29 April -/
example : (daysToRead ⟨2004.29, 28, 2004, 93, 2004, 120, 28⟩).map (fun d => (d.map dayOf).head?) = some (some (2004, 4, 2)) ∧
    (daysToRead ⟨2004.29, 28, 2004, 93, 2004, 120, 28⟩).map (fun d => (d.map dayOf).getLast?) = some (some (2004, 4, 29)) := by
  decide +kernel

example : Turn 2099 ∧ dayOf (calcJulianDay 2099 32) = (2099, 1, 31) := by decide +kernel

end Verif.Dealias
