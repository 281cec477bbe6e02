import Verif.Fetch.Props
import Verif.Names.Search
import Mathlib.Tactic.IntervalCases

/-!
# The dated copy of the file of the Goddard Space Flight Center (C109)
-/
namespace Verif.Fetch
open Verif.Utilities Verif.GeoRead Verif.Names Verif.SLR

/-- names of the months as they are written in the file -/
def monText (m : ℕ) : Str :=
  (["Jan", "Feb", "Mar", "Apr", "May", "Jun", "Jul", "Aug", "Sep", "Oct", "Nov", "Dec"].map String.toList).getD (m - 1) []

/-- one or two digits, the name of the month and four digits, separated by blanks; they make a date -/
def IsDay (ds : Str) (m y : ℕ) : Prop :=
  (ds.length = 1 ∨ ds.length = 2) ∧ (∀ c ∈ ds, c.isDigit = true) ∧ (1 ≤ m ∧ m ≤ 12) ∧ (1000 ≤ y ∧ y ≤ 9999) ∧ 1 ≤ digitsVal ds ∧
    digitsVal ds ≤ monthDays y m

/-- such a date as text -/
def dayText (ds : Str) (m y : ℕ) : Str := ds ++ ' ' :: monText m ++ ' ' :: pad4 y

theorem monText_chars (m : ℕ) (h : 1 ≤ m ∧ m ≤ 12) : ∃ a b c, monText m = [a, b, c] ∧ a.isAlpha = true ∧ b.isAlpha = true ∧ c.isAlpha = true ∧
    monthNames.findIdx (· == [a.toLower, b.toLower, c.toLower]) = m - 1 := by
  obtain ⟨h1, h2⟩ := h
  interval_cases m <;> exact ⟨_, _, _, rfl, by decide +kernel⟩

theorem pad4_digit (y : ℕ) : ∀ c ∈ pad4 y, c.isDigit = true := by
  intro c hc
  simp only [pad4, List.mem_cons, List.not_mem_nil, or_false] at hc
  rcases hc with rfl | rfl | rfl | rfl <;> exact dchar_isDigit _

/-- a word of letters followed by a blank -/
theorem first_word (a b c : Char) (r : Str) (ha : a.isAlpha = true) (hb : b.isAlpha = true) (hc : c.isAlpha = true) :
    First (times 3 (.chr fun c => c.isAlphanum || c == '_')) (a :: b :: c :: r) [] r := by
  have h : ∀ x : Char, x.isAlpha = true → (x.isAlphanum || x == '_') = true := by
    intro x hx; simp [Char.isAlphanum, hx]
  exact first_cat (c := []) (d := []) (first_chr _ _ _ (h a ha)) (first_cat (c := []) (d := []) (first_chr _ _ _ (h b hb))
    (first_cat (c := []) (d := []) (first_chr _ _ _ (h c hc)) (first_cat_nil r)))

theorem first_day (ds : Str) (m y : ℕ) (h : IsDay ds m y) (r : Str) :
    First dayRe (dayText ds m y ++ r) [(0, dayText ds m y)] r := by
  obtain ⟨a, b, c, hm, ha, hb, hc, -⟩ := monText_chars m h.2.2.1
  refine first_grp 0 ?_
  have e : dayText ds m y ++ r = ds ++ (' ' :: a :: b :: c :: ' ' :: (pad4 y ++ r)) := by
    simp [dayText, hm]
  rw [e]
  have hne : ds ≠ [] := by
    intro h0
    rw [h0] at h
    rcases h.1 with h | h <;> simp at h
  exact first_cat (c := []) (d := []) (first_digits ds _ hne h.2.1 (by intro x hx; simp at hx; subst hx; decide))
    (first_cat (c := []) (d := []) (first_chr _ _ _ (by decide)) (first_cat (c := []) (d := []) (first_word a b c _ ha hb hc)
      (first_cat (c := []) (d := []) (first_chr _ _ _ (by decide))
        (first_cat (c := []) (d := []) (first_times (pad4 y) r (pad4_digit y)) (first_cat_nil r)))))

theorem runs_day_none (c : Char) (r : Str) (h : c.isDigit = false) : runs dayRe (c :: r) = [] := by
  simp [dayRe, runs, cat, digits, Names.digit, h]

theorem runs_day_nil : runs dayRe [] = [] := by decide +kernel

/-- text without digits is skipped -/
theorem findallN_gap (u : Str) (hu : ∀ c ∈ u, c.isDigit = false) : ∀ (n : ℕ) (r : Str), u.length + r.length < n →
    ∃ k, r.length < k ∧ findallN n dayRe (u ++ r) = findallN k dayRe r := by
  induction u with
  | nil => intro n r hn; exact ⟨n, by simpa using hn, rfl⟩
  | cons c u ih =>
    intro n r hn
    obtain ⟨k, rfl⟩ : ∃ k, n = k + 1 := ⟨n - 1, by omega⟩
    obtain ⟨j, hj, he⟩ := ih (fun x hx => hu x (by simp [hx])) k r (by simp at hn; omega)
    refine ⟨j, hj, ?_⟩
    rw [List.cons_append, findallN, runs_day_none c _ (hu c (by simp))]
    simpa using he

theorem findallN_day (ds : Str) (m y : ℕ) (h : IsDay ds m y) (r : Str) (n : ℕ) (hn : (dayText ds m y).length + r.length < n) :
    ∃ k, r.length < k ∧ findallN n dayRe (dayText ds m y ++ r) = [(0, dayText ds m y)] :: findallN k dayRe r := by
  obtain ⟨k, rfl⟩ : ∃ k, n = k + 1 := ⟨n - 1, by omega⟩
  have hl : 0 < (dayText ds m y).length := by simp [dayText]
  obtain ⟨l, hl'⟩ := (first_iff ..).1 (first_day ds m y h r)
  refine ⟨k, by omega, ?_⟩
  rw [findallN, hl']
  simp only
  rw [if_pos (by simp; omega)]

theorem dayMonthYear_right (ds : Str) (m y : ℕ) (h : IsDay ds m y) : dayMonthYear (dayText ds m y) = some (y, m) := by
  obtain ⟨a, b, c, hm, -, -, -, hk⟩ := monText_chars m h.2.2.1
  obtain ⟨h1, h2, ⟨h3, h3'⟩, ⟨h4, h4'⟩, h5, h6⟩ := h
  have e : dayText ds m y = ds ++ ' ' :: a :: b :: c :: ' ' :: pad4 y := by simp [dayText, hm]
  have t1 : (dayText ds m y).takeWhile Char.isDigit = ds := by
    rw [e, List.takeWhile_append_of_pos h2]; simp
  have t2 : (dayText ds m y).dropWhile Char.isDigit = ' ' :: a :: b :: c :: ' ' :: pad4 y := by
    rw [e, List.dropWhile_append_of_pos h2]; simp
  unfold dayMonthYear
  simp only [t1, t2, hk, pad4_val y (by omega)]
  have hm1 : m - 1 + 1 = m := by omega
  rw [if_pos, hm1]
  rw [hm1]
  exact ⟨h1, by decide, by decide, by omega, rfl, List.all_eq_true.2 (pad4_digit y), by omega, h5, h6⟩

/-- **C109** the name of the dated copy: months of the two dates in the only line with the span of the data -/
theorem gsfc_copyName (before after : List Str) (u v x ds1 ds2 : Str) (m1 y1 m2 y2 : ℕ) (h1 : IsDay ds1 m1 y1) (h2 : IsDay ds2 m2 y2)
    (hu : ∀ c ∈ u, c.isDigit = false) (hv : ∀ c ∈ v, c.isDigit = false) (hx : ∀ c ∈ x, c.isDigit = false)
    (hb : ∀ l ∈ before, ¬ "Data span:".toList <+: l) (ha : ∀ l ∈ after, ¬ "Data span:".toList <+: l) :
    copyName (before ++ ("Data span:".toList ++ u ++ dayText ds1 m1 y1 ++ v ++ dayText ds2 m2 y2 ++ x) :: after) =
      some ("GSFC_SLR_5x5c61s61_".toList ++ (pad4 y1 ++ pad2 m1) ++ "_".toList ++ (pad4 y2 ++ pad2 m2) ++ ".txt".toList) := by
  set line := "Data span:".toList ++ u ++ dayText ds1 m1 y1 ++ v ++ dayText ds2 m2 y2 ++ x with hline
  have hf : (before ++ line :: after).filter (fun l => "Data span:".toList.isPrefixOf l) = [line] := by
    have no : ∀ L : List Str, (∀ l ∈ L, ¬ "Data span:".toList <+: l) → L.filter (fun l => "Data span:".toList.isPrefixOf l) = [] := by
      intro L hL
      rw [List.filter_eq_nil_iff]
      intro l hl
      rw [List.isPrefixOf_iff_prefix]
      exact hL l hl
    rw [List.filter_append, no before hb, List.filter_cons_of_pos (by
      rw [List.isPrefixOf_iff_prefix, hline]
      simp only [List.append_assoc]
      exact List.prefix_append _ _), no after ha]
    rfl
  have hd : ∀ c ∈ "Data span:".toList ++ u, c.isDigit = false := by
    intro c hc
    rcases List.mem_append.1 hc with hc | hc
    · exact (show ∀ c ∈ "Data span:".toList, c.isDigit = false by decide +kernel) c hc
    · exact hu c hc
  have hfind : findall dayRe line = [[(0, dayText ds1 m1 y1)], [(0, dayText ds2 m2 y2)]] := by
    have e : line = ("Data span:".toList ++ u) ++ (dayText ds1 m1 y1 ++ (v ++ (dayText ds2 m2 y2 ++ (x ++ [])))) := by
      rw [hline]; simp only [List.append_assoc, List.append_nil]
    unfold findall
    have hlen : ("Data span:".toList ++ u).length + (dayText ds1 m1 y1 ++ (v ++ (dayText ds2 m2 y2 ++ (x ++ [])))).length < line.length + 1 := by
      rw [e]; simp only [List.length_append]; omega
    rw [e] at hlen ⊢
    obtain ⟨k1, l1, e1⟩ := findallN_gap _ hd _ _ hlen
    rw [List.length_append] at l1
    obtain ⟨k2, l2, e2⟩ := findallN_day ds1 m1 y1 h1 _ k1 l1
    rw [List.length_append] at l2
    obtain ⟨k3, l3, e3⟩ := findallN_gap v hv k2 _ l2
    rw [List.length_append] at l3
    obtain ⟨k4, l4, e4⟩ := findallN_day ds2 m2 y2 h2 _ k3 l3
    rw [List.length_append] at l4
    obtain ⟨k5, l5, e5⟩ := findallN_gap x hx k4 _ l4
    rw [e1, e2, e3, e4, e5]
    obtain ⟨k, rfl⟩ : ∃ k, k5 = k + 1 := ⟨k5 - 1, by simp at l5; omega⟩
    rw [findallN, runs_day_nil]
    rfl
  unfold copyName
  rw [hf]
  simp only
  rw [hfind]
  simp only [List.map_cons, List.map_nil, group, List.lookup, Option.getD_some, beq_self_eq_true]
  rw [dayMonthYear_right ds1 m1 y1 h1, dayMonthYear_right ds2 m2 y2 h2]
  simp only [yearMonth, List.append_assoc]

/-- **C109** no name: no line with the span, or more than one -/
theorem gsfc_noName (lines : List Str) (h : (lines.filter fun l => "Data span:".toList.isPrefixOf l).length ≠ 1) : copyName lines = none := by
  unfold copyName
  rcases hl : lines.filter fun l => "Data span:".toList.isPrefixOf l with _ | ⟨a, _ | ⟨b, r⟩⟩
  · rfl
  · rw [hl] at h; simp at h
  · rfl

example : copyName ["Title".toList, "Data span:  1 Nov 1993 - 28 Dec 2020".toList] =
    some "GSFC_SLR_5x5c61s61_199311_202012.txt".toList := by decide +kernel

example : IsDay "1".toList 11 1993 ∧ IsDay "29".toList 2 2020 := by
  unfold IsDay; decide +kernel

end Verif.Fetch
