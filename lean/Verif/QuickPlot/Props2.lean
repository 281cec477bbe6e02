import Verif.QuickPlot.Props

/-!
# C107: what a plot prints and draws
-/
namespace Verif.QuickPlot
open Verif.TimeSeries Verif.RegMaps Verif.Summary

/-! ## The fits -/

theorem fitted_waves : fitted defaultCycles = waves := default_right.2.2.2.trans default_right.2.2.1

theorem plotFit_eq (lib : Lib) (rows : List Row) (o : ℕ) :
    plotFit lib rows o = quickFit lib (rows.map asMap) (some o) none defaultCycles (plan (polyPlan o) defaultCycles) := by
  have h1 : remaining (plan (polyPlan o) defaultCycles) defaultCycles = [1 / 2, 1] := by
    rw [remaining_eq _ _ rfl]
    unfold defaultCycles
    decide +kernel
  have h2 : (plan (polyPlan o) defaultCycles).periods = [161] := by
    rw [(plan_eq _ _).2.2.2.1]
    have : (defaultCycles.flatMap near).map Tide.days = [161] := by unfold defaultCycles; decide +kernel
    rw [this]; rfl
  unfold plotFit quickFit
  simp only [h1, termsOf, h2, List.map_cons, List.map_nil, List.flatMap_cons, List.flatMap_nil, List.append_nil]
  norm_num

/-- the fit of second order is possible only when that of first order is -/
theorem independent_down (xs : List InMap) (h : Independent xs (comps 2 waves)) : Independent xs (comps 1 waves) := by
  intro v hv k hk
  have hl1 : (comps 1 waves).length = 10 := by simp [comps, waves]
  have hl2 : (comps 2 waves).length = 11 := by simp [comps, waves]
  have key : ∀ t, curve (meanDate xs) (comps 2 waves) (fun k => if k < 2 then v k else if k = 2 then 0 else v (k - 1)) t =
      curve (meanDate xs) (comps 1 waves) v t := by
    intro t
    unfold curve
    rw [hl1, hl2]
    simp [Finset.sum_range_succ, comps, waves, List.range_succ]
  have h0 := h (fun k => if k < 2 then v k else if k = 2 then 0 else v (k - 1)) (fun x hx => by rw [key]; exact hv x hx)
  rw [hl1] at hk
  rcases Nat.lt_or_ge k 2 with hk2 | hk2
  · have := h0 k (by omega)
    simpa [hk2] using this
  · have := h0 (k + 1) (by omega)
    simpa [show ¬ k + 1 < 2 by omega, show ¬ k + 1 = 2 by omega] using this

/-- the rows of the fits -/
def rowsOf (f : File) : List Row := f.lines.map Line.row

/-- C107: the two fits -/
theorem fits (lib : Lib) (rows : List Row) (o : ℕ) :
    ((plotFit lib rows o).isSome ↔ 2 ≤ rows.length ∧ Independent (series rows) (comps o waves)) ∧
    ∀ x, plotFit lib rows o = some x → OrderFit lib rows o waves (numbersOf x (1 + o)) := by
  rw [plotFit_eq]
  constructor
  · rw [order_fits, fitted_waves]
  · intro x hq
    obtain ⟨h1, h2⟩ := order_numbers lib rows o defaultCycles _ rfl x hq
    rw [fitted_waves] at h1 h2
    refine ⟨h1, waves_agree x _ _, fun hn => ?_⟩
    obtain ⟨G, hG, S, hS, q1, q2⟩ := h2 hn
    exact ⟨G, S, hG, hS, q1, q2⟩

/-- C107: what is printed.  With fewer than two lines, or when some combination of the eleven functions of the second fit vanishes
at all dates, nothing is printed and the run ends.  Otherwise the trend is the coefficient of time in the only least squares fit with a
line and the four waves, the acceleration is twice the coefficient of the square in the one with a parabola, both with the half
widths of their confidence intervals, and the difference of the criteria is that of the two fits -/
theorem printed_right (lib : Lib) (i : ℕ) (individual error monthly : Bool) (f : File) (out : Outcome)
    (h : runPlot lib i individual error monthly f = out) :
    (¬ (2 ≤ f.lines.length ∧ Independent (series (rowsOf f)) (comps 2 waves)) →
      out.printed = none ∧ out.curve = none ∧ (out.err = some .data ∨ out.err = some .fit)) ∧
    (2 ≤ f.lines.length ∧ Independent (series (rowsOf f)) (comps 2 waves) →
      ∃ m1 m2, OrderFit lib (rowsOf f) 1 waves m1 ∧ OrderFit lib (rowsOf f) 2 waves m2 ∧
        out.printed = some ⟨m1.v 1, m1.c 1, 2 * m2.v 2, 2 * m2.c 2, m2.AIC - m1.AIC⟩) := by
  subst h
  obtain ⟨ls, four⟩ := f
  rcases ls with _ | ⟨first, _ | ⟨second, rest⟩⟩
  · exact ⟨fun _ => ⟨rfl, rfl, .inl rfl⟩, fun h => by simp at h⟩
  · exact ⟨fun _ => ⟨rfl, rfl, .inl rfl⟩, fun h => by simp at h⟩
  · have hlen : 2 ≤ (rowsOf ⟨first :: second :: rest, four⟩).length := by simp [rowsOf]
    generalize hf : (⟨first :: second :: rest, four⟩ : File) = f at *
    have hfl : f.lines = first :: second :: rest := by rw [← hf]
    have hrun : runPlot lib i individual error monthly f = match plotFit lib (rowsOf f) 1, plotFit lib (rowsOf f) 2 with
        | some x1, some x2 =>
          match curveOf f first ((second :: rest).getLastD first) error monthly with
          | .error e => ⟨some (printedOf x1 x2), none, none, some e⟩
          | .ok c =>
            if monthly ∧ (i = 0 ∨ individual) then
              match datesOf f.lines 186, datesOf f.lines 198 with
              | [a], [b] => ⟨some (printedOf x1 x2), some c, some (a, b), none⟩
              | _, _ => ⟨some (printedOf x1 x2), some c, none, some .gap⟩
            else ⟨some (printedOf x1 x2), some c, none, none⟩
        | _, _ => ⟨none, none, none, some .fit⟩ := by rw [← hf]; rfl
    rw [hrun, hfl]
    obtain ⟨a1, b1⟩ := fits lib (rowsOf f) 1
    obtain ⟨a2, b2⟩ := fits lib (rowsOf f) 2
    by_cases hind : Independent (series (rowsOf f)) (comps 2 waves)
    · obtain ⟨x1, hx1⟩ := Option.isSome_iff_exists.1 (a1.2 ⟨hlen, independent_down _ hind⟩)
      obtain ⟨x2, hx2⟩ := Option.isSome_iff_exists.1 (a2.2 ⟨hlen, hind⟩)
      refine ⟨fun hn => absurd ⟨by simp, hind⟩ hn, fun _ => ⟨_, _, b1 x1 hx1, b2 x2 hx2, ?_⟩⟩
      rw [hx1, hx2]
      dsimp only
      split
      · rfl
      · split_ifs
        · split <;> rfl
        · rfl
    · have hx2 : plotFit lib (rowsOf f) 2 = none := by
        by_contra hne
        exact hind (a2.1 (Option.isSome_iff_ne_none.2 hne)).2
      refine ⟨fun _ => ?_, fun h => absurd h.2 hind⟩
      rw [hx2]
      cases plotFit lib (rowsOf f) 1 <;> exact ⟨rfl, rfl, .inr rfl⟩

/-- C107: the printed difference of the criteria in terms of the sums of squares `S1` and `S2` of the two fits -/
theorem criteria (lib : Lib) (rows : List Row) (m1 m2 : Numbers) (h1 : OrderFit lib rows 1 waves m1) (h2 : OrderFit lib rows 2 waves m2)
    (hn : 11 < rows.length) (S1 S2 : ℝ) (e1 : S1 = misfit (series rows) 0 0 (curve (meanDate (series rows)) (comps 1 waves) m1.v))
    (e2 : S2 = misfit (series rows) 0 0 (curve (meanDate (series rows)) (comps 2 waves) m2.v)) (p1 : 0 < S1) (p2 : 0 < S2) :
    m2.AIC - m1.AIC = 2 + rows.length * Real.log (S2 / S1) ∧
    (m2.AIC - m1.AIC < 0 ↔ S2 < Real.exp (-2 / rows.length) * S1) := by
  have hl1 : (comps 1 waves).length = 10 := by simp [comps, waves]
  have hl2 : (comps 2 waves).length = 11 := by simp [comps, waves]
  obtain ⟨G1, T1, -, rfl, -, q1⟩ := h1.errors (by rw [hl1]; omega)
  obtain ⟨G2, T2, -, rfl, -, q2⟩ := h2.errors (by rw [hl2]; omega)
  have a1 := q1.aic (e1 ▸ p1)
  have a2 := q2.aic (e2 ▸ p2)
  rw [← e1] at a1
  rw [← e2] at a2
  have hnpos : (0 : ℝ) < rows.length := by exact_mod_cast (by omega : 0 < rows.length)
  have key : m2.AIC - m1.AIC = 2 + rows.length * Real.log (S2 / S1) := by
    rw [a1, a2, hl1, hl2]
    unfold logLik
    have hp : (2 * Real.pi / rows.length : ℝ) ≠ 0 := by positivity
    rw [show 2 * Real.pi * (S2 / rows.length) = (2 * Real.pi / rows.length) * S2 by ring,
      show 2 * Real.pi * (S1 / rows.length) = (2 * Real.pi / rows.length) * S1 by ring,
      Real.log_mul hp p2.ne', Real.log_mul hp p1.ne', Real.log_div p2.ne' p1.ne']
    push_cast
    ring
  refine ⟨key, ?_⟩
  rw [key, ← div_lt_iff₀ p1, ← Real.log_lt_iff_lt_exp (div_pos p2 p1), lt_div_iff₀ hnpos]
  constructor <;> intro h <;> linarith [mul_comm (Real.log (S2 / S1)) (rows.length : ℝ)]

/-! ## The curve -/

/-- the point of a line: its date and its value less that of the first line -/
noncomputable def dot (first : Line) (error : Bool) (l : Line) : Point := ⟨l.date, l.value - first.value, if error then some l.err else none⟩

theorem curve_cases (lib : Lib) (i : ℕ) (individual error monthly : Bool) (first second : Line) (rest : List Line) (four : Bool)
    (hind : Independent (series (rowsOf ⟨first :: second :: rest, four⟩)) (comps 2 waves)) :
    match curveOf ⟨first :: second :: rest, four⟩ first ((second :: rest).getLastD first) error monthly with
    | .error e => (runPlot lib i individual error monthly ⟨first :: second :: rest, four⟩).curve = none ∧
        (runPlot lib i individual error monthly ⟨first :: second :: rest, four⟩).err = some e
    | .ok c => (runPlot lib i individual error monthly ⟨first :: second :: rest, four⟩).curve = some c ∧
        ((runPlot lib i individual error monthly ⟨first :: second :: rest, four⟩).err = none ∨
          (runPlot lib i individual error monthly ⟨first :: second :: rest, four⟩).err = some .gap) := by
  have hlen : 2 ≤ (rowsOf ⟨first :: second :: rest, four⟩).length := by simp [rowsOf]
  obtain ⟨x1, hx1⟩ := Option.isSome_iff_exists.1 ((fits lib _ 1).1.2 ⟨hlen, independent_down _ hind⟩)
  obtain ⟨x2, hx2⟩ := Option.isSome_iff_exists.1 ((fits lib _ 2).1.2 ⟨hlen, hind⟩)
  unfold rowsOf at hx1 hx2
  unfold runPlot
  simp only [hx1, hx2]
  cases curveOf ⟨first :: second :: rest, four⟩ first ((second :: rest).getLastD first) error monthly with
  | error e => exact ⟨rfl, rfl⟩
  | ok c =>
    dsimp only
    split_ifs
    · split
      · exact ⟨rfl, .inl rfl⟩
      · exact ⟨rfl, .inr rfl⟩
    · exact ⟨rfl, .inl rfl⟩

/-- C107: when the months increase from line to line, the curve of a monthly plot has a point for every line, its date and its value
less the first value, in the order of the lines, and consecutive points are joined unless a month of the gap between the missions lies between
them: other missing months are bridged.  A band needs the fourth column -/
theorem monthly_curve (lib : Lib) (i : ℕ) (individual error : Bool) (first second : Line) (rest : List Line) (four : Bool)
    (hind : Independent (series (rowsOf ⟨first :: second :: rest, four⟩)) (comps 2 waves))
    (hinc : Increasing (first :: second :: rest)) (out : Outcome)
    (h : runPlot lib i individual error true ⟨first :: second :: rest, four⟩ = out) :
    (error = true ∧ four = false → out.curve = none ∧ out.err = some .column) ∧
    ((error = true → four = true) → ∃ c, out.curve = some c ∧
      points c = (first :: second :: rest).map (dot first error) ∧
      segments c = ((neighbours (first :: second :: rest)).filter fun x => ¬ AcrossGap x.1 x.2).map
        fun x => (dot first error x.1, dot first error x.2)) := by
  subst h
  have hc := curve_cases lib i individual error true first second rest four hind
  have hcurve : curveOf ⟨first :: second :: rest, four⟩ first ((second :: rest).getLastD first) error true =
      monthPoints ⟨first :: second :: rest, four⟩ first error (months (first :: second :: rest) first ((second :: rest).getLastD first)) := by
    unfold curveOf; rw [if_pos rfl]
  rw [hcurve] at hc
  rw [months_eq, shown_eq (fun m => m ∈ (first :: second :: rest).map (·.month) ∨ m ∈ GAP) first (second :: rest) hinc] at hc
  constructor
  · rintro ⟨rfl, rfl⟩
    have hm : monthPoint ⟨first :: second :: rest, false⟩ first true first.month = .error .column := by
      unfold monthPoint
      rw [filter_month _ hinc first (by simp)]
      simp
    have hs : ∃ t, shown (fun m => m ∈ (first :: second :: rest).map (·.month) ∨ m ∈ GAP) (first :: second :: rest) = first.month :: t := by
      unfold shown
      rw [List.filter_cons_of_pos (by simp), List.cons_append]
      exact ⟨_, rfl⟩
    obtain ⟨t, ht⟩ := hs
    rw [ht] at hc
    unfold monthPoints at hc
    rw [hm] at hc
    exact hc
  · intro hf
    rw [monthPoints_ok _ first error hinc hf] at hc
    refine ⟨_, hc.1, ?_⟩
    obtain ⟨q1, q2, -⟩ := shown_curve (first :: second :: rest) (dot first error)
      (fun m => ((first :: second :: rest).find? fun l => l.month = m).map (pointOf first error)) (by
        intro l hl
        have h1 := filter_month _ hinc l hl
        rw [← List.head?_filter, h1]; rfl) (by
        intro m hm
        rw [List.find?_eq_none.2 (by simpa using hm)]; rfl) (first :: second :: rest) [] rfl hinc
    exact ⟨q1, q2⟩

/-- C107: a plot of all data joins all consecutive points -/
theorem all_curve (lib : Lib) (i : ℕ) (individual error : Bool) (first second : Line) (rest : List Line) (four : Bool)
    (hind : Independent (series (rowsOf ⟨first :: second :: rest, four⟩)) (comps 2 waves)) (hf : error = true → four = true) (out : Outcome)
    (h : runPlot lib i individual error false ⟨first :: second :: rest, four⟩ = out) :
    out.err = none ∧ out.span = none ∧ ∃ c, out.curve = some c ∧ points c = (first :: second :: rest).map (dot first error) ∧
      segments c = (neighbours (first :: second :: rest)).map fun x => (dot first error x.1, dot first error x.2) := by
  subst h
  have hcurve : curveOf ⟨first :: second :: rest, four⟩ first ((second :: rest).getLastD first) error false =
      .ok ((first :: second :: rest).map fun l => some (pointOf first error l)) := by
    unfold curveOf
    rw [if_neg (by simp), if_neg]
    rintro ⟨h1, h2⟩
    exact h2 (hf h1)
  have hlen : 2 ≤ (rowsOf ⟨first :: second :: rest, four⟩).length := by simp [rowsOf]
  obtain ⟨x1, hx1⟩ := Option.isSome_iff_exists.1 ((fits lib _ 1).1.2 ⟨hlen, independent_down _ hind⟩)
  obtain ⟨x2, hx2⟩ := Option.isSome_iff_exists.1 ((fits lib _ 2).1.2 ⟨hlen, hind⟩)
  unfold rowsOf at hx1 hx2
  unfold runPlot
  simp only [hx1, hx2, hcurve, Bool.false_eq_true, false_and, if_false]
  refine ⟨trivial, trivial, _, rfl, ?_, ?_⟩
  · unfold points
    rw [List.filterMap_map]
    exact congrFun (List.filterMap_eq_map' (f := dot first error)) _
  · generalize first :: second :: rest = ls
    induction ls with
    | nil => rfl
    | cons a r ih =>
      cases r with
      | nil => rfl
      | cons b r =>
        rw [List.map_cons, List.map_cons, segments_some_some, ← List.map_cons (f := fun l => some (pointOf first error l)), ih]
        rfl

/-- C107: two lines with one month end a monthly plot, when the months do not decrease -/
theorem repeated_fails (lib : Lib) (i : ℕ) (individual error : Bool) (first second : Line) (rest : List Line) (four : Bool)
    (hind : Independent (series (rowsOf ⟨first :: second :: rest, four⟩)) (comps 2 waves))
    (hmono : (first :: second :: rest).Pairwise fun a b => a.month ≤ b.month) (hrep : ¬ Increasing (first :: second :: rest)) :
    (runPlot lib i individual error true ⟨first :: second :: rest, four⟩).curve = none ∧
    (runPlot lib i individual error true ⟨first :: second :: rest, four⟩).err.isSome := by
  have hc := curve_cases lib i individual error true first second rest four hind
  have hcurve : curveOf ⟨first :: second :: rest, four⟩ first ((second :: rest).getLastD first) error true =
      monthPoints ⟨first :: second :: rest, four⟩ first error (months (first :: second :: rest) first ((second :: rest).getLastD first)) := by
    unfold curveOf; rw [if_pos rfl]
  rw [hcurve, months_eq] at hc
  have hdup : ∃ m, m ∈ (first :: second :: rest).map (·.month) ∧ 2 ≤ ((first :: second :: rest).filter fun l => l.month = m).length := by
    clear hc hcurve hind
    generalize first :: second :: rest = ls at hmono hrep
    induction ls with
    | nil => exact absurd List.Pairwise.nil hrep
    | cons a r ih =>
      obtain ⟨h1, h2⟩ := List.pairwise_cons.1 hmono
      by_cases hr : Increasing r
      · have : ∃ b ∈ r, b.month = a.month := by
          by_contra hn
          push Not at hn
          refine hrep (List.pairwise_cons.2 ⟨fun b hb => ?_, hr⟩)
          have := h1 b hb
          have := hn b hb
          omega
        obtain ⟨b, hb, hab⟩ := this
        refine ⟨a.month, by simp, ?_⟩
        rw [List.filter_cons_of_pos (by simp), List.length_cons]
        have : 0 < (r.filter fun l => l.month = a.month).length := List.length_pos_of_mem (List.mem_filter.2 ⟨hb, by simpa using hab⟩)
        omega
      · obtain ⟨m, hm, hl⟩ := ih h2 hr
        refine ⟨m, List.mem_cons_of_mem _ hm, le_trans hl ?_⟩
        exact ((List.sublist_cons_self a r).filter _).length_le
  obtain ⟨m, hm, hl⟩ := hdup
  have hpoint : monthPoint ⟨first :: second :: rest, four⟩ first error m = .error .sequence := by
    unfold monthPoint
    rcases he : (first :: second :: rest).filter (fun l => l.month = m) with _ | ⟨a, _ | ⟨b, r⟩⟩
    · rw [he] at hl; simp at hl
    · rw [he] at hl; simp at hl
    · simp only [he]
  have hmem : m ∈ (allMonths first ((second :: rest).getLastD first)).filter fun m => m ∈ (first :: second :: rest).map (·.month) ∨ m ∈ GAP := by
    refine List.mem_filter.2 ⟨?_, by simpa using Or.inl hm⟩
    obtain ⟨l, hl', rfl⟩ := List.mem_map.1 hm
    have hle : first.month ≤ l.month := by
      rcases List.mem_cons.1 hl' with rfl | h
      · exact le_rfl
      · exact (List.pairwise_cons.1 hmono).1 l h
    have hge : l.month ≤ ((second :: rest).getLastD first).month := by
      have e : (first :: second :: rest).getLast (by simp) = (second :: rest).getLastD first := by
        rw [List.getLastD_eq_getLast?, List.getLast?_eq_some_getLast (by simp)]; rfl
      rw [← e]
      have hp := List.dropLast_append_getLast (l := first :: second :: rest) (by simp)
      rw [← hp] at hmono hl'
      rcases List.mem_append.1 hl' with h | h
      · exact (List.pairwise_append.1 hmono).2.2 l h _ (by simp)
      · rw [List.mem_singleton.1 h]
    unfold allMonths
    exact List.mem_range'_1.2 (by omega)
  obtain ⟨e', he'⟩ := monthPoints_error _ first error _ m hmem _ hpoint
  rw [he'] at hc
  exact ⟨hc.1, by rw [hc.2]; rfl⟩

end Verif.QuickPlot
