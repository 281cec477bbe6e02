import Verif.Summary.Props2

/-!
# C106: what a run leaves
-/
namespace Verif.Summary
open Verif.TimeSeries Verif.RegMaps Finset

/-- the numbers of a summary with powers -/
structure OrderFit (lib : Lib) (rows : List Row) (o : ℕ) (ws : List Wave) (m : Numbers) : Prop where
  best : Best (series rows) 0 0 (comps o ws).length (curve (meanDate (series rows)) (comps o ws)) m.v
  waves : WavesAgree m (1 + o) ws.length
  errors : (comps o ws).length < rows.length → ∃ G S, NormalInverse (series rows) (comps o ws).length
        (fun k => ((comps o ws).getD k (.power 0)).value (meanDate (series rows))) G ∧
      S = misfit (series rows) 0 0 (curve (meanDate (series rows)) (comps o ws) m.v) ∧
      (∀ k < (comps o ws).length, m.s k = Real.sqrt (S / ((rows.length : ℝ) - (comps o ws).length) * G k k) ∧
        m.c k = lib.tppf 0.975 ((rows.length : ℝ) - (comps o ws).length) * m.s k) ∧
      Quality rows (comps o ws).length S m

/-- the numbers of a summary with two trends that meet at a date -/
structure BreakFit (lib : Lib) (rows : List Row) (tb : ℝ) (ws : List Wave) (m : Numbers) : Prop where
  best : Best (series rows) 0 0 (3 + 2 * ws.length) (bent tb ws) m.v
  waves : WavesAgree m 3 ws.length
  errors : 3 + 2 * ws.length < rows.length → ∃ G S M, NormalInverse (series rows) (3 + 2 * ws.length)
        (fun k => (bentFns tb ws).getD k 0) G ∧
      S = misfit (series rows) 0 0 (bent tb ws m.v) ∧ M = S / ((rows.length : ℝ) - (3 + 2 * ws.length : ℕ)) ∧
      (∀ k < 3 + 2 * ws.length, k ≠ 2 → m.s k = Real.sqrt (M * G k k) ∧
        m.c k = lib.tppf 0.975 ((rows.length : ℝ) - (3 + 2 * ws.length : ℕ)) * m.s k) ∧
      m.s 2 = Real.sqrt (m.s 1 ^ 2 + Real.sqrt (M * G 2 2) ^ 2) ∧
      m.c 2 = |lib.tppf 0.975 ((rows.length : ℝ) - (3 + 2 * ws.length : ℕ))| * m.s 2 ∧
      Quality rows (3 + 2 * ws.length) S m

/-- only the first part of a summary -/
noncomputable def firstPart (name : List Char) (labels : List (List Char × List Char)) (m : Numbers) : List Line :=
  [.input name, .formula (labels.map (·.1)), .head "Coef.".toList] ++ coefPart labels m.v m.s m.c

theorem series_length (rows : List Row) : (series rows).length = rows.length := by unfold series; rw [List.length_map]

theorem order_fits (lib : Lib) (rows : List Row) (o : ℕ) (cycles : List ℚ) :
    (quickFit lib (rows.map asMap) (some o) none cycles (plan (polyPlan o) cycles)).isSome ↔
      2 ≤ rows.length ∧ Independent (series rows) (comps o (fitted cycles)) := by
  rw [quick_order]
  refine (fitCell_some lib (series rows) (rows.map asMap) 1 1 (by rw [asMap_series]) o cycles 0 0).trans ?_
  rw [series_length]
  constructor
  · rintro ⟨h1, h2⟩
    refine ⟨?_, h2⟩
    by_contra hlt
    have h0 : rows = [] := List.length_eq_zero_iff.1 (by omega)
    subst h0
    have := h2 (fun _ => 1) (by intro x hx; cases hx) 0 (by rw [comps_length]; omega)
    norm_num at this
  · rintro ⟨h1, h2⟩
    exact ⟨by omega, h2⟩

theorem done_true {a : List Line × Bool} {l : List Line} (h : a = (l, true)) :
    (if a.2 = true then none else some Err.index) = none ∧ a.1 = l := by
  subst h; exact ⟨rfl, rfl⟩

theorem done_false {a : List Line × Bool} {l : List Line} (h : a = (l, false)) :
    (if a.2 = true then none else some Err.index) = some Err.index ∧ a.1 = l := by
  subst h; exact ⟨rfl, rfl⟩

/-- C106: what a run with an order leaves.  The summary is opened under its name unless it is streamed.  With fewer than two lines,
or when some combination of the functions vanishes at all dates, it stays empty.  Otherwise it holds the coefficients of the only
least squares fit, and it is complete exactly when every cycle is half a year, a year or the alias of a tide: with any other
cycle the run ends after the last label, without waves and measures of fit -/
theorem order_outcome (lib : Lib) (stem ext : List Char) (rows : List Row) (o : ℕ) (cycles : List ℚ) (units : List Char)
    (stream : Bool) (out : Outcome) (h : run lib stem ext rows (some o) none cycles units stream = out) :
    out.file = (if stream then none else some (stem ++ "_x".toList ++ num 0 o ++ "_SUMMARY.txt".toList)) ∧
    (¬ (2 ≤ rows.length ∧ Independent (series rows) (comps o (fitted cycles))) → out.lines = [] ∧ out.err = some .fit) ∧
    (2 ≤ rows.length ∧ Independent (series rows) (comps o (fitted cycles)) → ∃ m, OrderFit lib rows o (fitted cycles) m ∧
      ((∀ c ∈ cycles, Season c ∨ Tidal c) → out.err = none ∧
        out.lines = fullText (stem ++ ext) units (labelsOf units (comps o (labelled cycles))) (labelled cycles) m) ∧
      (¬ (∀ c ∈ cycles, Season c ∨ Tidal c) → out.err = some .index ∧
        out.lines = firstPart (stem ++ ext) (labelsOf units (comps o (labelled cycles))) m)) := by
  classical
  subst h
  unfold run
  simp only [outFile, Option.isSome_none, Bool.false_eq_true, false_and, if_false, start]
  cases hq : quickFit lib (rows.map asMap) (some o) none cycles (plan (polyPlan o) cycles) with
  | none =>
    have hn : ¬ (2 ≤ rows.length ∧ Independent (series rows) (comps o (fitted cycles))) := by
      rw [← order_fits lib, hq]; simp
    exact ⟨rfl, fun _ => ⟨rfl, rfl⟩, fun h => absurd h hn⟩
  | some x =>
    have hy : 2 ≤ rows.length ∧ Independent (series rows) (comps o (fitted cycles)) := by
      rw [← order_fits lib, hq]; simp
    refine ⟨rfl, fun h => absurd hy h, fun _ => ⟨numbersOf x (1 + o), ?_, ?_⟩⟩
    · obtain ⟨h1, h2⟩ := order_numbers lib rows o cycles _ rfl x hq
      refine ⟨h1, waves_agree x _ _, fun hn => ?_⟩
      obtain ⟨G, hG, S, hS, q1, q2⟩ := h2 hn
      exact ⟨G, S, hG, hS, q1, q2⟩
    · have hs := summary_eq (stem ++ ext) units (polyPlan o) cycles x rfl rfl rfl (by simp [polyPlan]) (order_width lib rows o cycles x hq)
        (1 + o)
      rw [pairs_order] at hs
      simp only [cycleIndex]
      exact ⟨fun hall => done_true (hs.trans (if_pos hall)), fun hall => done_false (hs.trans (if_neg hall))⟩

/-- C106: with seasonal cycles first and then tides, the summary is complete and every line shows the coefficient, the amplitude or
the phase of the function in its label -/
theorem order_right (lib : Lib) (stem ext : List Char) (rows : List Row) (o : ℕ) (S T : List ℚ) (hS : ∀ c ∈ S, Season c)
    (hT : ∀ c ∈ T, Tidal c) (units : List Char) (stream : Bool) (hrows : 2 ≤ rows.length)
    (hind : Independent (series rows) (comps o (labelled (S ++ T)))) :
    ∃ m, OrderFit lib rows o (labelled (S ++ T)) m ∧
      (run lib stem ext rows (some o) none (S ++ T) units stream).err = none ∧
      (run lib stem ext rows (some o) none (S ++ T) units stream).lines =
        fullText (stem ++ ext) units (labelsOf units (comps o (labelled (S ++ T)))) (labelled (S ++ T)) m := by
  have he := labelled_eq_fitted S T hS hT
  obtain ⟨-, -, h3⟩ := order_outcome lib stem ext rows o (S ++ T) units stream _ rfl
  obtain ⟨m, h4, h5, -⟩ := h3 ⟨hrows, he ▸ hind⟩
  rw [he]
  rw [he] at h5
  have hall : ∀ c ∈ S ++ T, Season c ∨ Tidal c := by
    intro c hc
    rcases List.mem_append.1 hc with h | h
    · exact .inl (hS c h)
    · exact .inr (hT c h)
  exact ⟨m, h4, (h5 hall).1, (h5 hall).2⟩

/-- C106: in a complete summary the labels are those of the functions that were fitted exactly when the seasonal cycles were given
before the tides; in any other order some coefficient is shown under the label of another function -/
theorem labels_right_iff' (o : ℕ) (cycles : List ℚ) (hall : ∀ c ∈ cycles, Season c ∨ Tidal c) :
    ((comps o (labelled cycles)).length = (comps o (fitted cycles)).length) ∧
    ((∃ S T, cycles = S ++ T ∧ (∀ c ∈ S, Season c) ∧ ∀ c ∈ T, Tidal c) ↔ comps o (labelled cycles) = comps o (fitted cycles)) := by
  have hlen := (all_labelled_iff cycles).2 hall
  refine ⟨by rw [comps_length, comps_length, hlen], ?_⟩
  rw [← labels_eq_iff]
  constructor
  · intro h; rw [h]
  · intro h
    unfold comps at h
    have h := List.append_cancel_left h
    generalize labelled cycles = a at h
    generalize fitted cycles = b at h
    induction a generalizing b with
    | nil => cases b with
      | nil => rfl
      | cons w r => simp at h
    | cons v r ih => cases b with
      | nil => simp at h
      | cons w q =>
        simp only [List.flatMap_cons, List.cons_append, List.nil_append, List.cons.injEq, Comp.sine.injEq] at h
        rw [h.1, ih q h.2.2]

/-- the cycles of the command line without options -/
def defaultCycles : List ℚ := [1 / 2, 1, 161 / 365.25]

/-- C106: with the default cycles every line has the right label -/
theorem default_right : (∀ c ∈ [(1 / 2 : ℚ), 1], Season c) ∧ (∀ c ∈ [(161 / 365.25 : ℚ)], Tidal c) ∧
    labelled defaultCycles = [.cycle (1 / 2), .cycle 1, .alias .S2 false, .alias .S2 true] ∧
    fitted defaultCycles = labelled defaultCycles := by
  refine ⟨?_, ?_, ?_, ?_⟩
  · intro c hc
    rcases List.mem_cons.1 hc with rfl | hc
    · exact .inl rfl
    · rw [List.mem_singleton.1 hc]; exact .inr rfl
  · intro c hc
    rw [List.mem_singleton.1 hc]
    unfold Tidal
    decide +kernel
  · decide +kernel
  · decide +kernel

/-! ## Two trends -/

theorem break_fits (lib : Lib) (rows : List Row) (hsort : Sorted rows) (o : Option ℕ) (b i : ℕ) (cycles : List ℚ)
    (hb : breakIndex (rows.map asMap) b = [i]) (hi : i < rows.length) :
    (quickFit lib (rows.map asMap) o (some b) cycles (plan breakPlan cycles)).isSome ↔
      rows.length ≠ 1 ∧ BentIndependent (series rows) rows[i].date (fitted cycles) := by
  have hl : List.Perm ((rows.map asMap).map (·.2)) (series rows) := by rw [asMap_series]
  have hilen : i < (rows.map asMap).length := by rw [List.length_map]; exact hi
  have htime : ((rows.map asMap)[i]).2.time = rows[i].date := by rw [List.getElem_map]; rfl
  rw [quick_break lib _ _ _ i _ _ hb]
  refine (breakCell_some lib cycles (series rows) (rows.map asMap) 1 1 hl (sorted_maps rows hsort) i hilen 0 0).trans ?_
  rw [series_length, htime]

/-- C106: what a run with a breakpoint leaves, for a file in the order of dates; an order is ignored.  A breakpoint that is not
the month of exactly one line leaves an empty summary, as does a series without a single best fit -/
theorem break_outcome (lib : Lib) (stem ext : List Char) (rows : List Row) (hsort : Sorted rows) (hrows : 2 ≤ rows.length)
    (o : Option ℕ) (b : ℕ) (cycles : List ℚ) (units : List Char) (stream : Bool) (out : Outcome)
    (h : run lib stem ext rows o (some b) cycles units stream = out) :
    out.file = (if stream then none else some (stem ++ "_px1_".toList ++ num 0 b ++ "_SUMMARY.txt".toList)) ∧
    ((rows.filter fun r => r.month = b).length ≠ 1 → out.lines = [] ∧ out.err = some .fit) ∧
    ∀ r ∈ rows, r.month = b → (rows.filter fun r => r.month = b).length = 1 →
      (¬ BentIndependent (series rows) r.date (fitted cycles) → out.lines = [] ∧ out.err = some .fit) ∧
      (BentIndependent (series rows) r.date (fitted cycles) → ∃ m, BreakFit lib rows r.date (fitted cycles) m ∧
        ((∀ c ∈ cycles, Season c ∨ Tidal c) → out.err = none ∧
          out.lines = fullText (stem ++ ext) units (labelsBent units (labelled cycles)) (labelled cycles) m) ∧
        (¬ (∀ c ∈ cycles, Season c ∨ Tidal c) → out.err = some .index ∧
          out.lines = firstPart (stem ++ ext) (labelsBent units (labelled cycles)) m)) := by
  classical
  subst h
  unfold run
  have hnlt : ¬ (((some b).isSome = true) ∧ rows.length < 2) := by rintro ⟨-, h⟩; omega
  simp only [outFile, if_neg hnlt, start]
  cases hq : quickFit lib (rows.map asMap) o (some b) cycles (plan breakPlan cycles) with
  | none =>
    refine ⟨rfl, fun _ => ⟨rfl, rfl⟩, fun r hr hrb hone => ⟨fun _ => ⟨rfl, rfl⟩, fun hind => ?_⟩⟩
    obtain ⟨i, hi⟩ := (breakIndex_one rows b).2 hone
    obtain ⟨hlt, -, huniq⟩ := breakIndex_get rows b i hi
    have e := huniq r hr hrb
    subst e
    have := (break_fits lib rows hsort o b i cycles hi hlt).2 ⟨by omega, hind⟩
    rw [hq] at this
    simp at this
  | some x =>
    have hone : ∃ i, breakIndex (rows.map asMap) b = [i] := by
      unfold quickFit at hq
      simp only at hq
      split at hq
      · rename_i i hi; exact ⟨i, hi⟩
      · cases hq
    refine ⟨rfl, fun hne => absurd ((breakIndex_one rows b).1 hone) hne, fun r hr hrb _ => ?_⟩
    obtain ⟨i, hi⟩ := hone
    obtain ⟨hlt, -, huniq⟩ := breakIndex_get rows b i hi
    have e := huniq r hr hrb
    subst e
    have hind : BentIndependent (series rows) rows[i].date (fitted cycles) :=
      ((break_fits lib rows hsort o b i cycles hi hlt).1 (by rw [hq]; rfl)).2
    refine ⟨fun h => absurd hind h, fun _ => ⟨numbersOf x 3, ?_, ?_⟩⟩
    · obtain ⟨h1, h2⟩ := break_numbers lib rows hsort o b i cycles _ rfl hi hlt x hq
      refine ⟨h1, waves_agree x _ _, fun hn => ?_⟩
      obtain ⟨G, hG, S, q, M, e2, hS, rfl, hM, rfl, q1, q2, q3, q4⟩ := h2 hn
      exact ⟨G, S, M, hG, hS, hM, q1, q2, q3, q4⟩
    · have hs := summary_eq (stem ++ ext) units breakPlan cycles x rfl rfl rfl rfl (break_width lib rows o b cycles x hq) 3
      rw [pairs_break] at hs
      simp only [cycleIndex]
      exact ⟨fun hall => done_true (hs.trans (if_pos hall)), fun hall => done_false (hs.trans (if_neg hall))⟩

/-- C106: with seasonal cycles first and then tides, a summary of two trends is complete and every line shows what its label says -/
theorem break_right' (lib : Lib) (stem ext : List Char) (rows : List Row) (hsort : Sorted rows) (hrows : 2 ≤ rows.length)
    (o : Option ℕ) (b : ℕ) (S T : List ℚ) (hS : ∀ c ∈ S, Season c) (hT : ∀ c ∈ T, Tidal c) (units : List Char) (stream : Bool)
    (r : Row) (hr : r ∈ rows) (hrb : r.month = b) (hone : (rows.filter fun r => r.month = b).length = 1)
    (hind : BentIndependent (series rows) r.date (labelled (S ++ T))) :
    ∃ m, BreakFit lib rows r.date (labelled (S ++ T)) m ∧
      (run lib stem ext rows o (some b) (S ++ T) units stream).err = none ∧
      (run lib stem ext rows o (some b) (S ++ T) units stream).lines =
        fullText (stem ++ ext) units (labelsBent units (labelled (S ++ T))) (labelled (S ++ T)) m := by
  have he := labelled_eq_fitted S T hS hT
  obtain ⟨-, -, h3⟩ := break_outcome lib stem ext rows hsort hrows o b (S ++ T) units stream _ rfl
  obtain ⟨m, h4, h5, -⟩ := (h3 r hr hrb hone).2 (he ▸ hind)
  rw [he]
  rw [he] at h5
  have hall : ∀ c ∈ S ++ T, Season c ∨ Tidal c := by
    intro c hc
    rcases List.mem_append.1 hc with h | h
    · exact .inl (hS c h)
    · exact .inr (hT c h)
  exact ⟨m, h4, (h5 hall).1, (h5 hall).2⟩

/-- C106: without an order and a breakpoint nothing is opened -/
theorem nothing_given (lib : Lib) (stem ext : List Char) (rows : List Row) (cycles : List ℚ) (units : List Char) (stream : Bool) :
    run lib stem ext rows none none cycles units stream = ⟨none, [], some .noFit⟩ := rfl

/-! ## Names -/

/-- the ten digits -/
def digitChars : List Char := "0123456789".toList

theorem num_digits (n : ℕ) : ∀ c ∈ num 0 n, c ∈ digitChars := by
  intro c hc
  unfold num at hc
  simp only [Nat.zero_sub, List.replicate_zero, List.nil_append] at hc
  obtain ⟨d, -, rfl⟩ := List.mem_map.1 hc
  fin_cases d <;> decide

theorem num_inj0 (a b : ℕ) (h : num 0 a = num 0 b) : a = b := Maps.num_inj 0 a b h

theorem suffix_digits (s1 s2 d1 d2 : List Char) (c1 c2 : Char) (h1 : ∀ c ∈ d1, c ∈ digitChars)
    (h2 : ∀ c ∈ d2, c ∈ digitChars) (hc1 : c1 ∉ digitChars)
    (hc2 : c2 ∉ digitChars) (h : s1 ++ c1 :: d1 = s2 ++ c2 :: d2) : s1 = s2 ∧ c1 = c2 ∧ d1 = d2 := by
  have hr := congrArg List.reverse h
  simp only [List.reverse_append, List.reverse_cons, List.append_assoc, List.singleton_append] at hr
  have key : ∀ (e1 e2 r1 r2 : List Char), (∀ c ∈ e1, c ∈ digitChars) →
      (∀ c ∈ e2, c ∈ digitChars) → e1 ++ c1 :: r1 = e2 ++ c2 :: r2 → e1 = e2 ∧ c1 = c2 ∧ r1 = r2 := by
    intro e1
    induction e1 with
    | nil =>
      intro e2 r1 r2 _ h2 h
      cases e2 with
      | nil => simp at h; exact ⟨rfl, h⟩
      | cons d e2 =>
        simp only [List.nil_append, List.cons_append, List.cons.injEq] at h
        exact absurd (h.1 ▸ h2 d (by simp)) hc1
    | cons d e1 ih =>
      intro e2 r1 r2 h1 h2 h
      cases e2 with
      | nil =>
        simp only [List.nil_append, List.cons_append, List.cons.injEq] at h
        exact absurd (h.1 ▸ h1 d (by simp)) hc2
      | cons d' e2 =>
        simp only [List.cons_append, List.cons.injEq] at h
        obtain ⟨rfl, h⟩ := h
        obtain ⟨q1, q2, q3⟩ := ih e2 r1 r2 (fun c hc => h1 c (List.mem_cons_of_mem _ hc)) (fun c hc => h2 c (List.mem_cons_of_mem _ hc)) h
        exact ⟨by rw [q1], q2, q3⟩
  obtain ⟨q1, q2, q3⟩ := key d1.reverse d2.reverse s1.reverse s2.reverse (by simpa using h1) (by simpa using h2) hr
  exact ⟨List.reverse_injective q3, q2, List.reverse_injective q1⟩

/-- C106: summaries of different stems, orders or breakpoints have different names; files that differ only in their suffix share
the name of the summary -/
theorem names_inj (s1 s2 : List Char) (o1 o2 b1 b2 : Option ℕ) (n : List Char) (h1 : outFile s1 o1 b1 = some n)
    (h2 : outFile s2 o2 b2 = some n) : s1 = s2 ∧ b1 = b2 ∧ (b1 = none → o1 = o2) := by
  have hx : ('x' : Char) ∉ digitChars := by decide
  have hu : ('_' : Char) ∉ digitChars := by decide
  have e1 : ∀ s n, s ++ "_px1_".toList ++ num 0 n ++ "_SUMMARY.txt".toList =
      ((s ++ "_px1".toList) ++ '_' :: num 0 n) ++ "_SUMMARY.txt".toList := by intro s n; simp
  have e2 : ∀ s n, s ++ "_x".toList ++ num 0 n ++ "_SUMMARY.txt".toList =
      ((s ++ ['_']) ++ 'x' :: num 0 n) ++ "_SUMMARY.txt".toList := by intro s n; simp
  have hd := num_digits
  unfold outFile at h1 h2
  cases b1 with
  | some b1 =>
    simp only [Option.some.injEq] at h1
    cases b2 with
    | some b2 =>
      simp only [Option.some.injEq] at h2
      have h := h1.trans h2.symm
      rw [e1, e1] at h
      obtain ⟨q1, -, q3⟩ := suffix_digits _ _ _ _ _ _ (hd b1) (hd b2) hu hu (List.append_cancel_right h)
      exact ⟨List.append_cancel_right q1, by rw [num_inj0 _ _ q3], fun h => by cases h⟩
    | none =>
      cases o2 with
      | none => cases h2
      | some o2 =>
        simp only [Option.some.injEq] at h2
        have h := h1.trans h2.symm
        rw [e1, e2] at h
        obtain ⟨-, q2, -⟩ := suffix_digits _ _ _ _ _ _ (hd b1) (hd o2) hu hx (List.append_cancel_right h)
        exact absurd q2 (by decide)
  | none =>
    cases o1 with
    | none => cases h1
    | some o1 =>
      simp only [Option.some.injEq] at h1
      cases b2 with
      | some b2 =>
        simp only [Option.some.injEq] at h2
        have h := h1.trans h2.symm
        rw [e2, e1] at h
        obtain ⟨-, q2, -⟩ := suffix_digits _ _ _ _ _ _ (hd o1) (hd b2) hx hu (List.append_cancel_right h)
        exact absurd q2 (by decide)
      | none =>
        cases o2 with
        | none => cases h2
        | some o2 =>
          simp only [Option.some.injEq] at h2
          have h := h1.trans h2.symm
          rw [e2, e2] at h
          obtain ⟨q1, -, q3⟩ := suffix_digits _ _ _ _ _ _ (hd o1) (hd o2) hx hx (List.append_cancel_right h)
          exact ⟨List.append_cancel_right q1, rfl, fun _ => by rw [num_inj0 _ _ q3]⟩

/-! ## Cases that meet the hypotheses -/

/-- nine lines, before and after 2018 -/
noncomputable def exRows : List Row := exTimes.zipIdx.map fun x => ⟨x.2 + 1, x.1, x.1 ^ 2⟩

theorem exSeries : series exRows = exTimes.map exMap := by
  unfold series exRows exMap exTimes
  rfl

theorem exSorted : Sorted exRows := by
  unfold Sorted exRows exTimes
  simp only [List.zipIdx_cons, List.zipIdx_nil, List.map_cons, List.map_nil, List.pairwise_cons, List.mem_cons, List.not_mem_nil,
    or_false, forall_eq_or_imp, forall_eq, false_imp_iff, implies_true, and_true, List.Pairwise.nil]
  norm_num

/-- a trend, a year and a tide: the hypotheses of `order_right`, more lines than coefficients, and a cycle without a label -/
example : (∀ c ∈ [(1 : ℚ)], Season c) ∧ (∀ c ∈ [(161 / 365.25 : ℚ)], Tidal c) ∧ 2 ≤ exRows.length ∧
    Independent (series exRows) (comps 1 (labelled ([1] ++ [161 / 365.25]))) ∧
    (comps 1 (labelled ([1] ++ [161 / 365.25]))).length < exRows.length ∧ ¬ (Season (1 / 3) ∨ Tidal (1 / 3)) := by
  have h1 : ∀ c ∈ [(1 : ℚ)], Season c := by simp [Season]
  have h2 : ∀ c ∈ [(161 / 365.25 : ℚ)], Tidal c := by
    intro c hc
    rw [List.mem_singleton.1 hc]
    unfold Tidal
    decide +kernel
  have hl : exRows.length = 9 := by unfold exRows exTimes; rfl
  have he := labelled_eq_fitted [1] [161 / 365.25] h1 h2
  refine ⟨h1, h2, by omega, ?_, ?_, ?_⟩
  · rw [he, exSeries, List.singleton_append, exFitted.2]; exact exIndependent
  · rw [he, List.singleton_append, exFitted.2, exFitted.1, hl]; simp
  · unfold Season Tidal
    rintro (h | h)
    · norm_num at h
    · revert h; decide +kernel

/-- a break at the fourth line: the hypotheses of `break_outcome` and `break_right'` -/
example : Sorted exRows ∧ 2 ≤ exRows.length ∧ (⟨4, 322, 322 ^ 2⟩ : Row) ∈ exRows ∧
    (exRows.filter fun r => r.month = 4).length = 1 ∧ BentIndependent (series exRows) 322 (labelled ([] ++ [])) ∧
    3 + 2 * (labelled ([] ++ [])).length < exRows.length := by
  have hl : exRows.length = 9 := by unfold exRows exTimes; rfl
  refine ⟨exSorted, by omega, ?_, ?_, ?_, ?_⟩
  · unfold exRows exTimes; simp
  · unfold exRows exTimes; simp
  · rw [exSeries]
    intro v hv k hk
    have hval : ∀ t ∈ exTimes, (if t ≤ 322 then v 0 + v 1 * t else v 0 + v 1 * 322 + v 2 * (t - 322)) = 0 := by
      intro t ht
      have h := hv (exMap t) (List.mem_map_of_mem ht)
      simp [bent, labelled, exMap] at h
      refine Eq.trans ?_ h
      congr
    have f1 := hval 0 (by simp [exTimes])
    have f2 := hval 161 (by simp [exTimes])
    have f3 := hval 644 (by simp [exTimes])
    norm_num at f1 f2 f3
    have h2 : v 2 = 0 := by linarith
    have h1 : v 1 = 0 := by linarith
    simp only [List.append_nil, labelled, List.flatMap_nil, List.length_nil] at hk
    rcases (by omega : k = 0 ∨ k = 1 ∨ k = 2) with rfl | rfl | rfl <;> assumption
  · rw [hl]; simp [labelled]

end Verif.Summary
