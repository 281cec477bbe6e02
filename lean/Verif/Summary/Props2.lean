import Verif.Summary.Props

/-!
# C106: two trends; when a summary is complete; names
-/
namespace Verif.Summary
open Verif.TimeSeries Verif.RegMaps Finset

/-! ## The line of the break -/

theorem breakIndex_aux (l : List (ℕ × InMap)) (b n : ℕ) :
    ((l.zipIdx n).filter fun mi => mi.1.1 = b).length = (l.filter fun m => m.1 = b).length := by
  induction l generalizing n with
  | nil => rfl
  | cons m r ih =>
    rw [List.zipIdx_cons]
    by_cases h : m.1 = b
    · rw [List.filter_cons_of_pos (by simpa using h), List.filter_cons_of_pos (by simpa using h)]
      simp only [List.length_cons, ih]
    · rw [List.filter_cons_of_neg (by simpa using h), List.filter_cons_of_neg (by simpa using h)]
      exact ih _

theorem breakIndex_one (rows : List Row) (b : ℕ) :
    (∃ i, breakIndex (rows.map asMap) b = [i]) ↔ (rows.filter fun r => r.month = b).length = 1 := by
  have e : (rows.filter fun r => r.month = b).length = (breakIndex (rows.map asMap) b).length := by
    unfold breakIndex
    rw [List.length_map, breakIndex_aux, List.filter_map, List.length_map]
    rfl
  rw [e, List.length_eq_one_iff]

theorem breakIndex_get (rows : List Row) (b i : ℕ) (h : breakIndex (rows.map asMap) b = [i]) :
    ∃ hi : i < rows.length, rows[i].month = b ∧ ∀ r ∈ rows, r.month = b → r = rows[i] := by
  have hmem : ∀ j, j ∈ breakIndex (rows.map asMap) b ↔ ∃ hj : j < rows.length, rows[j].month = b := by
    intro j
    unfold breakIndex
    rw [List.mem_map]
    constructor
    · rintro ⟨⟨m, k⟩, hm, rfl⟩
      rw [List.mem_filter, List.mem_zipIdx_iff_getElem?] at hm
      obtain ⟨hg, hb⟩ := hm
      simp only [List.getElem?_map, Option.map_eq_some_iff] at hg
      obtain ⟨r, hr, rfl⟩ := hg
      obtain ⟨hk, rfl⟩ := List.getElem?_eq_some_iff.1 hr
      exact ⟨hk, of_decide_eq_true hb⟩
    · rintro ⟨hj, hb⟩
      refine ⟨(asMap rows[j], j), ?_, rfl⟩
      rw [List.mem_filter, List.mem_zipIdx_iff_getElem?]
      simp only [List.getElem?_map, List.getElem?_eq_getElem hj, Option.map_some, true_and]
      exact decide_eq_true hb
  rw [h] at hmem
  obtain ⟨hi, hb⟩ := (hmem i).1 (by simp)
  refine ⟨hi, hb, fun r hr hrb => ?_⟩
  obtain ⟨j, hj, rfl⟩ := List.getElem_of_mem hr
  have := (hmem j).2 ⟨hj, hrb⟩
  rw [List.mem_singleton] at this
  subst this; rfl

/-! ## Two trends -/

theorem sorted_maps (rows : List Row) (h : Sorted rows) : (rows.map asMap).Pairwise fun a b => a.2.time ≤ b.2.time := by
  rw [List.pairwise_map]; exact h

theorem break_width (lib : Lib) (rows : List Row) (o : Option ℕ) (b : ℕ) (cycles : List ℚ)
    (x : (k : ℕ) × Result (rows.map asMap).length k)
    (h : quickFit lib (rows.map asMap) o (some b) cycles (plan breakPlan cycles) = some x) :
    x.1 = breakPlan.coef.length + 2 * (fitted cycles).length := by
  have hi : ∃ i, breakIndex (rows.map asMap) b = [i] := by
    unfold quickFit at h
    simp only at h
    split at h
    · rename_i i hi; exact ⟨i, hi⟩
    · cases h
  obtain ⟨i, hi⟩ := hi
  rw [quick_break lib _ _ _ i _ _ hi] at h
  unfold breakCell at h
  obtain ⟨nco, tco, -, r, -, rfl⟩ := piecewise_unfold h
  simp only
  have hw := congrArg List.length (wave_cols (fun i : Fin (rows.map asMap).length => ((rows.map asMap).get i).2.time) 0 breakPlan cycles rfl rfl)
  unfold piecewiseCols
  rw [List.append_assoc, List.length_append]
  refine (congrArg (_ + ·) (hw.trans ((List.length_map _).trans (waves_length _)))).trans ?_
  rfl

/-- C106: what the summary of a fit with two trends shows, whatever the cycles: the estimates are the only least squares fit of two
lines that meet at the date of the break, and of the waves.  With more lines than coefficients the standard errors are those of
least squares, except for the second slope, where the standard errors of the first slope and of the change of the slope are
added in squares; the confidence interval is the one for 95% -/
theorem break_numbers (lib : Lib) (rows : List Row) (hsort : Sorted rows) (o : Option ℕ) (b i : ℕ) (cycles : List ℚ) (K : ℕ)
    (hK : K = 3 + 2 * (fitted cycles).length) (hb : breakIndex (rows.map asMap) b = [i]) (hi : i < rows.length)
    (x : (k : ℕ) × Result (rows.map asMap).length k)
    (h : quickFit lib (rows.map asMap) o (some b) cycles (plan breakPlan cycles) = some x) :
    Best (series rows) 0 0 K (bent rows[i].date (fitted cycles)) (numbersOf x 3).v ∧
    (K < rows.length → ∃ G, NormalInverse (series rows) K (fun m => (bentFns rows[i].date (fitted cycles)).getD m 0) G ∧
      ∃ S q M e2, S = misfit (series rows) 0 0 (bent rows[i].date (fitted cycles) (numbersOf x 3).v) ∧
      q = lib.tppf 0.975 ((rows.length : ℝ) - K) ∧ M = S / ((rows.length : ℝ) - K) ∧ e2 = Real.sqrt (M * G 2 2) ∧
      (∀ k < K, k ≠ 2 → (numbersOf x 3).s k = Real.sqrt (M * G k k) ∧ (numbersOf x 3).c k = q * (numbersOf x 3).s k) ∧
      (numbersOf x 3).s 2 = Real.sqrt ((numbersOf x 3).s 1 ^ 2 + e2 ^ 2) ∧ (numbersOf x 3).c 2 = |q| * (numbersOf x 3).s 2 ∧
      Quality rows K S (numbersOf x 3)) := by
  subst hK
  have hl : List.Perm ((rows.map asMap).map (·.2)) (series rows) := by rw [asMap_series]
  have hilen : i < (rows.map asMap).length := by rw [List.length_map]; exact hi
  have htime : ((rows.map asMap)[i]).2.time = rows[i].date := by rw [List.getElem_map]; rfl
  rw [quick_break lib _ _ _ i _ _ hb] at h
  have hbest := (breakCell_spec lib (series rows) (rows.map asMap) 1 1 hl (sorted_maps rows hsort) i hilen cycles 0 0 x h).1
  rw [htime] at hbest
  refine ⟨hbest, fun hn => ?_⟩
  unfold breakCell at h
  obtain ⟨nco, tco, hbr, r, hr, rfl⟩ := piecewise_unfold h
  have hbr' : nco = i ∧ tco = rows[i].date := by
    unfold breakOf at hbr
    simp only at hbr
    rw [dif_pos (show i < (gridFrom 1 1 (rows.map asMap)).n from hilen)] at hbr
    cases hbr
    exact ⟨rfl, htime⟩
  obtain ⟨rfl, rfl⟩ := hbr'
  obtain ⟨r0, hr0, hst, hbeta, hcov, hmse, hnr, hse0, herr⟩ :=
    (piecewiseFit_core lib.erf lib.tppf lib.eps _ _ false (.scalar 0) fitOpts).2 r hr
  have hcols := break_cols (rows.map asMap) (sorted_maps rows hsort) nco hilen cycles
  rw [htime] at hcols
  have hlen : 2 < (piecewiseCols (gridFrom 1 1 (rows.map asMap)).time nco rows[nco].date
      ((remaining (plan breakPlan cycles) cycles).map fun c : ℚ => (c : ℝ))
      (termsOf (gridFrom 1 1 (rows.map asMap)).time (plan breakPlan cycles))).length := by
    have := congrArg List.length hcols
    have h2 := this.trans ((List.length_map _).trans (bentFns_length _ _))
    refine lt_of_lt_of_eq ?_ h2.symm
    omega
  have hraw : raw (at' r.beta) = at' r0.beta := by
    funext k
    rw [hbeta]
    unfold raw
    rw [at_setTwo _ hlen, at_setTwo _ hlen, at_setTwo _ hlen]
    by_cases hk : k = 2
    · subst hk; simp
    · rw [if_neg hk, if_neg hk]
  have hS : bent rows[nco].date (fitted cycles) (at' r.beta) = fun t => ∑ k ∈ range (3 + 2 * (fitted cycles).length),
      at' r0.beta k * ((bentFns rows[nco].date (fitted cycles)).getD k 0) t := by
    rw [← bent_sum, hraw, bentFns_length]
  obtain ⟨⟨G, se, hG, hse, hs, hcf⟩, q1, q2, q3, q4, q5, top, bot, q6, q7, q8⟩ := fit_quality lib rows _ _ hcols 3 _
    (bentFns_length _ _) hn r0 hr0 _ (congrArg (misfit (series rows) 0 0) hS)
  have hstd : ∀ k, (numbersOf ⟨_, r⟩ 3).s k = if k = 2 then Real.sqrt (at' se 1 ^ 2 + at' se 2 ^ 2) else at' se k := by
    intro k
    have e1 : r.er.stdErr = some (combine se) := hse0.trans (congrArg (Option.map combine) hse)
    refine (congrFun (stdErrOf_some r (combine se) e1) k).trans ?_
    unfold combine
    exact at_setTwo _ hlen _ k
  have hconf : ∀ k, (numbersOf ⟨_, r⟩ 3).c k =
      if k = 2 then Real.sqrt (at' r0.er.error 1 ^ 2 + at' r0.er.error 2 ^ 2) else at' r0.er.error k := by
    intro k
    refine (congrArg (fun e => at' e k) (herr fun e he => by cases he; rfl)).trans ?_
    unfold combine
    exact at_setTwo _ hlen _ k
  refine ⟨G, hG, _, _, _, _, rfl, rfl, rfl, rfl, fun k hk hk2 => ⟨?_, ?_⟩, ?_, ?_, ?_⟩
  · exact (hstd k).trans ((if_neg hk2).trans (hs k hk))
  · exact (hconf k).trans ((if_neg hk2).trans ((hcf k hk).trans (congrArg _ ((hstd k).trans (if_neg hk2)).symm)))
  · exact (hstd 2).trans ((if_pos rfl).trans (congrArg₂ (fun a b : ℝ => Real.sqrt (a ^ 2 + b ^ 2))
      ((hstd 1).trans (if_neg (by decide))).symm (hs 2 (by omega))))
  · refine (hconf 2).trans ((if_pos rfl).trans (Eq.trans ?_ (congrArg _ ((hstd 2).trans (if_pos rfl)).symm)))
    refine (congrArg₂ (fun a b : ℝ => Real.sqrt (a ^ 2 + b ^ 2)) (hcf 1 (by omega)) (hcf 2 (by omega))).trans ?_
    beta_reduce
    rw [mul_pow, mul_pow, ← mul_add, Real.sqrt_mul (sq_nonneg _), Real.sqrt_sq_eq_abs]
  · have hnn : (numbersOf ⟨_, r⟩ 3).NRMSE = r0.er.NRMSE.getD 0 := congrArg (fun z => Option.getD z 0) hnr
    refine ⟨(congrArg Stats.DOF hst).trans q1, hmse.trans q2, (congrArg Stats.R2 hst).trans q3, (congrArg Stats.R2Adj hst).trans q4,
      fun hp => (congrArg Stats.LOGLIK hst).trans (q5 hp).1, fun hp => (congrArg Stats.AIC hst).trans (q5 hp).2.1,
      fun hp => (congrArg Stats.BIC hst).trans (q5 hp).2.2, top, bot, q6, q7, ?_⟩
    exact hnn.trans (congrArg (fun z => Option.getD z 0) q8)

end Verif.Summary
