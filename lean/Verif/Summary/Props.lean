import Verif.Summary.Lemmas

/-!
# C106: the summary of a regression
-/
namespace Verif.Summary
open Verif.TimeSeries Verif.RegMaps Finset

/-! ## The lines of a summary -/

/-- the numbers that are written -/
noncomputable def numbersOf {n : ℕ} (x : (k : ℕ) × Result n k) (lead : ℕ) : Numbers :=
  { v := at' x.2.beta, s := stdErrOf x, c := at' x.2.er.error
    A := fun f => ampOf (withErr x (stdErrOf x)) (lead + 2 * f), As := fun f => ampError (withErr x (stdErrOf x)) (lead + 2 * f)
    Ac := fun f => ampError (withErr x (at' x.2.er.error)) (lead + 2 * f)
    P := fun f => phaseOf (withErr x (stdErrOf x)) (lead + 2 * f), Ps := fun f => phaseError (withErr x (stdErrOf x)) (lead + 2 * f)
    Pc := fun f => phaseError (withErr x (at' x.2.er.error)) (lead + 2 * f)
    dof := x.2.st.DOF, AIC := x.2.st.AIC, BIC := x.2.st.BIC, LOGLIK := x.2.st.LOGLIK, MSE := x.2.er.mse
    NRMSE := x.2.er.NRMSE.getD 0, R2 := x.2.st.R2, R2Adj := x.2.st.R2Adj }

theorem stdErrOf_some {n k : ℕ} (r : Result n k) (se : Fin k → ℝ) (h : r.er.stdErr = some se) :
    stdErrOf ⟨k, r⟩ = at' se := by
  unfold stdErrOf
  simp only [h]

theorem waves_agree {n : ℕ} (x : (k : ℕ) × Result n k) (lead W : ℕ) : WavesAgree (numbersOf x lead) lead W := by
  intro f _
  have h1 := isWave_cell (fun _ _ => withErr x (stdErrOf x)) (lead + 2 * f) [] [] [] [] (a := 0) (b := 0)
  have h2 := isWave_cell (fun _ _ => withErr x (at' x.2.er.error)) (lead + 2 * f) [] [] [] [] (a := 0) (b := 0)
  refine ⟨⟨h1.nonneg, h1.circle, h1.same⟩, ⟨fun hne => ?_, fun hne => ?_⟩, ⟨fun hne => ?_, fun hne => ?_⟩⟩
  · obtain ⟨ds, dc, e, q1, q2, q3, q4⟩ := h1.amp hne
    cases q3
    exact ⟨ds, dc, q1, q2, q4⟩
  · obtain ⟨ds, dc, e, q1, q2, q3, q4⟩ := h1.phase hne
    cases q3
    exact ⟨ds, dc, q1, q2, q4⟩
  · obtain ⟨ds, dc, e, q1, q2, q3, q4⟩ := h2.amp hne
    cases q3
    exact ⟨ds, dc, q1, q2, q4⟩
  · obtain ⟨ds, dc, e, q1, q2, q3, q4⟩ := h2.phase hne
    cases q3
    exact ⟨ds, dc, q1, q2, q4⟩

/-- labels and units of a plan, together -/
def pairs (units : List Char) (p : Plan) : List (List Char × List Char) := p.coef.zip (p.unit.map (units ++ ·))

theorem coef_rows {n : ℕ} (x : (k : ℕ) × Result n k) (units : List Char) (p : Plan) (lead : ℕ) (h : p.unit.length = p.coef.length) :
    (p.coef.zipIdx.map fun y => coefRow x units p y.2 y.1) =
      coefPart (pairs units p) (numbersOf x lead).v (numbersOf x lead).s (numbersOf x lead).c := by
  unfold coefPart pairs
  apply List.ext_getElem
  · simp [h]
  · intro i h1 h2
    have hi : i < p.coef.length := by simpa using h1
    simp [coefRow, numbersOf, h, hi]

theorem wave_rows {n : ℕ} (x : (k : ℕ) × Result n k) (units : List Char) (p : Plan) (lead : ℕ) (ws : List Wave)
    (h : p.amp = ws.map Wave.label) :
    (p.amp.zipIdx.map fun y => ampRow x units p lead y.2 y.1) =
      wavePart ws units (numbersOf x lead).A (numbersOf x lead).As (numbersOf x lead).Ac ∧
    (p.amp.zipIdx.map fun y => phaseRow x p lead y.2 y.1) =
      wavePart ws "Degree".toList (numbersOf x lead).P (numbersOf x lead).Ps (numbersOf x lead).Pc := by
  unfold wavePart
  constructor <;> apply List.ext_getElem
  · simp [h]
  · intro i h1 h2
    have hi : i < ws.length := by simpa using h2
    simp [ampRow, numbersOf, h, hi]
  · simp [h]
  · intro i h1 h2
    have hi : i < ws.length := by simpa using h2
    simp [phaseRow, numbersOf, h, hi]

open scoped Classical in
/-- the text of a summary: complete, or only up to the last label -/
theorem summary_eq {n : ℕ} (name units : List Char) (p0 : Plan) (cycles : List ℚ) (x : (k : ℕ) × Result n k)
    (h0 : p0.removed = []) (h1 : p0.periods = []) (h2 : p0.amp = []) (h3 : p0.unit.length = p0.coef.length)
    (hk : x.1 = p0.coef.length + 2 * (fitted cycles).length) (lead : ℕ) :
    summary name units (plan p0 cycles) cycles lead x =
      if ∀ c ∈ cycles, Season c ∨ Tidal c then
        (fullText name units (pairs units (plan p0 cycles)) (labelled cycles) (numbersOf x lead), true)
      else ([.input name, .formula ((pairs units (plan p0 cycles)).map (·.1)), .head "Coef.".toList] ++
        coefPart (pairs units (plan p0 cycles)) (numbersOf x lead).v (numbersOf x lead).s (numbersOf x lead).c, false) := by
  obtain ⟨e1, e2, e3, e4, -⟩ := plan_eq p0 cycles
  rw [h2, List.nil_append] at e2
  rw [h1, List.nil_append] at e4
  have hlc : (plan p0 cycles).coef.length = p0.coef.length + 2 * (labelled cycles).length := by
    rw [e1, List.length_append, List.length_map, waves_length]
  have hlu : (plan p0 cycles).unit.length = (plan p0 cycles).coef.length := by
    rw [hlc, e3, List.length_append, List.length_replicate, h3]
  have hpair : (pairs units (plan p0 cycles)).map (·.1) = (plan p0 cycles).coef := by
    unfold pairs
    rw [List.map_fst_zip]
    rw [List.length_map, hlu]
  have hw : (2 * (remaining (plan p0 cycles) cycles).length + 4 * (plan p0 cycles).periods.length) / 2 = (fitted cycles).length := by
    rw [remaining_eq p0 cycles h0, e4]
    unfold fitted
    have : ∀ l : List ℚ, (l.flatMap aliases).length = 2 * (l.flatMap near).length := by
      intro l
      induction l with
      | nil => rfl
      | cons c r ih =>
        have ha : (aliases c).length = 2 * (near c).length := by unfold aliases; exact flatMap_pair_length _ _ _
        simp only [List.flatMap_cons, List.length_append, ih, ha]; ring
    rw [List.length_append, this, List.length_map, List.length_map]
    omega
  have hle := labelled_le cycles
  unfold summary
  rw [hw, hpair]
  by_cases hall : ∀ c ∈ cycles, Season c ∨ Tidal c
  · have heq := (all_labelled_iff cycles).2 hall
    rw [if_pos hall]
    have ha : (fitted cycles).length = (plan p0 cycles).amp.length := by rw [e2, List.length_map, heq]
    simp only [table_full _ _ _ (show x.1 = (plan p0 cycles).coef.length by rw [hk, hlc, heq]), table_full _ _ _ ha, if_true]
    rw [coef_rows x units _ lead hlu, (wave_rows x units _ lead _ e2).1, (wave_rows x units _ lead _ e2).2]
    unfold fullText statLines
    rw [hpair]
    simp [numbersOf]
  · have hlt : (labelled cycles).length < (fitted cycles).length := by
      refine lt_of_le_of_ne hle fun he => hall ((all_labelled_iff cycles).1 he)
    rw [if_neg hall]
    simp only [table_short _ _ _ (show (plan p0 cycles).coef.length < x.1 by rw [hk, hlc]; omega)]
    rw [coef_rows x units _ lead hlu]
    simp

theorem pairs_order (units : List Char) (o : ℕ) (cycles : List ℚ) :
    pairs units (plan (polyPlan o) cycles) = labelsOf units (comps o (labelled cycles)) := by
  obtain ⟨e1, -, e3, -⟩ := plan_eq (polyPlan o) cycles
  unfold pairs labelsOf comps
  rw [e1, e3, List.map_append, List.map_append, List.zip_append (by simp [polyPlan])]
  congr 1
  · simp only [polyPlan]
    rw [List.map_map, List.map_map, List.zip_map']
    refine List.map_congr_left fun k _ => ?_
    simp only [Function.comp_apply, Comp.label]
    cases k with
    | zero => rfl
    | succ k => simp [yearUnit, unitOf]
  · apply List.ext_getElem
    · simp; omega
    · intro i h1 h2
      simp only [List.getElem_zip, List.getElem_map, List.getElem_replicate]
      have hi : i < ((labelled cycles).flatMap fun w => [Comp.sine w, .cosine w]).length := by simpa using h2
      obtain ⟨w, -, hw⟩ := List.mem_flatMap.1 (List.getElem_mem hi)
      rcases List.mem_cons.1 hw with e | e
      · rw [e]; rfl
      · rw [List.mem_singleton.1 e]; rfl

theorem pairs_break (units : List Char) (cycles : List ℚ) :
    pairs units (plan breakPlan cycles) = labelsBent units (labelled cycles) := by
  obtain ⟨e1, -, e3, -⟩ := plan_eq breakPlan cycles
  unfold pairs labelsBent
  rw [e1, e3, List.map_append, List.zip_append (by simp [breakPlan])]
  congr 1
  · simp [breakPlan]
  · apply List.ext_getElem
    · simp; omega
    · intro i h1 h2
      simp

/-! ## Powers -/

theorem order_width (lib : Lib) (rows : List Row) (o : ℕ) (cycles : List ℚ) (x : (k : ℕ) × Result (rows.map asMap).length k)
    (h : quickFit lib (rows.map asMap) (some o) none cycles (plan (polyPlan o) cycles) = some x) :
    x.1 = (polyPlan o).coef.length + 2 * (fitted cycles).length := by
  rw [quick_order] at h
  unfold fitCell at h
  obtain ⟨trel, -, r, -, rfl⟩ := regress_unfold h
  simp only
  have := congrArg List.length (fit_cols (fun i : Fin (rows.map asMap).length => ((rows.map asMap).get i).2.time) trel o cycles)
  refine this.trans ((List.length_map _).trans ((comps_length o (fitted cycles)).trans ?_))
  simp [polyPlan]

/-- C106: what the summary of a fit with powers shows, whatever the cycles: the estimates are the coefficients of the only least
squares fit of the series, in the order of the fit; amplitudes and phases are those of the waves, with both kinds of errors
propagated.  With more lines than coefficients the standard errors are those of least squares, the confidence interval is the
one for 95% and the measures of fit are right -/
theorem order_numbers (lib : Lib) (rows : List Row) (o : ℕ) (cycles : List ℚ) (K : ℕ) (hK : K = (comps o (fitted cycles)).length)
    (x : (k : ℕ) × Result (rows.map asMap).length k)
    (h : quickFit lib (rows.map asMap) (some o) none cycles (plan (polyPlan o) cycles) = some x) :
    Best (series rows) 0 0 K (curve (meanDate (series rows)) (comps o (fitted cycles))) (numbersOf x (1 + o)).v ∧
    (K < rows.length → ∃ G, NormalInverse (series rows) K
        (fun m => ((comps o (fitted cycles)).getD m (.power 0)).value (meanDate (series rows))) G ∧
      ∃ S, S = misfit (series rows) 0 0 (curve (meanDate (series rows)) (comps o (fitted cycles)) (numbersOf x (1 + o)).v) ∧
      (∀ k < K, (numbersOf x (1 + o)).s k = Real.sqrt (S / ((rows.length : ℝ) - K) * G k k) ∧
        (numbersOf x (1 + o)).c k = lib.tppf 0.975 ((rows.length : ℝ) - K) * (numbersOf x (1 + o)).s k) ∧
      Quality rows K S (numbersOf x (1 + o))) := by
  subst hK
  have hl : List.Perm ((rows.map asMap).map (·.2)) (series rows) := by rw [asMap_series]
  rw [quick_order] at h
  have hbest := fitCell_best lib (series rows) (rows.map asMap) 1 1 hl o cycles 0 0 x h
  refine ⟨hbest, fun hn => ?_⟩
  unfold fitCell at h
  obtain ⟨trel, he, r, hr, rfl⟩ := regress_unfold h
  have ht : trel = meanDate (series rows) := by
    rw [meanDate_eq (rows.map asMap) (series rows) hl]
    simp only [epoch, Option.some.injEq] at he
    exact he.symm
  subst ht
  have hcols : regressCols (fun i : Fin (rows.map asMap).length => ((rows.map asMap).get i).2.time) (meanDate (series rows)) o
      ((remaining (plan (polyPlan o) cycles) cycles).map fun c : ℚ => (c : ℝ))
      (termsOf (fun i : Fin (rows.map asMap).length => ((rows.map asMap).get i).2.time) (plan (polyPlan o) cycles)) =
      ((comps o (fitted cycles)).map fun c : Comp => c.value (meanDate (series rows))).map
        fun f i => f ((rows.map asMap).get i).2.time := by
    rw [fit_cols, List.map_map]; rfl
  have hS : (fun t => ∑ k ∈ range (comps o (fitted cycles)).length, at' r.beta k *
      (((comps o (fitted cycles)).map fun c : Comp => c.value (meanDate (series rows))).getD k 0) t) =
      curve (meanDate (series rows)) (comps o (fitted cycles)) (at' r.beta) := by
    rw [← curve_sum (comps o (fitted cycles)) (meanDate (series rows)) (at' r.beta), List.length_map]
  obtain ⟨⟨G, se, hG, hse, hs, hcf⟩, q1, q2, q3, q4, q5, top, bot, q6, q7, q8⟩ := fit_quality lib rows _ _ hcols (o + 1) _
    (List.length_map _) hn r hr _ (congrArg (misfit (series rows) 0 0) hS.symm)
  have hstd : stdErrOf (⟨_, r⟩ : (k : ℕ) × Result (rows.map asMap).length k) = at' se :=
    stdErrOf_some r se hse
  refine ⟨G, hG.congr fun k hk => ?_, _, rfl, fun k hk => ⟨?_, ?_⟩, ?_⟩
  · simp [hk]
  · exact (congrFun hstd k).trans (hs k hk)
  · exact (hcf k hk).trans (congrArg _ (congrFun hstd k).symm)
  · refine ⟨q1, q2, q3, q4, fun hp => (q5 hp).1, fun hp => (q5 hp).2.1, fun hp => (q5 hp).2.2, top, bot, q6, q7, ?_⟩
    exact congrArg (fun z => Option.getD z 0) q8

end Verif.Summary
