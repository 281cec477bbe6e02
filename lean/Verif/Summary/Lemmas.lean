import Verif.Summary.Spec
import Verif.RegMaps.Examples
import Verif.RegMaps.Props2
import Verif.RegMaps.Waves

/-!
# Lemmas for the regression summary
-/
namespace Verif.Summary
open Verif.TimeSeries Verif.RegMaps Finset

/-! ## Tables -/

theorem table_eq (labels : List (List Char)) (row : ℕ → List Char → Line) (n i : ℕ) :
    (table labels row i n).1 = (((labels.drop i).take n).zipIdx i).map (fun x => row x.2 x.1) ∧
    ((table labels row i n).2 = true ↔ n ≤ (labels.drop i).length) := by
  induction n generalizing i with
  | zero => simp [table]
  | succ n ih =>
    unfold table
    cases h : labels[i]? with
    | none =>
      have hd : labels.drop i = [] := List.drop_eq_nil_iff.2 (List.getElem?_eq_none_iff.1 h)
      simp [hd]
    | some s =>
      obtain ⟨hi, rfl⟩ := List.getElem?_eq_some_iff.1 h
      have hd : labels.drop i = labels[i] :: labels.drop (i + 1) := List.drop_eq_getElem_cons hi
      simp only
      rw [hd, List.take_succ_cons, List.zipIdx_cons, List.map_cons, (ih (i + 1)).1]
      refine ⟨rfl, ?_⟩
      rw [(ih (i + 1)).2, List.length_cons]
      omega

theorem table_full (labels : List (List Char)) (row : ℕ → List Char → Line) (n : ℕ) (h : n = labels.length) :
    table labels row 0 n = (labels.zipIdx.map (fun x => row x.2 x.1), true) := by
  obtain ⟨h1, h2⟩ := table_eq labels row n 0
  refine Prod.ext ?_ ?_
  · rw [h1]; simp [h]
  · rw [h2]; simp [h]

theorem table_short (labels : List (List Char)) (row : ℕ → List Char → Line) (n : ℕ) (h : labels.length < n) :
    table labels row 0 n = (labels.zipIdx.map (fun x => row x.2 x.1), false) := by
  obtain ⟨h1, h2⟩ := table_eq labels row n 0
  refine Prod.ext ?_ ?_
  · rw [h1, List.drop_zero, List.take_of_length_le h.le]
  · rw [← Bool.not_eq_true]
    rw [h2]
    simp [h]

/-! ## Which waves have labels -/

/-- as many labels as waves exactly when every cycle is seasonal or tidal -/
theorem all_labelled_iff (cycles : List ℚ) :
    (labelled cycles).length = (fitted cycles).length ↔ ∀ c ∈ cycles, Season c ∨ Tidal c := by
  have hf : ∀ (c : ℚ) (r : List ℚ), (fitted (c :: r)).length = (if near c = [] then 1 else 0) + (aliases c).length + (fitted r).length := by
    intro c r
    unfold fitted
    by_cases h : near c = []
    · rw [List.filter_cons_of_pos (by simpa using h)]; simp [h]; omega
    · rw [List.filter_cons_of_neg (by simpa using h)]; simp [h]; omega
  have ha : ∀ c, (aliases c).length = 2 * (near c).length := by
    intro c; unfold aliases; exact flatMap_pair_length _ _ _
  induction cycles with
  | nil => simp [labelled, fitted]
  | cons c r ih =>
    have hle := labelled_le r
    rw [labelled_cons, hf, List.length_append, List.forall_mem_cons]
    by_cases hs : Season c
    · have hn := not_tidal_of_season hs
      rw [labelledOf_season hs, if_pos hn, ha, hn]
      simp only [hs, true_or, true_and]
      refine Iff.trans ?_ ih
      rw [List.length_singleton, List.length_nil]; omega
    · rw [labelledOf_other hs]
      by_cases ht : Tidal c
      · rw [if_neg (tidal_ne ht)]
        simp only [ht, or_true, true_and]
        refine Iff.trans ?_ ih
        omega
      · have hn : near c = [] := by unfold Tidal at ht; simpa using ht
        rw [if_pos hn]
        constructor
        · intro h; omega
        · rintro ⟨h | h, -⟩
          · exact absurd h hs
          · exact absurd h ht

/-- labels and waves agree exactly when the seasons come before the tides -/
theorem labels_eq_iff (cycles : List ℚ) : labelled cycles = fitted cycles ↔
    ∃ S T, cycles = S ++ T ∧ (∀ c ∈ S, Season c) ∧ ∀ c ∈ T, Tidal c := by
  constructor
  · intro h
    obtain ⟨S, R, rfl, hS, hR⟩ := (labels_right_iff cycles).1 (by rw [h])
    rcases hR with hR | hR
    · exact ⟨S, R, rfl, hS, hR⟩
    · have hall := (all_labelled_iff _).1 (congrArg List.length h)
      refine ⟨S, R, rfl, hS, fun c hc => ?_⟩
      rcases hall c (List.mem_append_right _ hc) with h' | h'
      · exact absurd h' (hR c hc).1
      · exact h'
  · rintro ⟨S, T, rfl, hS, hT⟩
    exact labelled_eq_fitted S T hS hT

/-! ## The fit -/

theorem alpha_quick (erf : ℝ → ℝ) : alphaOf erf quickOpts = 0.05 ∧ alphaOf erf fitOpts = 0.05 := by
  constructor
  · unfold alphaOf quickOpts; norm_num
  · unfold alphaOf fitOpts; norm_num

theorem regressFit_opts {n k : ℕ} (erf : ℝ → ℝ) (tppf : ℝ → ℝ → ℝ) (eps : ℝ) (X : Matrix (Fin n) (Fin k) ℝ) (d : Fin n → ℝ)
    (lead : ℕ) : regressFit erf tppf eps X d lead false (.scalar 0) quickOpts =
      regressFit erf tppf eps X d lead false (.scalar 0) fitOpts := by
  unfold regressFit
  simp only [(alpha_quick erf).1, (alpha_quick erf).2]
  rfl

theorem piecewiseFit_opts {n k : ℕ} (erf : ℝ → ℝ) (tppf : ℝ → ℝ → ℝ) (eps : ℝ) (X : Matrix (Fin n) (Fin k) ℝ) (d : Fin n → ℝ) :
    piecewiseFit erf tppf eps X d false (.scalar 0) quickOpts = piecewiseFit erf tppf eps X d false (.scalar 0) fitOpts := by
  unfold piecewiseFit
  simp only [(alpha_quick erf).1, (alpha_quick erf).2]
  rfl

/-- the series of the lines -/
theorem asMap_series (rows : List Row) : ((rows.map asMap).map (·.2)) = series rows := by
  unfold series; rw [List.map_map]; rfl

theorem quick_order (lib : Lib) (l : List (ℕ × InMap)) (o : ℕ) (cycles : List ℚ) (p : Plan) :
    quickFit lib l (some o) none cycles p = fitCell lib (gridFrom 1 1 l) o cycles p 0 0 := by
  unfold quickFit fitCell TimeSeries.regress
  simp only [regressFit_opts]
  rfl

theorem quick_break (lib : Lib) (l : List (ℕ × InMap)) (o : Option ℕ) (b i : ℕ) (cycles : List ℚ) (p : Plan)
    (h : breakIndex l b = [i]) :
    quickFit lib l o (some b) cycles p = breakCell lib (gridFrom 1 1 l) i cycles p 0 0 := by
  unfold quickFit breakCell TimeSeries.piecewise
  simp only [h, piecewiseFit_opts]
  rfl

/-- errors and measures of a fit -/
theorem fit_quality (lib : Lib) (rows : List Row) (fs : List (ℝ → ℝ)) (cols : List (Fin (rows.map asMap).length → ℝ))
    (hc : cols = fs.map fun f i => f ((rows.map asMap).get i).2.time) (lead K : ℕ) (hK : fs.length = K) (hn : K < rows.length)
    (r : Result (rows.map asMap).length cols.length)
    (h : regressFit lib.erf lib.tppf lib.eps (design cols) (fun i => ((rows.map asMap).get i).2.data 0 0) lead false (.scalar 0)
      fitOpts = some r) (S : ℝ)
    (hS : S = misfit (series rows) 0 0 (fun t => ∑ k ∈ range K, at' r.beta k * (fs.getD k 0) t)) :
    (∃ G se, NormalInverse (series rows) K (fun m => fs.getD m 0) G ∧ r.er.stdErr = some se ∧
      (∀ k < K, at' se k = Real.sqrt (S / ((rows.length : ℝ) - K) * G k k)) ∧
      ∀ k < K, at' r.er.error k = lib.tppf 0.975 ((rows.length : ℝ) - K) * at' se k) ∧
    r.st.DOF = (rows.length : ℤ) - K ∧ r.er.mse = S / ((rows.length : ℝ) - K) ∧
    r.st.R2 = 1 - S / spread (series rows) 0 0 ∧
    r.st.R2Adj = 1 - (S / ((rows.length : ℝ) - K)) / (spread (series rows) 0 0 / ((rows.length : ℝ) - 1)) ∧
    (0 < S → r.st.LOGLIK = logLik rows.length S ∧ r.st.AIC = 2 * (K + 1) - 2 * logLik rows.length S ∧
      r.st.BIC = Real.log rows.length * (K + 1) - 2 * logLik rows.length S) ∧
    ∃ top bottom : ℝ, IsGreatest {y | ∃ r ∈ rows, y = r.value} top ∧ IsLeast {y | ∃ r ∈ rows, y = r.value} bottom ∧
      r.er.NRMSE = some (Real.sqrt (S / ((rows.length : ℝ) - K)) / (top - bottom)) := by
  subst hK
  have hl : List.Perm ((rows.map asMap).map (·.2)) (series rows) := by rw [asMap_series]
  have hxl : (series rows).length = rows.length := by unfold series; rw [List.length_map]
  have hll : (rows.map asMap).length = rows.length := List.length_map _
  have hlen : cols.length = fs.length := by rw [hc, List.length_map]
  have hnx : fs.length < (series rows).length := by rw [hxl]; exact hn
  obtain ⟨G, hG, hM⟩ := measures_of_fit (rows.map asMap) (series rows) hl 0 0 fs cols hc lib.erf lib.tppf lib.eps lead r hnx h
  rw [← hS] at hM
  have hkn : cols.length < (rows.map asMap).length := by rw [hlen, hll]; exact hn
  have herr := fun c => (regressFit_errors lib.erf lib.tppf lib.eps _ _ lead false (.scalar 0) fitOpts r h c).2.2.2 rfl rfl hkn
  obtain ⟨h1, h2, h3⟩ := regressFit_core lib.erf lib.tppf lib.eps _ _ lead false (.scalar 0) fitOpts r h
  have hw : weightSpec lib.eps false (.scalar 0) = fun _ : Fin (rows.map asMap).length => (1 : ℝ) := rfl
  rw [hw] at h2 h3
  have hd : Matrix.diagonal (fun _ : Fin (rows.map asMap).length => (1 : ℝ)) = 1 := Matrix.diagonal_one
  rw [hd, Matrix.one_mul] at h3
  have hdof : r.st.DOF = (rows.length : ℤ) - fs.length := by
    rw [h2]; simp only [stats, hlen, hll]
  have hpos : (0 : ℝ) < (rows.length : ℝ) - fs.length := by
    have : (fs.length : ℝ) < rows.length := by exact_mod_cast hn
    linarith
  have hmse : r.er.mse = S / ((rows.length : ℝ) - fs.length) := by
    have := hM.sse
    simp only [cellOf] at this
    rw [hdof] at this
    push_cast at this
    rw [← this]
    field_simp
  have hat : ∀ j : Fin cols.length, at' r.beta j.1 = r.beta j := by
    intro j; unfold at'; rw [dif_pos j.2]
  have hSS : S = ∑ i, (((rows.map asMap).get i).2.data 0 0 - ∑ j, design cols i j * r.beta j) ^ 2 := by
    rw [hS, misfit_eq _ _ hl]
    refine Finset.sum_congr rfl fun i _ => ?_
    rw [← design_sum fs (fun i => ((rows.map asMap).get i).2.time) cols hc (at' r.beta) i]
    simp only [hat]
  have hsp : spread (series rows) 0 0 = ssTotal (fun i : Fin (rows.map asMap).length => ((rows.map asMap).get i).2.data 0 0) := by
    unfold spread ssTotal
    rw [misfit_eq _ _ hl, sum_list hl (fun x => x.data 0 0), hxl.trans hll.symm]
  have hcrit := regressFit_criteria lib.erf lib.tppf lib.eps _ _ lead false (.scalar 0) fitOpts r h
  refine ⟨⟨fun i k => if h : i < cols.length ∧ k < cols.length then r.er.cov ⟨i, h.1⟩ ⟨k, h.2⟩ else 0,
    fun c => Real.sqrt (r.er.mse * r.er.cov c c),
    normal_of_fit _ _ hl fs cols hc r.er.cov (inv_eq_some h3).2.2, ?_, ?_, ?_⟩, hdof, hmse, ?_, ?_, ?_, ?_⟩
  · have h0 : cols.length = 0 ∨ 0 < cols.length := by omega
    rcases h0 with h0 | h0
    · unfold regressFit at h
      simp only [ordinaryFit, Option.map_map, Option.map_eq_some_iff, Function.comp_apply, ne_eq, not_true_eq_false, if_false] at h
      obtain ⟨H, hH, rfl⟩ := h
      rfl
    · exact (herr ⟨0, h0⟩).2.1
  · intro k hk
    have hk' : k < cols.length := hlen ▸ hk
    unfold at'
    rw [dif_pos hk']
    beta_reduce
    rw [dif_pos ⟨hk', hk'⟩, hmse]
  · intro k hk
    have hk' : k < cols.length := hlen ▸ hk
    unfold at'
    rw [dif_pos hk', dif_pos hk']
    beta_reduce
    have e1 : (cols.length : ℝ) = fs.length := by rw [hlen]
    have e2 : ((rows.map asMap).length : ℝ) = rows.length := by rw [hll]
    rw [(herr ⟨k, hk'⟩).2.2, (alpha_quick lib.erf).2, e1, e2, show (1 - 0.05 / 2 : ℝ) = 0.975 by norm_num]
  · rw [h2, hSS, hsp]
    simp only [stats]
  · have := hM.r2adj
    rw [hxl] at this
    exact this
  · intro hp
    have ha := hM.aic hp
    have hb := hM.bic hp
    rw [hxl] at ha hb
    refine ⟨?_, ha, hb⟩
    have := hcrit.2.1 rfl
    simp only [cellOf] at ha
    have e1 : (cols.length : ℝ) = fs.length := by rw [hlen]
    rw [ha, e1] at this
    linarith
  · have hne : Nonempty (Fin (rows.map asMap).length) := ⟨⟨0, by omega⟩⟩
    have hset : ∀ y, (∃ r ∈ rows, y = r.value) ↔ ∃ i, ((rows.map asMap).get i).2.data 0 0 = y := by
      intro y
      constructor
      · rintro ⟨r, hr, rfl⟩
        obtain ⟨i, hi⟩ := List.mem_iff_get.1 (List.mem_map_of_mem (f := asMap) hr)
        exact ⟨i, by rw [hi]; rfl⟩
      · rintro ⟨i, rfl⟩
        obtain ⟨r, hr, he⟩ := List.mem_map.1 (List.get_mem (rows.map asMap) i)
        exact ⟨r, hr, by rw [← he]; rfl⟩
    obtain ⟨it, hit⟩ := Finite.exists_max fun i => ((rows.map asMap).get i).2.data 0 0
    obtain ⟨ib, hib⟩ := Finite.exists_min fun i => ((rows.map asMap).get i).2.data 0 0
    refine ⟨_, _, ⟨(hset _).2 ⟨it, rfl⟩, ?_⟩, ⟨(hset _).2 ⟨ib, rfl⟩, ?_⟩, ?_⟩
    · rintro y hy
      obtain ⟨i, rfl⟩ := (hset y).1 hy
      exact hit i
    · rintro y hy
      obtain ⟨i, rfl⟩ := (hset y).1 hy
      exact hib i
    · have e1 : ⨆ i, ((rows.map asMap).get i).2.data 0 0 = ((rows.map asMap).get it).2.data 0 0 :=
        le_antisymm (ciSup_le hit) (le_ciSup (Set.finite_range fun i => ((rows.map asMap).get i).2.data 0 0).bddAbove it)
      have e2 : ⨅ i, ((rows.map asMap).get i).2.data 0 0 = ((rows.map asMap).get ib).2.data 0 0 :=
        le_antisymm (ciInf_le (Set.finite_range fun i => ((rows.map asMap).get i).2.data 0 0).bddBelow ib) (le_ciInf hib)
      rw [← hmse, ← e1, ← e2]
      unfold regressFit at h
      simp only [ordinaryFit, Option.map_map, Option.map_eq_some_iff, Function.comp_apply, ne_eq, not_true_eq_false, if_false] at h
      obtain ⟨H, hH, rfl⟩ := h
      rfl

end Verif.Summary
