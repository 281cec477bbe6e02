import Verif.RegMaps.Fit

/-!
# Errors and measures of fit in terms of the maps on the disk
-/
namespace Verif.RegMaps
open Verif.TimeSeries Finset

theorem sum_list {l : List (ℕ × InMap)} {xs : List InMap} (hl : List.Perm (l.map (·.2)) xs) (f : InMap → ℝ) :
    (xs.map f).sum = ∑ i : Fin l.length, f (l.get i).2 := by
  rw [← (hl.map _).sum_eq, List.map_map, ← List.sum_ofFn]
  congr 1
  apply List.ext_getElem <;> simp

/-- the covariance of the samples as the inverse of the normal matrix of the maps -/
theorem normal_of_fit (l : List (ℕ × InMap)) (xs : List InMap) (hl : List.Perm (l.map (·.2)) xs)
    (fs : List (ℝ → ℝ)) (cols : List (Fin l.length → ℝ)) (hc : cols = fs.map fun f i => f (l.get i).2.time)
    (C : Matrix (Fin cols.length) (Fin cols.length) ℝ) (h : C * ((design cols).transpose * design cols) = 1) :
    NormalInverse xs fs.length (fun m => fs.getD m 0)
      (fun i k => if h : i < cols.length ∧ k < cols.length then C ⟨i, h.1⟩ ⟨k, h.2⟩ else 0) := by
  have hlen : cols.length = fs.length := by rw [hc, List.length_map]
  intro i hi k hk
  have e := congrFun (congrFun h ⟨i, hlen ▸ hi⟩) ⟨k, hlen ▸ hk⟩
  rw [Matrix.mul_apply] at e
  rw [Matrix.one_apply] at e
  simp only [Fin.mk.injEq] at e
  rw [← e, ← Fin.sum_univ_eq_sum_range (fun m => (if h : i < cols.length ∧ m < cols.length then C ⟨i, h.1⟩ ⟨m, h.2⟩ else 0) *
    (xs.map fun x => (fs.getD m 0) x.time * (fs.getD k 0) x.time).sum) fs.length]
  symm
  refine Fintype.sum_equiv (finCongr hlen) _ _ fun m => ?_
  have hm : m.1 < fs.length := hlen ▸ m.2
  have hg : ∀ (q : ℕ) (hq : q < cols.length) (i : Fin l.length), design cols i ⟨q, hq⟩ = (fs.getD q 0) (l.get i).2.time := by
    intro q hq i
    have hq' : q < fs.length := hlen ▸ hq
    have e2 : cols[q] = fun i => (fs[q]) (l.get i).2.time := by
      simp only [hc, List.getElem_map]
    simp only [design, List.get_eq_getElem, e2]
    simp [hq']
  simp only [finCongr_apply, Fin.val_cast]
  rw [dif_pos ⟨hlen ▸ hi, m.2⟩, sum_list hl, Matrix.mul_apply]
  congr 1
  refine Finset.sum_congr rfl fun q _ => ?_
  rw [Matrix.transpose_apply, hg m.1 m.2, hg k (hlen ▸ hk)]

/-- measures of the fit of a cell -/
theorem measures_of_fit (l : List (ℕ × InMap)) (xs : List InMap) (hl : List.Perm (l.map (·.2)) xs) (a b : ℕ)
    (fs : List (ℝ → ℝ)) (cols : List (Fin l.length → ℝ)) (hc : cols = fs.map fun f i => f (l.get i).2.time)
    (erf : ℝ → ℝ) (tppf : ℝ → ℝ → ℝ) (eps : ℝ) (lead : ℕ) (r : Result l.length cols.length) (hn : fs.length < xs.length)
    (h : regressFit erf tppf eps (design cols) (fun i => (l.get i).2.data a b) lead false (.scalar 0) fitOpts = some r) :
    ∃ G, NormalInverse xs fs.length (fun m => fs.getD m 0) G ∧
      Measures xs a b fs.length (misfit xs a b (fun t => ∑ k ∈ range fs.length, at' r.beta k * (fs.getD k 0) t))
        (tppf 0.975 ((xs.length : ℝ) - fs.length)) G (cellOf ⟨_, r⟩) := by
  have hlen : cols.length = fs.length := by rw [hc, List.length_map]
  have hxl : xs.length = l.length := by rw [← hl.length_eq, List.length_map]
  obtain ⟨h1, h2, h3⟩ := regressFit_core erf tppf eps _ _ lead false (.scalar 0) fitOpts r h
  have hw : weightSpec eps false (.scalar 0) = fun _ : Fin l.length => (1 : ℝ) := rfl
  rw [hw] at h2 h3
  have hd : Matrix.diagonal (fun _ : Fin l.length => (1 : ℝ)) = 1 := Matrix.diagonal_one
  rw [hd, Matrix.one_mul] at h3
  have hat : ∀ j : Fin cols.length, at' r.beta j.1 = r.beta j := by
    intro j; unfold at'; rw [dif_pos j.2]
  have hS : misfit xs a b (fun t => ∑ k ∈ range fs.length, at' r.beta k * (fs.getD k 0) t) =
      ∑ i, ((l.get i).2.data a b - ∑ j, design cols i j * r.beta j) ^ 2 := by
    rw [misfit_eq l xs hl]
    refine Finset.sum_congr rfl fun i _ => ?_
    rw [← design_sum fs (fun i => (l.get i).2.time) cols hc (at' r.beta) i]
    simp only [hat]
  have hsp : spread xs a b = ssTotal (fun i : Fin l.length => (l.get i).2.data a b) := by
    unfold spread ssTotal
    rw [misfit_eq l xs hl, hxl, sum_list hl (fun x => x.data a b)]
  have hpos : (0 : ℝ) < (xs.length : ℝ) - fs.length := by
    have : (fs.length : ℝ) < xs.length := by exact_mod_cast hn
    linarith
  have hdof : ((r.st.DOF : ℤ) : ℝ) = (xs.length : ℝ) - fs.length := by
    rw [h2]; simp only [stats, hlen, hxl]; push_cast; ring
  have hkn : cols.length < l.length := by rw [hlen, ← hxl]; exact hn
  have herr := fun c => (regressFit_errors erf tppf eps _ _ lead false (.scalar 0) fitOpts r h c).2.2.2 rfl rfl hkn
  have hmse : r.er.mse = misfit xs a b (fun t => ∑ k ∈ range fs.length, at' r.beta k * (fs.getD k 0) t) /
      ((xs.length : ℝ) - fs.length) := by
    have hc0 : 0 < cols.length ∨ cols.length = 0 := by omega
    have key : r.er.mse = (∑ i, r.st.residual i ^ 2) / ((l.length : ℝ) - cols.length) := by
      unfold regressFit at h
      simp only [ordinaryFit, Option.map_map, Option.map_eq_some_iff, Function.comp_apply, ne_eq, not_true_eq_false, if_false] at h
      obtain ⟨H, hH, rfl⟩ := h
      simp only [stats]
      push_cast
      ring
    rw [key, hS, h2]
    simp only [stats, hlen, hxl]
  have hcrit := regressFit_criteria erf tppf eps _ _ lead false (.scalar 0) fitOpts r h
  have hll : 0 < misfit xs a b (fun t => ∑ k ∈ range fs.length, at' r.beta k * (fs.getD k 0) t) →
      r.st.LOGLIK = logLik xs.length (misfit xs a b (fun t => ∑ k ∈ range fs.length, at' r.beta k * (fs.getD k 0) t)) := by
    intro hpS
    have hn0 : (0 : ℝ) < l.length := by
      have : (0 : ℝ) ≤ cols.length := by positivity
      have : (cols.length : ℝ) < l.length := by exact_mod_cast hkn
      linarith
    have hpi := Real.pi_pos
    rw [hS] at hpS ⊢
    rw [h2]
    simp only [stats, logLik, hxl, Real.log_one, Finset.sum_const_zero, one_mul]
    generalize ∑ i, ((l.get i).2.data a b - ∑ j, design cols i j * r.beta j) ^ 2 = S at hpS ⊢
    have e3 : Real.log (2 * Real.pi * (S / l.length)) = Real.log (2 * Real.pi) + Real.log S - Real.log l.length := by
      rw [Real.log_mul (by positivity) (by positivity), Real.log_div hpS.ne' hn0.ne']; ring
    rw [e3]
    ring
  have hlenR : (cols.length : ℝ) = fs.length := by rw [hlen]
  have hxlR : (xs.length : ℝ) = l.length := by rw [hxl]
  refine ⟨_, normal_of_fit l xs hl fs cols hc r.er.cov (inv_eq_some h3).2.2, ?_⟩
  constructor
  · simp only [cellOf]
    rw [hdof, hmse]
    field_simp
  · simp only [cellOf]
    rw [h2, hS, hsp]
    simp only [stats, hlen, hxl]
    push_cast
    rw [div_div_div_eq]
    rw [div_mul_div_comm, mul_comm ((l.length : ℝ) - fs.length)]
  · intro hp
    simp only [cellOf]
    rw [hcrit.2.1 rfl, hll hp, hlenR]
  · intro hp
    simp only [cellOf]
    rw [hcrit.1, hll hp, hlenR, hxlR]
  · intro k hk
    have hk' : k < cols.length := hlen ▸ hk
    simp only [cellOf]
    have he : at' r.er.error k = r.er.error ⟨k, hk'⟩ := dif_pos hk'
    rw [he, (herr ⟨k, hk'⟩).2.2, dif_pos ⟨hk', hk'⟩, hmse]
    have ha : alphaOf erf fitOpts = 0.05 := by
      unfold alphaOf fitOpts
      norm_num
    rw [ha, hlenR, hxlR, show (1 - 0.05 / 2 : ℝ) = 0.975 by norm_num]

end Verif.RegMaps
