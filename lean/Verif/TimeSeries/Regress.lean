import Verif.TimeSeries.Model
import Mathlib.Tactic.FieldSimp
import Mathlib.Algebra.Order.BigOperators.Ring.Finset
import Mathlib.Data.Nat.Choose.Sum

/-!
# C50: least-squares regression of time series
-/
namespace Verif.TimeSeries
open Matrix Finset

variable {n k : ℕ}

/-! ## Specification -/

/-- the functions of time the regression may use: polynomials up to the order, the sines and cosines of
the cycles and the extra terms (no epoch in this description) -/
def ModelSpace (t : Fin n → ℝ) (ORDER : ℕ) (CYCLES : List ℝ) (TERMS : List (Fin n → ℝ)) : Submodule ℝ (Fin n → ℝ) :=
  Submodule.span ℝ ({f | ∃ o ≤ ORDER, f = fun i => t i ^ o} ∪
    {f | ∃ c ∈ CYCLES, (f = fun i => Real.sin (2 * Real.pi * t i / c)) ∨ (f = fun i => Real.cos (2 * Real.pi * t i / c))} ∪
    {f | f ∈ TERMS})

/-- the weights: one over the squared error (a zero error counts as machine epsilon), or one -/
noncomputable def weightSpec (eps : ℝ) (WEIGHT : Bool) (err : DataErr n) : Fin n → ℝ :=
  match WEIGHT, err with
  | true, .array e => fun i => 1 / (if e i = 0 then eps else e i) ^ 2
  | _, _ => fun _ => 1

/-- `f` is the closest element of `S` to `d` in the weighted norm -/
def IsProjection (S : Submodule ℝ (Fin n → ℝ)) (w d f : Fin n → ℝ) : Prop :=
  f ∈ S ∧ ∀ g ∈ S, ∑ i, w i * (d i - f i) ^ 2 ≤ ∑ i, w i * (d i - g i) ^ 2

/-! ## Weighted least squares by scaling rows -/

/-- scale the rows -/
noncomputable def rowScale (w : Fin n → ℝ) (X : Matrix (Fin n) (Fin k) ℝ) : Matrix (Fin n) (Fin k) ℝ :=
  fun i j => Real.sqrt (w i) * X i j

theorem sse_rowScale (w : Fin n → ℝ) (hw : ∀ i, 0 ≤ w i) (X : Matrix (Fin n) (Fin k) ℝ) (d : Fin n → ℝ) (b : Fin k → ℝ) :
    sse (rowScale w X) (fun i => Real.sqrt (w i) * d i) b = ∑ i, w i * (d i - ∑ j, X i j * b j) ^ 2 := by
  unfold sse rowScale
  refine sum_congr rfl fun i _ => ?_
  have : ∑ j, Real.sqrt (w i) * X i j * b j = Real.sqrt (w i) * ∑ j, X i j * b j := by
    rw [mul_sum]; exact sum_congr rfl fun j _ => by ring
  rw [this, ← mul_sub, mul_pow, Real.sq_sqrt (hw i)]

theorem gram_rowScale (w : Fin n → ℝ) (hw : ∀ i, 0 ≤ w i) (X : Matrix (Fin n) (Fin k) ℝ) :
    (rowScale w X)ᵀ * rowScale w X = Xᵀ * (Matrix.diagonal w * X) := by
  ext a c
  rw [Matrix.mul_apply, Matrix.mul_apply]
  refine sum_congr rfl fun i _ => ?_
  rw [Matrix.diagonal_mul]
  simp only [Matrix.transpose_apply, rowScale]
  have := Real.mul_self_sqrt (hw i)
  linear_combination (X i a * X i c) * this

theorem rhs_rowScale (w : Fin n → ℝ) (hw : ∀ i, 0 ≤ w i) (X : Matrix (Fin n) (Fin k) ℝ) (d : Fin n → ℝ) :
    (rowScale w X)ᵀ.mulVec (fun i => Real.sqrt (w i) * d i) = Xᵀ.mulVec ((Matrix.diagonal w).mulVec d) := by
  funext a
  simp only [Matrix.mulVec, dotProduct, Matrix.transpose_apply, rowScale]
  refine sum_congr rfl fun i _ => ?_
  have : ∑ j, Matrix.diagonal w i j * d j = w i * d i := by
    rw [Finset.sum_eq_single i]
    · rw [Matrix.diagonal_apply_eq]
    · intro j _ hj; rw [Matrix.diagonal_apply_ne _ (Ne.symm hj), zero_mul]
    · intro h; exact absurd (mem_univ i) h
  rw [this]
  have := Real.mul_self_sqrt (hw i)
  linear_combination (X i a * d i) * this

/-- the coefficient vector is characterised by weighted normal equations and minimises -/
theorem weighted_isLS (w : Fin n → ℝ) (hw : ∀ i, 0 ≤ w i) (X : Matrix (Fin n) (Fin k) ℝ) (d : Fin n → ℝ)
    (H : Matrix (Fin k) (Fin k) ℝ) (h : inv (Xᵀ * (Matrix.diagonal w * X)) = some H) :
    IsLS (rowScale w X) (fun i => Real.sqrt (w i) * d i) (H.mulVec (Xᵀ.mulVec ((Matrix.diagonal w).mulVec d))) := by
  apply Normal.isLS
  rw [normal_iff, gram_rowScale w hw, rhs_rowScale w hw, Matrix.mulVec_mulVec, (inv_eq_some h).2.1, Matrix.one_mulVec]

/-! ## The fit from the design matrix on -/

/-- what is common to all results: which coefficients and which statistics -/
theorem regressFit_core (erf : ℝ → ℝ) (tppf : ℝ → ℝ → ℝ) (eps : ℝ) (X : Matrix (Fin n) (Fin k) ℝ)
    (d : Fin n → ℝ) (lead : ℕ) (WEIGHT : Bool) (err : DataErr n) (o : Opts) (r : Result n k)
    (h : regressFit erf tppf eps X d lead WEIGHT err o = some r) :
    (∀ b' : Fin k → ℝ, ∑ i, weightSpec eps WEIGHT err i * (d i - ∑ j, X i j * r.beta j) ^ 2 ≤
      ∑ i, weightSpec eps WEIGHT err i * (d i - ∑ j, X i j * b' j) ^ 2) ∧
    r.st = stats X d (weightSpec eps WEIGHT err) r.beta lead o.AICc ∧
    inv (Xᵀ * (Matrix.diagonal (weightSpec eps WEIGHT err) * X)) = some r.er.cov := by
  unfold regressFit at h
  cases WEIGHT with
  | true =>
    cases err with
    | scalar e => cases h
    | array e0 =>
      have hwe : weights (fixErr eps e0) = weightSpec eps true (.array e0) := by
        funext i; simp only [weights, fixErr, weightSpec, one_div]
      have hw : ∀ i, 0 ≤ weightSpec eps true (.array e0) i := by
        intro i; simp only [weightSpec]; positivity
      simp only [weightedFit, Option.map_map, Option.map_eq_some_iff] at h
      obtain ⟨H, hH, rfl⟩ := h
      rw [hwe] at hH
      refine ⟨?_, ?_, ?_⟩
      · have := weighted_isLS _ hw X d H hH
        intro b'
        have h2 := this b'
        rw [sse_rowScale _ hw, sse_rowScale _ hw] at h2
        simp only [Function.comp_apply, hwe]
        exact h2
      · simp only [Function.comp_apply, hwe]
      · simp only [Function.comp_apply, hwe]; exact hH
  | false =>
    cases err with
    | array e => cases h
    | scalar e =>
      simp only [ordinaryFit, Option.map_map, Option.map_eq_some_iff] at h
      obtain ⟨H, hH, hr⟩ := h
      have hcov : inv (Xᵀ * (Matrix.diagonal (weightSpec eps false (.scalar e)) * X)) = some H := by
        have : Matrix.diagonal (weightSpec eps false (.scalar e)) = (1 : Matrix (Fin n) (Fin n) ℝ) := by
          simp only [weightSpec]; exact Matrix.diagonal_one
        rw [this, Matrix.one_mul]; exact hH
      have key : r.beta = lstsq X d ∧ r.st = stats X d (fun _ => 1) (lstsq X d) lead o.AICc ∧ r.er.cov = H := by
        simp only [Function.comp_apply] at hr
        split_ifs at hr <;> subst hr <;> exact ⟨rfl, rfl, rfl⟩
      obtain ⟨k1, k2, k3⟩ := key
      refine ⟨?_, ?_, by rw [k3]; exact hcov⟩
      · intro b'
        simp only [weightSpec, one_mul, k1]
        exact (lstsq_spec X d).1 b'
      · rw [k2, k1]; rfl

/-- the call raises exactly for a mismatch of `WEIGHT` and `DATA_ERR` or a singular normal matrix -/
theorem regressFit_none (erf : ℝ → ℝ) (tppf : ℝ → ℝ → ℝ) (eps : ℝ) (X : Matrix (Fin n) (Fin k) ℝ)
    (d : Fin n → ℝ) (lead : ℕ) (o : Opts) :
    (∀ e, regressFit erf tppf eps X d lead true (.scalar e) o = none) ∧
    (∀ e, regressFit erf tppf eps X d lead false (.array e) o = none) ∧
    (∀ e, regressFit erf tppf eps X d lead false (.scalar e) o = none ↔ ¬ FullRank X) := by
  refine ⟨fun _ => rfl, fun _ => rfl, fun e => ?_⟩
  have : regressFit erf tppf eps X d lead false (.scalar e) o = none ↔ inv (Xᵀ * X) = none := by
    simp only [regressFit, ordinaryFit, Option.map_map, Option.map_eq_none_iff]
  rw [this, fullRank_iff]
  unfold inv
  by_cases h : (Xᵀ * X).det = 0 <;> simp [h]

/-! ## Columns and model space -/

theorem design_range (cols : List (Fin n → ℝ)) (f : Fin n → ℝ) :
    f ∈ Submodule.span ℝ {c | c ∈ cols} ↔ ∃ b : Fin cols.length → ℝ, ∀ i, f i = ∑ j, design cols i j * b j := by
  have hset : {c | c ∈ cols} = Set.range (fun j : Fin cols.length => cols.get j) := by
    ext c; simp only [Set.mem_ofPred_eq, Set.mem_range, List.mem_iff_get]
  rw [hset]
  constructor
  · intro h
    obtain ⟨b, hb⟩ := (Submodule.mem_span_range_iff_exists_fun ℝ).1 h
    refine ⟨b, fun i => ?_⟩
    rw [← hb, Finset.sum_apply]
    exact sum_congr rfl fun j _ => by simp [design, mul_comm]
  · rintro ⟨b, hb⟩
    refine (Submodule.mem_span_range_iff_exists_fun ℝ).2 ⟨b, ?_⟩
    funext i
    rw [hb, Finset.sum_apply]
    exact sum_congr rfl fun j _ => by simp [design, mul_comm]

theorem mem_cycleCols (t : Fin n → ℝ) (CYCLES : List ℝ) (f : Fin n → ℝ) :
    f ∈ cycleCols t CYCLES ↔ ∃ c ∈ CYCLES, (f = fun i => Real.sin (2 * Real.pi * t i / c)) ∨
      (f = fun i => Real.cos (2 * Real.pi * t i / c)) := by
  simp [cycleCols, List.mem_flatMap]

/-- powers about one epoch are combinations of powers about another -/
theorem pow_shift_mem (t : Fin n → ℝ) (r s : ℝ) (o N : ℕ) (h : o ≤ N) (S : Submodule ℝ (Fin n → ℝ))
    (hS : ∀ p ≤ N, (fun i => (t i - s) ^ p) ∈ S) : (fun i => (t i - r) ^ o) ∈ S := by
  have e : (fun i => (t i - r) ^ o) =
      ∑ m ∈ range (o + 1), ((s - r) ^ (o - m) * (o.choose m : ℝ)) • (fun i => (t i - s) ^ m : Fin n → ℝ) := by
    funext i
    rw [Finset.sum_apply, show t i - r = (t i - s) + (s - r) by ring, add_pow]
    exact sum_congr rfl fun m _ => by simp; ring
  rw [e]
  refine Submodule.sum_mem _ fun m hm => Submodule.smul_mem _ _ (hS m ?_)
  rw [mem_range] at hm; omega

/-- the column space does not depend on the epoch -/
theorem span_regressCols (t : Fin n → ℝ) (trel : ℝ) (ORDER : ℕ) (CYCLES : List ℝ) (TERMS : List (Fin n → ℝ)) :
    Submodule.span ℝ {c | c ∈ regressCols t trel ORDER CYCLES TERMS} = ModelSpace t ORDER CYCLES TERMS := by
  have hmem : ∀ f, f ∈ regressCols t trel ORDER CYCLES TERMS ↔
      (∃ o ≤ ORDER, f = fun i => (t i - trel) ^ o) ∨ f ∈ cycleCols t CYCLES ∨ f ∈ TERMS := by
    intro f
    simp only [regressCols, List.mem_append, List.mem_map, List.mem_range, or_assoc, Nat.lt_succ_iff]
    constructor
    · rintro (⟨o, ho, rfl⟩ | h)
      · exact Or.inl ⟨o, ho, rfl⟩
      · exact Or.inr h
    · rintro (⟨o, ho, rfl⟩ | h)
      · exact Or.inl ⟨o, ho, rfl⟩
      · exact Or.inr h
  apply le_antisymm
  · rw [Submodule.span_le]
    intro f hf
    rcases (hmem f).1 hf with ⟨o, ho, rfl⟩ | h | h
    · refine pow_shift_mem t trel 0 o ORDER ho _ fun p hp => ?_
      apply Submodule.subset_span
      exact Or.inl (Or.inl ⟨p, hp, by simp⟩)
    · exact Submodule.subset_span (Or.inl (Or.inr ((mem_cycleCols t CYCLES f).1 h)))
    · exact Submodule.subset_span (Or.inr h)
  · unfold ModelSpace
    rw [Submodule.span_le]
    rintro f ((⟨o, ho, rfl⟩ | h) | h)
    · have := pow_shift_mem t 0 trel o ORDER ho (Submodule.span ℝ {c | c ∈ regressCols t trel ORDER CYCLES TERMS})
        (fun p hp => Submodule.subset_span ((hmem _).2 (Or.inl ⟨p, hp, rfl⟩)))
      simpa using this
    · exact Submodule.subset_span ((hmem f).2 (Or.inr (Or.inl ((mem_cycleCols t CYCLES f).2 h))))
    · exact Submodule.subset_span ((hmem f).2 (Or.inr (Or.inr h)))

theorem length_cycleCols (t : Fin n → ℝ) (CYCLES : List ℝ) : (cycleCols t CYCLES).length = 2 * CYCLES.length := by
  unfold cycleCols
  induction CYCLES with
  | nil => rfl
  | cons c l ih => rw [List.flatMap_cons, List.length_append, ih]; simp; ring

theorem length_regressCols (t : Fin n → ℝ) (trel : ℝ) (ORDER : ℕ) (CYCLES : List ℝ) (TERMS : List (Fin n → ℝ)) :
    (regressCols t trel ORDER CYCLES TERMS).length = ORDER + 1 + 2 * CYCLES.length + TERMS.length := by
  simp [regressCols, length_cycleCols]; ring

theorem regress_unfold {erf : ℝ → ℝ} {tppf : ℝ → ℝ → ℝ} {eps : ℝ} {t d : Fin n → ℝ} {ORDER : ℕ}
    {CYCLES : List ℝ} {TERMS : List (Fin n → ℝ)} {err : DataErr n} {WEIGHT : Bool} {rel : Relative n} {o : Opts}
    {x : (k : ℕ) × Result n k} (h : regress erf tppf eps t d ORDER CYCLES TERMS err WEIGHT rel o = some x) :
    ∃ trel, epoch t rel = some trel ∧ ∃ r : Result n (regressCols t trel ORDER CYCLES TERMS).length,
      regressFit erf tppf eps (design (regressCols t trel ORDER CYCLES TERMS)) d (ORDER + 1) WEIGHT err o = some r ∧
      x = ⟨_, r⟩ := by
  unfold regress at h
  split_ifs at h
  cases he : epoch t rel with
  | none => rw [he] at h; cases h
  | some trel =>
    rw [he] at h
    simp only [Option.map_eq_some_iff] at h
    obtain ⟨r, hr, rfl⟩ := h
    exact ⟨trel, rfl, r, hr, rfl⟩

/-- the model of the leading columns -/
theorem lead_sum (cols : List (Fin n → ℝ)) (lead : ℕ) (hlen : lead ≤ cols.length) (b : Fin cols.length → ℝ)
    (g : ℕ → Fin n → ℝ) (hg : ∀ m, m < lead → cols[m]? = some (g m)) (i : Fin n) :
    ∑ j : Fin cols.length, (if j.1 < lead then design cols i j * b j else 0) = ∑ j : Fin lead, g j.1 i * at' b j.1 := by
  have hget : ∀ j : Fin cols.length, j.1 < lead → cols.get j i = g j.1 i := by
    intro j hj
    have this := hg j.1 hj
    have e : cols.get j = cols[j.1]'j.2 := rfl
    rw [e]
    rw [List.getElem?_eq_getElem j.2] at this
    exact congrFun (Option.some.inj this) i
  have e1 : ∑ j : Fin cols.length, (if j.1 < lead then design cols i j * b j else 0) =
      ∑ j : Fin cols.length, (if j.1 < lead then g j.1 i * at' b j.1 else 0) := by
    refine sum_congr rfl fun j _ => ?_
    by_cases hj : j.1 < lead
    · rw [if_pos hj, if_pos hj]
      unfold at' design
      rw [dif_pos j.2, hget j hj]
    · rw [if_neg hj, if_neg hj]
  rw [e1]
  have e2 := Fin.sum_univ_eq_sum_range (fun j => if j < lead then g j i * at' b j else 0) cols.length
  have e3 := Fin.sum_univ_eq_sum_range (fun j => g j i * at' b j) lead
  rw [e2, e3, ← sum_filter]
  refine sum_congr ?_ fun _ _ => rfl
  ext j
  simp only [mem_filter, mem_range]
  omega

/-! ## The property -/

/-- C50: the modelled series is the weighted least-squares projection of the data on the model space;
data = model + residual; model = simple + season -/
theorem regress_projection (erf : ℝ → ℝ) (tppf : ℝ → ℝ → ℝ) (eps : ℝ) (t d : Fin n → ℝ) (ORDER : ℕ)
    (CYCLES : List ℝ) (TERMS : List (Fin n → ℝ)) (err : DataErr n) (WEIGHT : Bool) (rel : Relative n) (o : Opts)
    (k : ℕ) (r : Result n k)
    (h : regress erf tppf eps t d ORDER CYCLES TERMS err WEIGHT rel o = some ⟨k, r⟩) :
    IsProjection (ModelSpace t ORDER CYCLES TERMS) (weightSpec eps WEIGHT err) d r.st.model ∧
    (∀ i, d i = r.st.model i + r.st.residual i) ∧ (∀ i, r.st.model i = r.st.simple i + r.st.season i) ∧
    k = ORDER + 1 + 2 * CYCLES.length + TERMS.length ∧ r.st.N = k ∧ r.st.DOF = (n : ℤ) - k := by
  obtain ⟨trel, -, r', hr, hx⟩ := regress_unfold h
  obtain ⟨h1, h2, -⟩ := regressFit_core erf tppf eps _ d _ WEIGHT err o r' hr
  have hk : k = (regressCols t trel ORDER CYCLES TERMS).length := congrArg Sigma.fst hx
  subst hk
  have : r = r' := by
    have := (Sigma.mk.inj_iff.1 hx).2
    exact eq_of_heq this
  subst this
  refine ⟨⟨?_, ?_⟩, ?_, ?_, length_regressCols _ _ _ _ _, ?_, ?_⟩
  · rw [← span_regressCols t trel, design_range]
    exact ⟨r.beta, fun i => by rw [h2]; rfl⟩
  · intro g hg
    rw [← span_regressCols t trel, design_range] at hg
    obtain ⟨b, hb⟩ := hg
    have := h1 b
    rw [h2]
    simp only [hb]
    exact this
  · intro i; rw [h2]; simp only [stats]; ring
  · intro i; rw [h2]; simp only [stats]; ring
  · rw [h2]; rfl
  · rw [h2]; rfl

/-- projections with positive weights are unique -/
theorem projection_unique (S : Submodule ℝ (Fin n → ℝ)) (w d f g : Fin n → ℝ) (hw : ∀ i, 0 < w i)
    (hf : IsProjection S w d f) (hg : IsProjection S w d g) : f = g := by
  have e1 := hf.2 g hg.1
  have e2 := hg.2 f hf.1
  have hm : (fun i => (f i + g i) / 2) ∈ S := by
    have : (fun i => (f i + g i) / 2) = (1 / 2 : ℝ) • (f + g) := by funext i; simp; ring
    rw [this]; exact S.smul_mem _ (S.add_mem hf.1 hg.1)
  have e3 := hf.2 _ hm
  have e4 : ∑ i, w i * (d i - (f i + g i) / 2) ^ 2 =
      (∑ i, w i * (d i - f i) ^ 2) / 2 + (∑ i, w i * (d i - g i) ^ 2) / 2 - ∑ i, w i * ((f i - g i) / 2) ^ 2 := by
    rw [div_eq_mul_inv, div_eq_mul_inv, sum_mul, sum_mul, ← sum_add_distrib, ← sum_sub_distrib]
    exact sum_congr rfl fun i _ => by ring
  have e5 : 0 ≤ ∑ i, w i * ((f i - g i) / 2) ^ 2 := sum_nonneg fun i _ => mul_nonneg (hw i).le (sq_nonneg _)
  have e6 : ∑ i, w i * ((f i - g i) / 2) ^ 2 = 0 := by linarith
  have := (sum_eq_zero_iff_of_nonneg (fun i _ => mul_nonneg (hw i).le (sq_nonneg _))).1 e6
  funext i
  have h := this i (mem_univ _)
  rcases mul_eq_zero.1 h with h | h
  · exact absurd h (hw i).ne'
  · have := pow_eq_zero_iff (two_ne_zero) |>.1 h
    linarith

theorem weightSpec_pos (eps : ℝ) (he : eps ≠ 0) (WEIGHT : Bool) (err : DataErr n) (i : Fin n) :
    0 < weightSpec eps WEIGHT err i := by
  unfold weightSpec
  split
  · rename_i e
    have : (if e i = 0 then eps else e i) ≠ 0 := by
      by_cases h : e i = 0
      · rw [if_pos h]; exact he
      · rw [if_neg h]; exact h
    positivity
  · exact one_pos

/-- C50: the epoch (`RELATIVE`) does not change the modelled series or the residual -/
theorem regress_epoch (erf : ℝ → ℝ) (tppf : ℝ → ℝ → ℝ) (eps : ℝ) (he : eps ≠ 0) (t d : Fin n → ℝ) (ORDER : ℕ)
    (CYCLES : List ℝ) (TERMS : List (Fin n → ℝ)) (err : DataErr n) (WEIGHT : Bool) (rel rel' : Relative n) (o o' : Opts)
    (k k' : ℕ) (r : Result n k) (r' : Result n k')
    (h : regress erf tppf eps t d ORDER CYCLES TERMS err WEIGHT rel o = some ⟨k, r⟩)
    (h' : regress erf tppf eps t d ORDER CYCLES TERMS err WEIGHT rel' o' = some ⟨k', r'⟩) :
    r.st.model = r'.st.model ∧ r.st.residual = r'.st.residual := by
  have a := regress_projection erf tppf eps t d ORDER CYCLES TERMS err WEIGHT rel o k r h
  have b := regress_projection erf tppf eps t d ORDER CYCLES TERMS err WEIGHT rel' o' k' r' h'
  have e := projection_unique _ _ d _ _ (weightSpec_pos eps he WEIGHT err) a.1 b.1
  refine ⟨e, funext fun i => ?_⟩
  have h1 := a.2.1 i; have h2 := b.2.1 i
  rw [e] at h1
  linarith

/-- C50: equal weights give the unweighted fit -/
theorem regress_equal_weights (erf : ℝ → ℝ) (tppf : ℝ → ℝ → ℝ) (eps : ℝ) (t d : Fin n → ℝ) (ORDER : ℕ)
    (CYCLES : List ℝ) (TERMS : List (Fin n → ℝ)) (rel rel' : Relative n) (o o' : Opts) (s s' : ℝ) (hs : s ≠ 0)
    (k k' : ℕ) (r : Result n k) (r' : Result n k')
    (h : regress erf tppf eps t d ORDER CYCLES TERMS (.array fun _ => s) true rel o = some ⟨k, r⟩)
    (h' : regress erf tppf eps t d ORDER CYCLES TERMS (.scalar s') false rel' o' = some ⟨k', r'⟩) :
    r.st.model = r'.st.model := by
  have a := regress_projection erf tppf eps t d ORDER CYCLES TERMS _ true rel o k r h
  have b := regress_projection erf tppf eps t d ORDER CYCLES TERMS _ false rel' o' k' r' h'
  refine projection_unique _ _ d _ _ (fun _ => one_pos) ⟨a.1.1, fun g hg => ?_⟩ b.1
  have h1 := a.1.2 g hg
  simp only [weightSpec, if_neg hs, ← mul_sum] at h1
  have h2 : 0 < 1 / s ^ 2 := by positivity
  simp only [one_mul]
  exact le_of_mul_le_mul_left h1 h2

/-- C50: the residual is orthogonal (with the weights) to everything in the model space -/
theorem regress_orthogonal (erf : ℝ → ℝ) (tppf : ℝ → ℝ → ℝ) (eps : ℝ) (t d : Fin n → ℝ) (ORDER : ℕ)
    (CYCLES : List ℝ) (TERMS : List (Fin n → ℝ)) (err : DataErr n) (WEIGHT : Bool) (rel : Relative n) (o : Opts)
    (k : ℕ) (r : Result n k)
    (h : regress erf tppf eps t d ORDER CYCLES TERMS err WEIGHT rel o = some ⟨k, r⟩)
    (g : Fin n → ℝ) (hg : g ∈ ModelSpace t ORDER CYCLES TERMS) :
    ∑ i, weightSpec eps WEIGHT err i * r.st.residual i * g i = 0 := by
  obtain ⟨⟨hm, hmin⟩, hres, -⟩ := regress_projection erf tppf eps t d ORDER CYCLES TERMS err WEIGHT rel o k r h
  set w := weightSpec eps WEIGHT err
  have hr : ∀ i, d i - r.st.model i = r.st.residual i := fun i => by rw [hres i]; ring
  by_contra hne
  set A := ∑ i, w i * r.st.residual i * g i with hA
  set B := ∑ i, w i * g i ^ 2 with hB
  have hq : ∀ s : ℝ, 0 ≤ s ^ 2 * B - 2 * s * A := by
    intro s
    have := hmin (fun i => r.st.model i + s * g i) (Submodule.add_mem _ hm (Submodule.smul_mem _ s hg))
    have e : ∑ i, w i * (d i - (r.st.model i + s * g i)) ^ 2 =
        ∑ i, w i * (d i - r.st.model i) ^ 2 + (s ^ 2 * B - 2 * s * A) := by
      rw [hA, hB, mul_sum, mul_sum, ← sum_sub_distrib, ← sum_add_distrib]
      refine sum_congr rfl fun i _ => ?_
      have := hr i
      linear_combination (-2 * s * w i * g i) * this
    linarith
  have hBn : 0 ≤ B := by
    rw [hB]; refine sum_nonneg fun i _ => mul_nonneg ?_ (sq_nonneg _)
    simp only [w]; unfold weightSpec
    split
    · positivity
    · exact zero_le_one
  rcases lt_or_eq_of_le hBn with hB0 | hB0
  · have := hq (A / B)
    have e : (A / B) ^ 2 * B - 2 * (A / B) * A = -(A ^ 2 / B) := by field_simp; ring
    rw [e] at this
    have : 0 < A ^ 2 / B := by positivity
    linarith
  · have h1 := hq A
    rw [← hB0] at h1
    have : 0 < A ^ 2 := by positivity
    nlinarith

/-- C50: the coefficients generate the series in the order constant, powers about the epoch, sine and
cosine of each cycle, extra terms, and data generated by coefficients is fitted with these coefficients -/
theorem regress_beta (erf : ℝ → ℝ) (tppf : ℝ → ℝ → ℝ) (eps : ℝ) (he : eps ≠ 0) (t d : Fin n → ℝ) (ORDER : ℕ)
    (CYCLES : List ℝ) (TERMS : List (Fin n → ℝ)) (err : DataErr n) (WEIGHT : Bool) (rel : Relative n) (o : Opts)
    (x : (k : ℕ) × Result n k)
    (h : regress erf tppf eps t d ORDER CYCLES TERMS err WEIGHT rel o = some x) :
    ∃ (trel : ℝ) (r : Result n (regressCols t trel ORDER CYCLES TERMS).length), epoch t rel = some trel ∧ x = ⟨_, r⟩ ∧
      (∀ i, r.st.model i = ∑ j, (regressCols t trel ORDER CYCLES TERMS).get j i * r.beta j) ∧
      (∀ i, r.st.simple i = ∑ j : Fin (ORDER + 1), (t i - trel) ^ j.1 * at' r.beta j.1) ∧
      (∀ b, (∀ i, d i = ∑ j, (regressCols t trel ORDER CYCLES TERMS).get j i * b j) → r.beta = b) := by
  obtain ⟨trel, hep, r, hr, hx⟩ := regress_unfold h
  obtain ⟨h1, h2, h3⟩ := regressFit_core erf tppf eps _ d _ WEIGHT err o r hr
  have hw := fun i => (weightSpec_pos eps he WEIGHT err i).le
  refine ⟨trel, r, hep, hx, fun i => by rw [h2]; rfl, fun i => ?_, fun b hb => ?_⟩
  · rw [h2]
    simp only [stats]
    refine lead_sum _ (ORDER + 1) (by rw [length_regressCols]; omega) r.beta (fun o i => (t i - trel) ^ o) ?_ i
    intro m hm
    unfold regressCols
    rw [List.append_assoc, List.getElem?_append_left (by simpa using hm), List.getElem?_map, List.getElem?_range hm]
    rfl
  · set X := design (regressCols t trel ORDER CYCLES TERMS) with hXd
    set w := weightSpec eps WEIGHT err with hwd
    have hfr : FullRank (rowScale w X) := by
      rw [fullRank_iff, gram_rowScale w hw]
      exact (inv_eq_some h3).1
    refine ls_unique hfr (y := fun i => Real.sqrt (w i) * d i) ?_ ?_
    · intro b'
      rw [sse_rowScale w hw, sse_rowScale w hw]
      exact h1 b'
    · intro b'
      rw [sse_rowScale w hw, sse_rowScale w hw]
      have z : ∑ i, w i * (d i - ∑ j, X i j * b j) ^ 2 = 0 := by
        refine sum_eq_zero fun i _ => ?_
        have : d i = ∑ j, X i j * b j := hb i
        rw [this]; ring
      rw [z]
      exact sum_nonneg fun i _ => mul_nonneg (hw i) (sq_nonneg _)

/-- the constant function is in the model space -/
theorem const_mem (t : Fin n → ℝ) (ORDER : ℕ) (CYCLES : List ℝ) (TERMS : List (Fin n → ℝ)) (a : ℝ) :
    (fun _ => a) ∈ ModelSpace t ORDER CYCLES TERMS := by
  have : (fun _ => a : Fin n → ℝ) = a • (fun i => t i ^ 0) := by funext i; simp
  rw [this]
  exact Submodule.smul_mem _ _ (Submodule.subset_span (Or.inl (Or.inl ⟨0, Nat.zero_le _, rfl⟩)))

/-- C50: the coefficient of determination compares the residual with the deviation from the mean; it is
at most 1, and without weights it is between 0 and 1 and equal to 1 only for a perfect fit -/
theorem regress_R2 (erf : ℝ → ℝ) (tppf : ℝ → ℝ → ℝ) (eps : ℝ) (t d : Fin n → ℝ) (ORDER : ℕ)
    (CYCLES : List ℝ) (TERMS : List (Fin n → ℝ)) (err : DataErr n) (WEIGHT : Bool) (rel : Relative n) (o : Opts)
    (k : ℕ) (r : Result n k)
    (h : regress erf tppf eps t d ORDER CYCLES TERMS err WEIGHT rel o = some ⟨k, r⟩)
    (hd : ∃ i j, d i ≠ d j) :
    (1 - r.st.R2) * ∑ i, (d i - (∑ j, d j) / n) ^ 2 = ∑ i, r.st.residual i ^ 2 ∧ r.st.R2 ≤ 1 ∧
    (r.st.R2 = 1 ↔ ∀ i, r.st.residual i = 0) ∧ (WEIGHT = false → 0 ≤ r.st.R2) := by
  have hproj := regress_projection erf tppf eps t d ORDER CYCLES TERMS err WEIGHT rel o k r h
  have hpos : 0 < ssTotal d := by
    obtain ⟨i, j, hij⟩ := hd
    unfold ssTotal
    by_contra hle
    have hz : ∑ i, (d i - (∑ j, d j) / n) ^ 2 = 0 :=
      le_antisymm (not_lt.1 hle) (sum_nonneg fun i _ => sq_nonneg _)
    have hz := (sum_eq_zero_iff_of_nonneg (fun i _ => sq_nonneg _)).1 hz
    have hi := pow_eq_zero_iff (two_ne_zero) |>.1 (hz i (mem_univ _))
    have hj := pow_eq_zero_iff (two_ne_zero) |>.1 (hz j (mem_univ _))
    exact hij (by linarith)
  have hval : r.st.R2 = 1 - (∑ i, r.st.residual i ^ 2) / ssTotal d := by
    obtain ⟨trel, -, r', hr, hx⟩ := regress_unfold h
    obtain ⟨-, h2, -⟩ := regressFit_core erf tppf eps _ d _ WEIGHT err o r' hr
    have hk : k = (regressCols t trel ORDER CYCLES TERMS).length := congrArg Sigma.fst hx
    subst hk
    have : r = r' := eq_of_heq (Sigma.mk.inj_iff.1 hx).2
    subst this
    rw [h2]; rfl
  have hs : 0 ≤ ∑ i, r.st.residual i ^ 2 := sum_nonneg fun i _ => sq_nonneg _
  refine ⟨?_, ?_, ?_, ?_⟩
  · rw [hval]
    have : ∑ i, (d i - (∑ j, d j) / n) ^ 2 = ssTotal d := rfl
    rw [this]; field_simp; ring
  · rw [hval]; have := div_nonneg hs hpos.le; linarith
  · rw [hval]
    constructor
    · intro h1
      have : (∑ i, r.st.residual i ^ 2) / ssTotal d = 0 := by linarith
      rcases div_eq_zero_iff.1 this with h0 | h0
      · intro i
        exact pow_eq_zero_iff (two_ne_zero) |>.1 ((sum_eq_zero_iff_of_nonneg (fun i _ => sq_nonneg _)).1 h0 i (mem_univ _))
      · exact absurd h0 hpos.ne'
    · intro h0
      simp [h0]
  · intro hW
    rw [hval]
    have hmin := hproj.1.2 _ (const_mem t ORDER CYCLES TERMS ((∑ j, d j) / n))
    have hw : weightSpec eps WEIGHT err = fun _ => 1 := by subst hW; unfold weightSpec; cases err <;> rfl
    simp only [hw, one_mul] at hmin
    have hle : ∑ i, r.st.residual i ^ 2 ≤ ssTotal d := by
      refine le_trans (le_of_eq (sum_congr rfl fun i _ => ?_)) hmin
      rw [hproj.2.1 i]; ring
    have := (div_le_one hpos).2 hle
    linarith

/-- propagating data variances `1/w` through the weighted solution gives the covariance matrix back -/
theorem propagate (X : Matrix (Fin n) (Fin k) ℝ) (w : Fin n → ℝ) (H : Matrix (Fin k) (Fin k) ℝ)
    (hH : inv (Xᵀ * (Matrix.diagonal w * X)) = some H) (c : Fin k) :
    ∑ i, (H * (Matrix.diagonal w * X)ᵀ) c i ^ 2 * (w i)⁻¹ = H c c := by
  obtain ⟨-, hAH, hHA⟩ := inv_eq_some hH
  set A := Xᵀ * (Matrix.diagonal w * X) with hA
  have hAt : Aᵀ = A := by
    rw [hA, Matrix.transpose_mul, Matrix.transpose_mul, Matrix.transpose_transpose, Matrix.diagonal_transpose, Matrix.mul_assoc]
  have hHt : Hᵀ = H := by
    have : Hᵀ * A = 1 := by
      have := congrArg Matrix.transpose hAH
      rwa [Matrix.transpose_mul, hAt, Matrix.transpose_one] at this
    calc Hᵀ = Hᵀ * (A * H) := by rw [hAH, Matrix.mul_one]
      _ = H := by rw [← Matrix.mul_assoc, this, Matrix.one_mul]
  have e1 : H * (Matrix.diagonal w * X)ᵀ * (X * Hᵀ) = H := by
    rw [Matrix.transpose_mul, Matrix.diagonal_transpose, hHt]
    calc H * (Xᵀ * Matrix.diagonal w) * (X * H) = H * (A * H) := by
          rw [hA]; simp only [Matrix.mul_assoc]
      _ = H := by rw [hAH, Matrix.mul_one]
  have e2 : (H * (Matrix.diagonal w * X)ᵀ * (X * Hᵀ)) c c =
      ∑ i, (H * (Matrix.diagonal w * X)ᵀ) c i * (X * Hᵀ) i c := Matrix.mul_apply
  rw [e1] at e2
  rw [e2]
  refine sum_congr rfl fun i _ => ?_
  have e3 : (H * (Matrix.diagonal w * X)ᵀ) c i = (X * Hᵀ) i c * w i := by
    rw [Matrix.mul_apply, Matrix.mul_apply, sum_mul]
    refine sum_congr rfl fun j _ => ?_
    rw [Matrix.transpose_apply, Matrix.transpose_apply, Matrix.diagonal_mul]; ring
  rw [e3]
  by_cases hw0 : w i = 0
  · rw [hw0]; ring
  · field_simp

theorem cov_diag_nonneg (X : Matrix (Fin n) (Fin k) ℝ) (w : Fin n → ℝ) (hw : ∀ i, 0 ≤ w i) (H : Matrix (Fin k) (Fin k) ℝ)
    (hH : inv (Xᵀ * (Matrix.diagonal w * X)) = some H) (c : Fin k) : 0 ≤ H c c := by
  rw [← propagate X w H hH c]
  exact sum_nonneg fun i _ => mul_nonneg (sq_nonneg _) (inv_nonneg.2 (hw i))

/-- C50: the reported covariance is the inverse of the weighted normal matrix; the reported errors are its
diagonal: with weights the square root of it, with one known error `e` times the root, without errors
`t*` times the root of `MSE` times it -/
theorem regressFit_errors (erf : ℝ → ℝ) (tppf : ℝ → ℝ → ℝ) (eps : ℝ) (X : Matrix (Fin n) (Fin k) ℝ)
    (d : Fin n → ℝ) (lead : ℕ) (WEIGHT : Bool) (err : DataErr n) (o : Opts) (r : Result n k)
    (h : regressFit erf tppf eps X d lead WEIGHT err o = some r) (c : Fin k) :
    r.er.cov * (Xᵀ * (Matrix.diagonal (weightSpec eps WEIGHT err) * X)) = 1 ∧
    (WEIGHT = true → r.er.error c = Real.sqrt (r.er.cov c c)) ∧
    (WEIGHT = false → ∀ e, err = .scalar e → e ≠ 0 → r.er.error c = |e| * Real.sqrt (r.er.cov c c)) ∧
    (WEIGHT = false → err = .scalar 0 → k < n →
      r.er.mse = (∑ i, r.st.residual i ^ 2) / ((n : ℝ) - k) ∧
      r.er.stdErr = some (fun c => Real.sqrt (r.er.mse * r.er.cov c c)) ∧
      r.er.error c = tppf (1 - alphaOf erf o / 2) ((n : ℝ) - k) * Real.sqrt (r.er.mse * r.er.cov c c)) := by
  have hcov := (regressFit_core erf tppf eps X d lead WEIGHT err o r h).2.2
  have prop := fun w H hH => propagate X w H hH c
  refine ⟨(inv_eq_some hcov).2.2, ?_, ?_, ?_⟩
  · rintro rfl
    cases err with
    | scalar e => cases h
    | array e0 =>
      unfold regressFit at h
      simp only [weightedFit, Option.map_map, Option.map_eq_some_iff] at h
      obtain ⟨H, hH, rfl⟩ := h
      simp only [Function.comp_apply]
      congr 1
      rw [← prop _ H hH]
      refine sum_congr rfl fun i _ => ?_
      rw [mul_pow]
      congr 1
      unfold weights; rw [inv_inv]
  · rintro rfl e rfl he0
    unfold regressFit at h
    simp only [ordinaryFit, Option.map_map, Option.map_eq_some_iff, Function.comp_apply, if_pos he0] at h
    obtain ⟨H, hH, rfl⟩ := h
    simp only
    have hH' : inv (Xᵀ * (Matrix.diagonal (fun _ => (1 : ℝ)) * X)) = some H := by
      have : Matrix.diagonal (fun _ => (1 : ℝ)) = (1 : Matrix (Fin n) (Fin n) ℝ) := Matrix.diagonal_one
      rw [this, Matrix.one_mul]; exact hH
    have hp := prop _ H hH'
    have e1 : Matrix.diagonal (fun _ => (1 : ℝ)) * X = X := by
      have : Matrix.diagonal (fun _ => (1 : ℝ)) = (1 : Matrix (Fin n) (Fin n) ℝ) := Matrix.diagonal_one
      rw [this, Matrix.one_mul]
    rw [e1] at hp
    simp only [inv_one, mul_one] at hp
    have : knownVar X H e c = e ^ 2 * H c c := by
      unfold knownVar
      rw [← hp, mul_sum]
      exact sum_congr rfl fun i _ => by ring
    rw [this, Real.sqrt_mul (sq_nonneg e), Real.sqrt_sq_eq_abs]
  · rintro rfl rfl hkn
    unfold regressFit at h
    simp only [ordinaryFit, Option.map_map, Option.map_eq_some_iff, Function.comp_apply, ne_eq, not_true_eq_false, if_false] at h
    obtain ⟨H, hH, rfl⟩ := h
    simp only [and_true, stats]
    push_cast
    ring

/-- Gaussian log-likelihood of the data for variances `s / w i` about the modelled values -/
noncomputable def gaussLogLik (w d m : Fin n → ℝ) (s : ℝ) : ℝ :=
  ∑ i, (-(1 / 2) * Real.log (2 * Real.pi * (s / w i)) - (d i - m i) ^ 2 / (2 * (s / w i)))

/-- C50: `LOGLIK` is the Gaussian log-likelihood maximised over the common variance factor, whose maximum is at
the weighted mean square residual -/
theorem loglik_maximum (X : Matrix (Fin n) (Fin k) ℝ) (d w : Fin n → ℝ) (hw : ∀ i, 0 < w i) (b : Fin k → ℝ) (lead : ℕ)
    (c : Bool) (hn : 0 < n) (hS : 0 < ∑ i, w i * (stats X d w b lead c).residual i ^ 2) :
    (stats X d w b lead c).LOGLIK = gaussLogLik w d (stats X d w b lead c).model
      ((∑ i, w i * (stats X d w b lead c).residual i ^ 2) / n) ∧
    ∀ s, 0 < s → gaussLogLik w d (stats X d w b lead c).model s ≤ (stats X d w b lead c).LOGLIK := by
  set m := (stats X d w b lead c).model with hm
  have hres : ∀ i, (stats X d w b lead c).residual i = d i - m i := fun i => rfl
  set S := ∑ i, w i * (stats X d w b lead c).residual i ^ 2 with hSd
  have hnp : (0 : ℝ) < n := by exact_mod_cast hn
  have hpi := Real.pi_pos
  have expand : ∀ s, 0 < s → gaussLogLik w d m s =
      1 / 2 * (∑ i, Real.log (w i) - n * (Real.log (2 * Real.pi) + Real.log s)) - S / (2 * s) := by
    intro s hs
    unfold gaussLogLik
    have e : ∀ i, -(1 / 2) * Real.log (2 * Real.pi * (s / w i)) - (d i - m i) ^ 2 / (2 * (s / w i)) =
        1 / 2 * Real.log (w i) + (-(1 / 2) * (Real.log (2 * Real.pi) + Real.log s)) +
          (-(1 / (2 * s))) * (w i * (stats X d w b lead c).residual i ^ 2) := by
      intro i
      rw [Real.log_mul (by positivity) (by have := hw i; positivity), Real.log_div hs.ne' (hw i).ne', hres i]
      have := (hw i).ne'
      field_simp
      ring
    rw [sum_congr rfl fun i _ => e i, sum_add_distrib, sum_add_distrib, ← mul_sum, ← mul_sum, ← mul_sum, ← hSd, sum_const, card_univ,
      Fintype.card_fin, nsmul_eq_mul]
    field_simp
    ring
  have hll : (stats X d w b lead c).LOGLIK = 1 / 2 * (∑ i, Real.log (w i) -
      n * (Real.log (2 * Real.pi) + 1 - Real.log n + Real.log S)) := rfl
  have hmax : (stats X d w b lead c).LOGLIK = gaussLogLik w d m (S / n) := by
    rw [hll, expand _ (by positivity), Real.log_div hS.ne' hnp.ne']
    field_simp
    ring
  refine ⟨hmax, fun s hs => ?_⟩
  rw [hll, expand s hs]
  have hx : 0 < S / (n * s) := by positivity
  have := Real.log_le_sub_one_of_pos hx
  rw [Real.log_div hS.ne' (by positivity), Real.log_mul hnp.ne' hs.ne'] at this
  have e : S / (2 * s) = n / 2 * (S / (n * s)) := by field_simp
  rw [e]
  nlinarith

/-- C50: `WSSE` squares the weights: it is the sum of `(residual/error^2)^2`, not of `(residual/error)^2` -/
theorem regressFit_wsse (erf : ℝ → ℝ) (tppf : ℝ → ℝ → ℝ) (eps : ℝ) (X : Matrix (Fin n) (Fin k) ℝ)
    (d e : Fin n → ℝ) (hne : ∀ i, e i ≠ 0) (lead : ℕ) (o : Opts) (r : Result n k)
    (h : regressFit erf tppf eps X d lead true (.array e) o = some r) :
    r.er.mse = (∑ i, (r.st.residual i / e i ^ 2) ^ 2) / (((n : ℤ) - k : ℤ) : ℝ) := by
  unfold regressFit at h
  simp only [weightedFit, Option.map_map, Option.map_eq_some_iff] at h
  obtain ⟨H, hH, rfl⟩ := h
  simp only [Function.comp_apply]
  congr 1
  refine sum_congr rfl fun i _ => ?_
  simp only [stats, weights, fixErr, if_neg (hne _)]
  rw [div_eq_mul_inv]
  ring

/-- C50: the reference epoch: by default the mean of the times, or the mean of the times with the given
indices (the deviations sum to zero), or the given number; no epoch only for an empty list of indices -/
theorem epoch_spec (t : Fin n → ℝ) (hn : 0 < n) :
    (∃ r, epoch t .ellipsis = some r ∧ ∑ i, (t i - r) = 0) ∧
    (∀ r, epoch t (.value r) = some r) ∧
    (∀ l : List (Fin n), l ≠ [] → ∃ r, epoch t (.indices l) = some r ∧ (l.map fun i => t i - r).sum = 0) ∧
    epoch t (.indices []) = none := by
  have hn' : (n : ℝ) ≠ 0 := by positivity
  refine ⟨⟨_, rfl, ?_⟩, fun r => rfl, fun l hl => ⟨_, if_neg hl, ?_⟩, by simp [epoch]⟩
  · rw [Finset.sum_sub_distrib]
    simp only [Finset.sum_const, Finset.card_univ, Fintype.card_fin, nsmul_eq_mul]
    field_simp
    ring
  · have hlen : (l.length : ℝ) ≠ 0 := by
      have : l.length ≠ 0 := fun h => hl (List.length_eq_zero_iff.1 h)
      exact_mod_cast this
    have : ∀ (l : List (Fin n)) (r : ℝ), (l.map fun i => t i - r).sum = (l.map t).sum - l.length * r := by
      intro l r
      induction l with
      | nil => simp
      | cons a l ih => simp only [List.map_cons, List.sum_cons, ih, List.length_cons]; push_cast; ring
    rw [this]
    field_simp
    ring

/-- C50: information criteria of a fit with `k` coefficients: the variance counts as a parameter -/
theorem regressFit_criteria {k : ℕ} (erf : ℝ → ℝ) (tppf : ℝ → ℝ → ℝ) (eps : ℝ) (X : Matrix (Fin n) (Fin k) ℝ)
    (d : Fin n → ℝ) (lead : ℕ) (WEIGHT : Bool) (err : DataErr n) (o : Opts) (r : Result n k)
    (h : regressFit erf tppf eps X d lead WEIGHT err o = some r) :
    r.st.BIC = Real.log n * (k + 1) - 2 * r.st.LOGLIK ∧
    (o.AICc = false → r.st.AIC = 2 * (k + 1) - 2 * r.st.LOGLIK) ∧
    (o.AICc = true → r.st.AIC = 2 * (k + 1) - 2 * r.st.LOGLIK +
      2 * (k + 1) * (k + 2) / ((n : ℝ) - k - 2)) := by
  have hst := (regressFit_core erf tppf eps X d lead WEIGHT err o r h).2.1
  rw [hst]
  simp only [stats]
  refine ⟨by ring, fun ha => ?_, fun ha => ?_⟩
  · rw [ha, if_neg (by simp)]; ring
  · rw [ha, if_pos rfl, show (n : ℝ) - (k + 1) - 1 = n - k - 2 by ring]; ring

/-- C50: significance level of the error bars.  With `within s` the probability of a normal variable
within `s` standard deviations (so `erf x = within (sqrt 2 x)`): `STDEV` wins over `CONF`, and without
either the confidence is 95 percent -/
theorem alpha_spec (erf within : ℝ → ℝ) (hw : ∀ x, erf x = within (Real.sqrt 2 * x)) (o : Opts) :
    (o.STDEV ≠ 0 → alphaOf erf o = 1 - within o.STDEV) ∧
    (o.STDEV = 0 → o.CONF ≠ 0 → alphaOf erf o = 1 - o.CONF) ∧
    (o.STDEV = 0 → o.CONF = 0 → alphaOf erf o = 0.05) := by
  unfold alphaOf
  refine ⟨fun h => ?_, fun h h' => ?_, fun h h' => ?_⟩
  · rw [if_pos h, hw, mul_div_cancel₀ _ (by positivity)]
  · rw [if_neg (by simpa using h), if_pos h']
  · rw [if_neg (by simpa using h), if_neg (by simpa using h')]; norm_num

/-! ## A case that meets the hypotheses -/

/-- two samples at times 0 and 1, a constant and a trend: `regress` returns -/
theorem regress_example (erf : ℝ → ℝ) (tppf : ℝ → ℝ → ℝ) (eps : ℝ) (d : Fin 2 → ℝ) (o : Opts) :
    ∃ x, regress erf tppf eps (fun i : Fin 2 => (i.1 : ℝ)) d 1 [] [] (.scalar 0) false (.value 0) o = some x := by
  unfold regress
  rw [if_neg (by norm_num)]
  simp only [epoch]
  have hX : FullRank (design (regressCols (fun i : Fin 2 => (i.1 : ℝ)) 0 1 [] [])) := by
    intro v hv
    have h0 := hv 0
    have h1 := hv 1
    have hl : (regressCols (fun i : Fin 2 => (i.1 : ℝ)) 0 1 [] []).length = 2 := rfl
    change ∑ j : Fin 2, _ = _ at h0
    change ∑ j : Fin 2, _ = _ at h1
    rw [Fin.sum_univ_two] at h0 h1
    have d00 : design (regressCols (fun i : Fin 2 => (i.1 : ℝ)) 0 1 [] []) 0 (0 : Fin 2) = 1 := by
      show (((0 : Fin 2).1 : ℝ) - 0) ^ 0 = 1; simp
    have d01 : design (regressCols (fun i : Fin 2 => (i.1 : ℝ)) 0 1 [] []) 0 (1 : Fin 2) = 0 := by
      show (((0 : Fin 2).1 : ℝ) - 0) ^ 1 = 0; simp
    have d10 : design (regressCols (fun i : Fin 2 => (i.1 : ℝ)) 0 1 [] []) 1 (0 : Fin 2) = 1 := by
      show (((1 : Fin 2).1 : ℝ) - 0) ^ 0 = 1; simp
    have d11 : design (regressCols (fun i : Fin 2 => (i.1 : ℝ)) 0 1 [] []) 1 (1 : Fin 2) = 1 := by
      show (((1 : Fin 2).1 : ℝ) - 0) ^ 1 = 1; simp
    rw [d00, d01] at h0
    rw [d10, d11] at h1
    funext j
    change Fin 2 at j
    fin_cases j
    · show v (0 : Fin 2) = 0; linarith
    · show v (1 : Fin 2) = 0; linarith
  have := (regressFit_none erf tppf eps (design (regressCols (fun i : Fin 2 => (i.1 : ℝ)) 0 1 [] [])) d 2 o).2.2 0
  cases hr : regressFit erf tppf eps (design (regressCols (fun i : Fin 2 => (i.1 : ℝ)) 0 1 [] [])) d (1 + 1) false (.scalar 0) o with
  | none => exact absurd hX (this.1 hr)
  | some r => exact ⟨_, rfl⟩

end Verif.TimeSeries
