import Mathlib.LinearAlgebra.Matrix.NonsingularInverse
import Mathlib.LinearAlgebra.Matrix.Rank
import Mathlib.LinearAlgebra.Matrix.ToLinearEquiv
import Mathlib.Data.Real.Basic
import Mathlib.Tactic.Linarith
import Mathlib.Tactic.LinearCombination

/-!
# `np.linalg.lstsq`, `np.linalg.inv` and `np.linalg.pinv` in exact arithmetic

`lstsq` is characterised by numpy's documentation: the least-squares solution and, if there is more
than one, the one with the smallest norm.  Existence and uniqueness are proved here.
-/
namespace Verif.TimeSeries
open Matrix Finset

variable {n k : ℕ}

/-- sum of squared errors of coefficients `b` -/
def sse (X : Matrix (Fin n) (Fin k) ℝ) (y : Fin n → ℝ) (b : Fin k → ℝ) : ℝ :=
  ∑ i, (y i - ∑ j, X i j * b j) ^ 2

/-- `b` minimises the sum of squared errors -/
def IsLS (X : Matrix (Fin n) (Fin k) ℝ) (y : Fin n → ℝ) (b : Fin k → ℝ) : Prop :=
  ∀ b', sse X y b ≤ sse X y b'

/-- numpy's contract for `lstsq`: a minimiser of smallest norm -/
def IsMinNorm (X : Matrix (Fin n) (Fin k) ℝ) (y : Fin n → ℝ) (b : Fin k → ℝ) : Prop :=
  IsLS X y b ∧ ∀ b', IsLS X y b' → ∑ j, b j ^ 2 ≤ ∑ j, b' j ^ 2

/-- all residuals are orthogonal to all columns -/
def Normal (X : Matrix (Fin n) (Fin k) ℝ) (y : Fin n → ℝ) (b : Fin k → ℝ) : Prop :=
  ∀ c, ∑ i, (y i - ∑ j, X i j * b j) * X i c = 0

theorem normal_iff (X : Matrix (Fin n) (Fin k) ℝ) (y : Fin n → ℝ) (b : Fin k → ℝ) :
    Normal X y b ↔ (Xᵀ * X).mulVec b = Xᵀ.mulVec y := by
  have key : ∀ c, Xᵀ.mulVec y c - (Xᵀ * X).mulVec b c = ∑ i, (y i - ∑ j, X i j * b j) * X i c := by
    intro c
    rw [← Matrix.mulVec_mulVec]
    simp only [Matrix.mulVec, dotProduct, Matrix.transpose_apply]
    rw [← Finset.sum_sub_distrib]
    exact Finset.sum_congr rfl fun i _ => by ring
  constructor
  · intro h; funext c; have := key c; rw [h c] at this; linarith
  · intro h c; rw [← key c, h, sub_self]

/-- Pythagoras for least squares -/
theorem sse_split (X : Matrix (Fin n) (Fin k) ℝ) (y : Fin n → ℝ) (b b' : Fin k → ℝ) (h : Normal X y b) :
    sse X y b' = sse X y b + ∑ i, (∑ j, X i j * (b' j - b j)) ^ 2 := by
  have cross : ∑ i, (y i - ∑ j, X i j * b j) * ∑ j, X i j * (b' j - b j) = 0 := by
    simp only [Finset.mul_sum]
    rw [Finset.sum_comm]
    refine Finset.sum_eq_zero fun j _ => ?_
    have := h j
    calc ∑ i, (y i - ∑ j, X i j * b j) * (X i j * (b' j - b j))
        = (∑ i, (y i - ∑ j, X i j * b j) * X i j) * (b' j - b j) := by
          rw [Finset.sum_mul]; exact Finset.sum_congr rfl fun i _ => by ring
      _ = 0 := by rw [this, zero_mul]
  have : sse X y b' = sse X y b + ∑ i, (∑ j, X i j * (b' j - b j)) ^ 2
      - 2 * ∑ i, (y i - ∑ j, X i j * b j) * ∑ j, X i j * (b' j - b j) := by
    unfold sse
    rw [Finset.mul_sum, ← Finset.sum_add_distrib, ← Finset.sum_sub_distrib]
    refine Finset.sum_congr rfl fun i _ => ?_
    have e : ∑ j, X i j * (b' j - b j) = ∑ j, X i j * b' j - ∑ j, X i j * b j := by
      rw [← Finset.sum_sub_distrib]; exact Finset.sum_congr rfl fun j _ => by ring
    rw [e]; ring
  rw [this, cross]; ring

theorem Normal.isLS {X : Matrix (Fin n) (Fin k) ℝ} {y : Fin n → ℝ} {b : Fin k → ℝ} (h : Normal X y b) : IsLS X y b := by
  intro b'
  rw [sse_split X y b b' h]
  have : 0 ≤ ∑ i, (∑ j, X i j * (b' j - b j)) ^ 2 := Finset.sum_nonneg fun i _ => sq_nonneg _
  linarith

/-- the column space is spanned by the Gram matrix: a solution in its range exists -/
theorem exists_range (X : Matrix (Fin n) (Fin k) ℝ) (y : Fin n → ℝ) :
    ∃ c, Normal X y ((Xᵀ * X).mulVec c) := by
  set A := Xᵀ * X with hA
  have hAs : Aᵀ = A := by rw [hA, Matrix.transpose_mul, Matrix.transpose_transpose]
  have r1 : A.rank = X.rank := Matrix.rank_transpose_mul_self X
  have r2 : (A * A).rank = A.rank := by
    have := Matrix.rank_transpose_mul_self A
    rwa [hAs] at this
  have hle : LinearMap.range (A * A).mulVecLin ≤ LinearMap.range Xᵀ.mulVecLin := by
    rintro _ ⟨v, rfl⟩
    refine ⟨(X * A).mulVec v, ?_⟩
    simp only [Matrix.mulVecLin_apply, Matrix.mulVec_mulVec, hA, Matrix.mul_assoc]
  have hfin : Module.finrank ℝ (LinearMap.range (A * A).mulVecLin) = Module.finrank ℝ (LinearMap.range Xᵀ.mulVecLin) := by
    have e1 : Module.finrank ℝ (LinearMap.range (A * A).mulVecLin) = (A * A).rank := rfl
    have e2 : Module.finrank ℝ (LinearMap.range Xᵀ.mulVecLin) = Xᵀ.rank := rfl
    rw [e1, e2, r2, r1, Matrix.rank_transpose]
  have heq := Submodule.eq_of_le_of_finrank_eq hle hfin
  have hmem : Xᵀ.mulVec y ∈ LinearMap.range (A * A).mulVecLin := by
    rw [heq]; exact ⟨y, rfl⟩
  obtain ⟨c, hc⟩ := hmem
  refine ⟨c, (normal_iff X y _).2 ?_⟩
  rw [Matrix.mulVec_mulVec]
  exact hc

theorem IsLS.normal {X : Matrix (Fin n) (Fin k) ℝ} {y : Fin n → ℝ} {b : Fin k → ℝ} (h : IsLS X y b) : Normal X y b := by
  obtain ⟨c, hc⟩ := exists_range X y
  set b0 := (Xᵀ * X).mulVec c
  have h1 := sse_split X y b0 b hc
  have h2 := h b0
  have hz : ∑ i, (∑ j, X i j * (b j - b0 j)) ^ 2 = 0 := by
    refine le_antisymm (by linarith) (Finset.sum_nonneg fun i _ => sq_nonneg _)
  have hz := (Finset.sum_eq_zero_iff_of_nonneg (fun i _ => sq_nonneg _)).1 hz
  intro col
  rw [← hc col]
  refine Finset.sum_congr rfl fun i _ => ?_
  have := pow_eq_zero_iff (two_ne_zero) |>.1 (hz i (Finset.mem_univ _))
  have e : ∑ j, X i j * (b j - b0 j) = ∑ j, X i j * b j - ∑ j, X i j * b0 j := by
    rw [← Finset.sum_sub_distrib]; exact Finset.sum_congr rfl fun j _ => by ring
  rw [e] at this
  rw [show ∑ j, X i j * b j = ∑ j, X i j * b0 j by linarith]

theorem exists_minNorm (X : Matrix (Fin n) (Fin k) ℝ) (y : Fin n → ℝ) : ∃ b, IsMinNorm X y b := by
  obtain ⟨c, hc⟩ := exists_range X y
  set b := (Xᵀ * X).mulVec c with hb
  refine ⟨b, hc.isLS, fun b' h' => ?_⟩
  have hd : (Xᵀ * X).mulVec (b' - b) = 0 := by
    rw [Matrix.mulVec_sub, (normal_iff X y b').1 h'.normal, (normal_iff X y b).1 hc, sub_self]
  have horth : b ⬝ᵥ (b' - b) = 0 := by
    have e : b ⬝ᵥ (b' - b) = c ⬝ᵥ (Xᵀ * X).mulVec (b' - b) := by
      rw [hb, Matrix.dotProduct_mulVec, ← Matrix.mulVec_transpose, Matrix.transpose_mul, Matrix.transpose_transpose]
    rw [e, hd, dotProduct_zero]
  have e : ∑ j, b' j ^ 2 = ∑ j, b j ^ 2 + 2 * (b ⬝ᵥ (b' - b)) + ∑ j, (b' j - b j) ^ 2 := by
    simp only [dotProduct, Finset.mul_sum, ← Finset.sum_add_distrib, Pi.sub_apply]
    exact Finset.sum_congr rfl fun j _ => by ring
  rw [e, horth]
  have : 0 ≤ ∑ j, (b' j - b j) ^ 2 := Finset.sum_nonneg fun j _ => sq_nonneg _
  linarith

/-- `np.linalg.lstsq(X, y, rcond=-1)[0]`.  Simplification: exact arithmetic, no singular value cut-off. -/
noncomputable def lstsq (X : Matrix (Fin n) (Fin k) ℝ) (y : Fin n → ℝ) : Fin k → ℝ :=
  Classical.choose (exists_minNorm X y)

theorem lstsq_spec (X : Matrix (Fin n) (Fin k) ℝ) (y : Fin n → ℝ) : IsMinNorm X y (lstsq X y) :=
  Classical.choose_spec (exists_minNorm X y)

/-- `np.linalg.inv`: `none` is the `LinAlgError` of a singular matrix.  Simplification: exact arithmetic. -/
noncomputable def inv (A : Matrix (Fin k) (Fin k) ℝ) : Option (Matrix (Fin k) (Fin k) ℝ) :=
  if A.det = 0 then none else some A⁻¹

theorem inv_eq_some {A B : Matrix (Fin k) (Fin k) ℝ} (h : inv A = some B) :
    A.det ≠ 0 ∧ A * B = 1 ∧ B * A = 1 := by
  unfold inv at h
  by_cases h0 : A.det = 0
  · rw [if_pos h0] at h; cases h
  · rw [if_neg h0] at h
    simp only [Option.some.injEq] at h
    subst h
    have hu : IsUnit A.det := isUnit_iff_ne_zero.2 h0
    exact ⟨h0, Matrix.mul_nonsing_inv _ hu, Matrix.nonsing_inv_mul _ hu⟩

theorem inv_of_ne {A : Matrix (Fin k) (Fin k) ℝ} (h : A.det ≠ 0) : inv A = some A⁻¹ := by
  unfold inv; rw [if_neg h]

/-- columns are linearly independent -/
def FullRank (X : Matrix (Fin n) (Fin k) ℝ) : Prop := ∀ v : Fin k → ℝ, (∀ i, ∑ j, X i j * v j = 0) → v = 0

theorem fullRank_iff (X : Matrix (Fin n) (Fin k) ℝ) : FullRank X ↔ (Xᵀ * X).det ≠ 0 := by
  constructor
  · intro h h0
    obtain ⟨v, hv, hm⟩ := Matrix.exists_mulVec_eq_zero_iff.2 h0
    apply hv
    apply h
    have hn : Normal X 0 v := (normal_iff X 0 v).2 (by rw [hm, Matrix.mulVec_zero])
    have h1 := sse_split X 0 v 0 hn
    have h2 : sse X 0 0 = 0 := by unfold sse; simp
    rw [h2] at h1
    have h3 : 0 ≤ sse X 0 v := Finset.sum_nonneg fun i _ => sq_nonneg _
    have h4 : 0 ≤ ∑ i, (∑ j, X i j * ((0 : Fin k → ℝ) j - v j)) ^ 2 := Finset.sum_nonneg fun i _ => sq_nonneg _
    have h5 : sse X 0 v = 0 := by linarith
    intro i
    have := (Finset.sum_eq_zero_iff_of_nonneg (fun i _ => sq_nonneg _)).1 h5 i (Finset.mem_univ _)
    have := pow_eq_zero_iff (two_ne_zero) |>.1 this
    simp only [Pi.zero_apply, zero_sub, neg_eq_zero] at this
    exact this
  · intro h v hv
    by_contra hne
    apply h
    refine Matrix.exists_mulVec_eq_zero_iff.1 ⟨v, hne, ?_⟩
    rw [← Matrix.mulVec_mulVec]
    have : X.mulVec v = 0 := by funext i; exact hv i
    rw [this, Matrix.mulVec_zero]

/-- with independent columns there is one minimiser only -/
theorem ls_unique {X : Matrix (Fin n) (Fin k) ℝ} (hX : FullRank X) {y : Fin n → ℝ} {b b' : Fin k → ℝ}
    (h : IsLS X y b) (h' : IsLS X y b') : b = b' := by
  have h1 := sse_split X y b b' h.normal
  have h2 := h' b
  have hz : ∑ i, (∑ j, X i j * (b' j - b j)) ^ 2 = 0 :=
    le_antisymm (by linarith) (Finset.sum_nonneg fun i _ => sq_nonneg _)
  have hz := (Finset.sum_eq_zero_iff_of_nonneg (fun i _ => sq_nonneg _)).1 hz
  have := hX (fun j => b' j - b j) fun i => pow_eq_zero_iff (two_ne_zero) |>.1 (hz i (Finset.mem_univ _))
  funext j
  have := congrFun this j
  simp only [Pi.zero_apply] at this
  linarith

/-- fitting data generated by the model returns the coefficients -/
theorem lstsq_exact {X : Matrix (Fin n) (Fin k) ℝ} (hX : FullRank X) (b : Fin k → ℝ) (y : Fin n → ℝ)
    (h : ∀ i, y i = ∑ j, X i j * b j) : lstsq X y = b := by
  refine ls_unique hX (lstsq_spec X y).1 ?_
  apply Normal.isLS
  intro c
  refine Finset.sum_eq_zero fun i _ => ?_
  rw [h i, sub_self, zero_mul]

/-- without independent columns the fitted values are still exact -/
theorem lstsq_fitted (X : Matrix (Fin n) (Fin k) ℝ) (b : Fin k → ℝ) (y : Fin n → ℝ)
    (h : ∀ i, y i = ∑ j, X i j * b j) (i : Fin n) : ∑ j, X i j * lstsq X y j = y i := by
  have h1 : sse X y b = 0 := by
    unfold sse; exact Finset.sum_eq_zero fun i _ => by rw [h i, sub_self]; ring
  have h2 := (lstsq_spec X y).1 b
  have h3 : sse X y (lstsq X y) = 0 :=
    le_antisymm (by linarith) (Finset.sum_nonneg fun i _ => sq_nonneg _)
  have := (Finset.sum_eq_zero_iff_of_nonneg (fun i _ => sq_nonneg _)).1 h3 i (Finset.mem_univ _)
  have := pow_eq_zero_iff (two_ne_zero) |>.1 this
  linarith

theorem lstsq_inverse {X : Matrix (Fin n) (Fin k) ℝ} {H : Matrix (Fin k) (Fin k) ℝ} (h : inv (Xᵀ * X) = some H)
    (y : Fin n → ℝ) : lstsq X y = H.mulVec (Xᵀ.mulVec y) := by
  obtain ⟨-, -, h2⟩ := inv_eq_some h
  have := (normal_iff X y _).1 (lstsq_spec X y).1.normal
  rw [← this, Matrix.mulVec_mulVec, h2, Matrix.one_mulVec]

theorem FullRank.linear {X : Matrix (Fin n) (Fin k) ℝ} (hX : FullRank X) (y z : Fin n → ℝ) (s t : ℝ) :
    lstsq X (fun i => s * y i + t * z i) = fun j => s * lstsq X y j + t * lstsq X z j := by
  have h := inv_of_ne ((fullRank_iff X).1 hX)
  rw [lstsq_inverse h, lstsq_inverse h, lstsq_inverse h]
  have e : (fun i => s * y i + t * z i) = s • y + t • z := by funext i; simp
  rw [e, Matrix.mulVec_add, Matrix.mulVec_smul, Matrix.mulVec_smul, Matrix.mulVec_add, Matrix.mulVec_smul, Matrix.mulVec_smul]
  funext j; simp

/-- `np.linalg.pinv(X)`: its columns are the least-squares solutions for the unit vectors.
Simplification: exact arithmetic, no singular value cut-off. -/
noncomputable def pinv (X : Matrix (Fin n) (Fin k) ℝ) : Matrix (Fin k) (Fin n) ℝ :=
  fun i j => lstsq X (Pi.single j 1) i

theorem pinv_apply {X : Matrix (Fin n) (Fin k) ℝ} (hX : FullRank X) (y : Fin n → ℝ) (i : Fin k) :
    ∑ j, pinv X i j * y j = lstsq X y i := by
  have h := inv_of_ne ((fullRank_iff X).1 hX)
  unfold pinv
  simp only [lstsq_inverse h, Matrix.mulVec_mulVec]
  have e : ∀ j, (((Xᵀ * X)⁻¹ * Xᵀ).mulVec (Pi.single j 1)) i = ((Xᵀ * X)⁻¹ * Xᵀ) i j := fun j => by
    rw [Matrix.mulVec_single_one]; rfl
  simp only [e]
  rfl

end Verif.TimeSeries
