import Verif.MasconFit.Count
import Mathlib.Tactic.Linarith
import Mathlib.Tactic.Ring
import Mathlib.Tactic.FieldSimp

/-!
# Least squares algebra for C75 (helper lemmas)
-/
namespace Verif.MasconFit
open Verif.Units Verif.Analysis Finset Matrix

theorem solve_sound {v : Solver} (hv : v.Sound) {n k : ℕ} (A : Matrix (Fin n) (Fin k) ℝ) (b : Fin n → ℝ)
    (x : Fin k → ℝ) (h : solve v A b = some x) : (A.transpose * A).mulVec x = A.transpose.mulVec b := by
  cases v with
  | lsq f =>
    simp only [solve, Option.some.injEq] at h
    subst h; exact hv n k A b
  | other => simp [solve] at h
  | inv =>
    simp only [solve] at h
    split_ifs at h with h1 h2
    subst h1
    have e : A.submatrix (Fin.cast rfl) id = A := rfl
    simp only [Option.some.injEq] at h
    rw [e] at h h2
    have hu : IsUnit A.det := isUnit_iff_ne_zero.2 h2
    subst h
    rw [← mulVec_mulVec]
    congr 1
    rw [mulVec_mulVec, mul_nonsing_inv _ hu, one_mulVec]
    rfl

/-- a solution of the normal equations: the residual is orthogonal to the columns -/
theorem normal_orth {n k : ℕ} (A : Matrix (Fin n) (Fin k) ℝ) (b : Fin n → ℝ) (x : Fin k → ℝ)
    (h : (A.transpose * A).mulVec x = A.transpose.mulVec b) (z : Fin k → ℝ) :
    ∑ i, (b i - ∑ j, A i j * x j) * ∑ j, A i j * z j = 0 := by
  have h1 : ∀ j, ∑ i, A i j * (b i - ∑ j', A i j' * x j') = 0 := by
    intro j
    rw [← mulVec_mulVec] at h
    have := congrFun h j
    simp only [mulVec, dotProduct, transpose_apply] at this
    simp only [mul_sub, sum_sub_distrib]
    linarith
  calc ∑ i, (b i - ∑ j, A i j * x j) * ∑ j, A i j * z j
      = ∑ i, ∑ j, z j * (A i j * (b i - ∑ j, A i j * x j)) := by
        apply sum_congr rfl; intro i _; rw [mul_sum]; apply sum_congr rfl; intro j _; ring
    _ = ∑ j, z j * ∑ i, A i j * (b i - ∑ j, A i j * x j) := by
        rw [sum_comm]; apply sum_congr rfl; intro j _; rw [mul_sum]
    _ = 0 := by simp [h1]

theorem normal_pythagoras {n k : ℕ} (A : Matrix (Fin n) (Fin k) ℝ) (b : Fin n → ℝ) (x : Fin k → ℝ)
    (h : (A.transpose * A).mulVec x = A.transpose.mulVec b) (z : Fin k → ℝ) :
    ∑ i, (b i - ∑ j, A i j * z j) ^ 2 = ∑ i, (b i - ∑ j, A i j * x j) ^ 2 + ∑ i, (∑ j, A i j * (z j - x j)) ^ 2 := by
  have h0 := normal_orth A b x h fun j => z j - x j
  have e : ∀ i, (b i - ∑ j, A i j * z j) ^ 2 = (b i - ∑ j, A i j * x j) ^ 2 + (∑ j, A i j * (z j - x j)) ^ 2 -
      2 * ((b i - ∑ j, A i j * x j) * ∑ j, A i j * (z j - x j)) := by
    intro i
    have : ∑ j, A i j * z j = ∑ j, A i j * x j + ∑ j, A i j * (z j - x j) := by
      rw [← sum_add_distrib]; apply sum_congr rfl; intro j _; ring
    rw [this]; ring
  rw [sum_congr rfl fun i _ => e i, sum_sub_distrib, sum_add_distrib, ← mul_sum, h0]; ring

theorem normal_superpose {n k : ℕ} (A : Matrix (Fin n) (Fin k) ℝ) (f y : Fin n → ℝ) (s : Fin n → Fin k → ℝ)
    (h : ∀ i, (A.transpose * A).mulVec (s i) = A.transpose.mulVec fun j => if j = i then 1 * f i else 0) :
    (A.transpose * A).mulVec (fun j => ∑ i, y i * s i j) = A.transpose.mulVec fun i => f i * y i := by
  funext r
  have h1 : ∀ i, ∑ j, (A.transpose * A) r j * s i j = A i r * f i := by
    intro i
    have := congrFun (h i) r
    simp only [mulVec, dotProduct, transpose_apply] at this
    rw [this]
    simp
  simp only [mulVec, dotProduct, transpose_apply]
  calc ∑ j, (A.transpose * A) r j * ∑ i, y i * s i j = ∑ i, y i * ∑ j, (A.transpose * A) r j * s i j := by
        simp only [mul_sum]; rw [sum_comm]; apply sum_congr rfl; intro i _; apply sum_congr rfl; intro j _; ring
    _ = ∑ i, A i r * (f i * y i) := by apply sum_congr rfl; intro i _; rw [h1]; ring

/-- what a successful kernel computation consists of -/
theorem kernel_some {a : Args} {F : ℤ} {v : Solver} {A : Matrix (Fin a.N) (Fin a.n_mas) ℝ} (h : a.kernel F v = some A) :
    a.N = (positions a.LMIN a.LMAX a.M).length ∧ ∃ wt MA, DegreeOne.smoothing a.RAD a.LMAX = some wt ∧
      a.MAlm wt F = some MA ∧ ∃ s : Fin a.N → Fin a.n_mas → ℝ,
        (∀ i, solve v MA (fun j => if j = i then 1 * a.fitFactor wt F i else 0) = some (s i)) ∧
        ∀ i k, A i k = s i k * totalArea a.E (a.mascons k) := by
  unfold Args.kernel at h
  split_ifs at h with h0
  refine ⟨?_, ?_⟩
  · have := nHarm_le a.LMIN a.LMAX a.M
    unfold Args.N; omega
  · cases hw : DegreeOne.smoothing a.RAD a.LMAX with
    | none => simp [hw] at h
    | some wt =>
      cases hm : a.MAlm wt F with
      | none => simp [hw, hm] at h
      | some MA =>
        simp only [hw, hm, Option.bind_eq_bind, Option.bind_some] at h
        split_ifs at h with hs
        refine ⟨wt, MA, rfl, hm, fun i => (solve v MA fun j => if j = i then 1 * a.fitFactor wt F i else 0).getD fun _ => 0, ?_, ?_⟩
        · intro i
          obtain ⟨y, hy⟩ := Option.isSome_iff_exists.1 (hs i)
          dsimp only; rw [hy]; rfl
        · intro i k
          simp only [Option.some.injEq] at h
          rw [← h]; rfl

/-- position of a row -/
def pos {a : Args} (hN : a.N = (positions a.LMIN a.LMAX a.M).length) (i : Fin a.N) : Pos :=
  (positions a.LMIN a.LMAX a.M)[i.val]'(by rw [← hN]; exact i.isLt)

theorem fill_pos {a : Args} (hN : a.N = (positions a.LMIN a.LMAX a.M).length) (f : Pos → ℝ) (i : Fin a.N) :
    a.fill f i = f (pos hN i) := by
  have h : i.val < (positions a.LMIN a.LMAX a.M).length := by rw [← hN]; exact i.isLt
  unfold Args.fill pos
  rw [List.getElem?_eq_getElem h]; rfl

theorem pos_range {a : Args} (hN : a.N = (positions a.LMIN a.LMAX a.M).length) (i : Fin a.N) :
    InRange a.LMIN a.LMAX a.M (pos hN i) := by
  rw [← mem_positions]; exact List.getElem_mem _

theorem pos_surj {a : Args} (hN : a.N = (positions a.LMIN a.LMAX a.M).length) (p : Pos)
    (h : InRange a.LMIN a.LMAX a.M p) : ∃ i, pos hN i = p := by
  rw [← mem_positions] at h
  obtain ⟨i, hi, e⟩ := List.mem_iff_getElem.1 h
  exact ⟨⟨i, by rw [hN]; exact hi⟩, e⟩

theorem sum_pos {a : Args} (hN : a.N = (positions a.LMIN a.LMAX a.M).length) (f : Pos → ℝ) :
    ∑ i, f (pos hN i) = coefSum a.LMIN a.LMAX a.M f := by
  rw [← positions_sum, list_sum_range, ← hN, Finset.sum_range]
  apply sum_congr rfl; intro i _
  exact (fill_pos hN f i).symm

theorem coefSum_congr (LMIN LMAX MMAX : ℕ) (f g : Pos → ℝ) (h : ∀ p, InRange LMIN LMAX MMAX p → f p = g p) :
    coefSum LMIN LMAX MMAX f = coefSum LMIN LMAX MMAX g := by
  unfold coefSum
  apply sum_congr rfl; intro l hl
  rw [mem_Icc] at hl
  congr 1
  · apply sum_congr rfl; intro m hm; rw [mem_range] at hm
    exact h _ ⟨hl.1, hl.2, by simp only; omega, by simp only; omega, by simp⟩
  · apply sum_congr rfl; intro m hm; rw [mem_Icc] at hm
    exact h _ ⟨hl.1, hl.2, by simp only; omega, by simp only; omega, fun _ => hm.1⟩

/-- the prepared mascon is the layer of the specification -/
theorem coef_mascon (a : Args) (k : Fin a.n_mas) (p : Pos) (h : InRange a.LMIN a.LMAX a.M p) :
    coef (a.mascon k) p = layer a.ocean (a.mascons k) p := by
  obtain ⟨cs, l, m⟩ := p
  obtain ⟨h1, h2, h3, h4, h5⟩ := h
  simp only at h1 h2 h3 h4 h5
  unfold coef Args.mascon truncateTo redistribute layer
  cases hO : a.ocean with
  | none => cases cs <;> simp [h2, h4]
  | some o => cases cs <;> simp [h2, h3, h4]

theorem totalArea_eq (E : Earth) (c : CSlm) : totalArea E c / 1e15 = gtPerCm E c := by
  unfold totalArea gtPerCm; ring

/-- the kernel of the mass fit: estimates are normal equation solutions -/
theorem massOf_spec {a : Args} {v : Solver} (hv : v.Sound) {A : Matrix (Fin a.N) (Fin a.n_mas) ℝ}
    (h : a.kernel 1 v = some A) :
    a.N = (positions a.LMIN a.LMAX a.M).length ∧ ∃ wt, DegreeOne.smoothing a.RAD a.LMAX = some wt ∧
    ∃ MA : Matrix (Fin a.N) (Fin a.n_mas) ℝ,
      (∀ (hN : a.N = (positions a.LMIN a.LMAX a.M).length) i k,
        MA i k = massWeight a.kl wt (pos hN i).2.1 * layer a.ocean (a.mascons k) (pos hN i)) ∧
      ∀ Y, ∃ x : Fin a.n_mas → ℝ, (∀ k, a.massOf A Y k = x k * gtPerCm a.E (a.mascons k)) ∧
        ∀ hN : a.N = (positions a.LMIN a.LMAX a.M).length,
        (MA.transpose * MA).mulVec x = MA.transpose.mulVec fun i => massWeight a.kl wt (pos hN i).2.1 * coef Y (pos hN i) := by
  obtain ⟨hN, wt, MA, hw, hm, s, hs, hA⟩ := kernel_some h
  refine ⟨hN, wt, hw, MA, ?_, ?_⟩
  · intro hN i k
    unfold Args.MAlm at hm
    simp only [↓reduceIte, Option.some.injEq] at hm
    rw [← hm]
    simp only [of_apply, Args.Mlm, fill_pos hN, massWeight, Args.fact]
    rw [coef_mascon a k _ (pos_range hN i)]; ring
  · intro Y
    refine ⟨fun k => ∑ i, a.fill (coef Y) i * s i k, ?_, ?_⟩
    · intro k
      unfold Args.massOf
      rw [← totalArea_eq, ← mul_div_assoc, sum_mul]
      congr 1
      apply sum_congr rfl; intro i _; rw [hA]; ring
    · intro hN
      have := normal_superpose MA (a.fitFactor wt 1) (a.fill (coef Y)) s fun i => solve_sound hv _ _ _ (hs i)
      rw [this]
      congr 1; funext i
      simp only [Args.fitFactor, ↓reduceIte, fill_pos hN, massWeight, Args.fact]

/-- sums of squares over rows are the misfit -/
theorem misfit_rows {a : Args} (hN : a.N = (positions a.LMIN a.LMAX a.M).length) (wt : ℕ → ℝ)
    (MA : Matrix (Fin a.N) (Fin a.n_mas) ℝ)
    (hM : ∀ i k, MA i k = massWeight a.kl wt (pos hN i).2.1 * layer a.ocean (a.mascons k) (pos hN i))
    (Y : CSlm) (x : Fin a.n_mas → ℝ) :
    ∑ i, (massWeight a.kl wt (pos hN i).2.1 * coef Y (pos hN i) - ∑ k, MA i k * x k) ^ 2 = misfit a wt Y x := by
  unfold misfit
  rw [← sum_pos hN]
  apply sum_congr rfl; intro i _
  congr 1
  rw [mul_sub, mul_sum]
  congr 1
  apply sum_congr rfl; intro k _; rw [hM]; ring

/-- independent mascons: columns that combine to zero -/
theorem indep_rows {a : Args} (hN : a.N = (positions a.LMIN a.LMAX a.M).length) (wt : ℕ → ℝ)
    (MA : Matrix (Fin a.N) (Fin a.n_mas) ℝ)
    (hM : ∀ i k, MA i k = massWeight a.kl wt (pos hN i).2.1 * layer a.ocean (a.mascons k) (pos hN i))
    (hi : Independent a wt) (x : Fin a.n_mas → ℝ) (h : ∑ i, (∑ k, MA i k * x k) ^ 2 = 0) : x = 0 := by
  apply hi
  intro p hp hw
  obtain ⟨i, rfl⟩ := pos_surj hN p hp
  have h1 := (sum_eq_zero_iff_of_nonneg fun i _ => sq_nonneg _).1 h i (mem_univ i)
  have h2 : ∑ k, MA i k * x k = 0 := by simpa using h1
  have h3 : massWeight a.kl wt (pos hN i).2.1 * ∑ k, x k * layer a.ocean (a.mascons k) (pos hN i) = 0 := by
    rw [← h2, mul_sum]; apply sum_congr rfl; intro k _; rw [hM]; ring
  exact (mul_eq_zero.1 h3).resolve_left hw

end Verif.MasconFit
