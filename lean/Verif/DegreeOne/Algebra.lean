import Mathlib.LinearAlgebra.Matrix.NonsingularInverse
import Mathlib.LinearAlgebra.Matrix.ToLinearEquiv
import Mathlib.Algebra.Order.BigOperators.Ring.Finset
import Mathlib.Analysis.Real.Sqrt
import Mathlib.Tactic.LinearCombination
import Mathlib.Tactic.Positivity

/-!
# Gram matrices of three functions on a finite weighted set (helper lemmas for C74)
-/
namespace Verif.DegreeOne.Alg
open Finset Matrix

variable {ι : Type} (S : Finset ι) (W : ι → ℝ) (Y : Fin 3 → ι → ℝ)

/-- weighted inner product -/
def Q (F H : ι → ℝ) : ℝ := ∑ p ∈ S, W p * F p * H p

/-- combination of the three functions -/
def comb (x : Fin 3 → ℝ) (p : ι) : ℝ := ∑ c, x c * Y c p

/-- Gram matrix -/
def gram : Matrix (Fin 3) (Fin 3) ℝ := Matrix.of fun r c => Q S W (Y c) (Y r)

theorem Q_comm (F H : ι → ℝ) : Q S W F H = Q S W H F := by
  unfold Q; apply sum_congr rfl; intros; ring

theorem Q_comb (F : ι → ℝ) (x : Fin 3 → ℝ) : Q S W F (comb Y x) = ∑ c, x c * Q S W (Y c) F := by
  unfold Q comb
  simp only [mul_sum]
  rw [sum_comm]
  apply sum_congr rfl; intro c _
  apply sum_congr rfl; intro p _
  ring

theorem gram_mulVec (x : Fin 3 → ℝ) (r : Fin 3) : (gram S W Y).mulVec x r = Q S W (Y r) (comb Y x) := by
  rw [Q_comb]
  unfold gram Matrix.mulVec dotProduct
  apply sum_congr rfl; intro c _
  exact mul_comm _ _

theorem dot_gram (x y : Fin 3 → ℝ) : ∑ r, x r * (gram S W Y).mulVec y r = Q S W (comb Y x) (comb Y y) := by
  rw [Q_comm, Q_comb]
  apply sum_congr rfl; intro r _
  rw [gram_mulVec]

theorem Q_self_nonneg (hW : ∀ p ∈ S, 0 ≤ W p) (F : ι → ℝ) : 0 ≤ Q S W F F := by
  apply sum_nonneg; intro p hp
  have := hW p hp
  nlinarith [mul_self_nonneg (F p), mul_nonneg this (mul_self_nonneg (F p))]

theorem Q_self_zero (hW : ∀ p ∈ S, 0 ≤ W p) (F : ι → ℝ) (h : Q S W F F = 0) :
    ∀ p ∈ S, W p ≠ 0 → F p = 0 := by
  intro p hp hw
  have h1 : ∀ q ∈ S, 0 ≤ W q * F q * F q := by
    intro q hq
    nlinarith [mul_nonneg (hW q hq) (mul_self_nonneg (F q))]
  have h2 := (sum_eq_zero_iff_of_nonneg h1).1 h p hp
  rcases mul_eq_zero.1 h2 with h3 | h3
  · rcases mul_eq_zero.1 h3 with h4 | h4
    · exact absurd h4 hw
    · exact h4
  · exact h3

/-- the three functions are independent on the support of the weights -/
def Spans : Prop := ∀ x : Fin 3 → ℝ, (∀ p ∈ S, W p ≠ 0 → comb Y x p = 0) → x = 0

/-- and independent of the constant -/
def Full : Prop := ∀ (x : Fin 3 → ℝ) (c : ℝ), (∀ p ∈ S, W p ≠ 0 → comb Y x p = c) → x = 0 ∧ c = 0

theorem Full.spans (h : Full S W Y) : Spans S W Y := fun x hx => (h x 0 hx).1

theorem gram_det (hW : ∀ p ∈ S, 0 ≤ W p) (h : Spans S W Y) : (gram S W Y).det ≠ 0 := by
  intro hd
  obtain ⟨v, hv, h0⟩ := Matrix.exists_mulVec_eq_zero_iff.2 hd
  apply hv
  apply h
  apply Q_self_zero S W hW
  rw [← dot_gram, h0]
  simp

/-- weighted sums of the functions -/
def mom (c : Fin 3) : ℝ := Q S W (Y c) fun _ => 1

/-- coefficients of the projection of the constant -/
noncomputable def pr : Fin 3 → ℝ := (gram S W Y)⁻¹.mulVec (mom S W Y)

theorem gram_pr (hd : (gram S W Y).det ≠ 0) : (gram S W Y).mulVec (pr S W Y) = mom S W Y := by
  unfold pr
  rw [Matrix.mulVec_mulVec, Matrix.mul_nonsing_inv _ (isUnit_iff_ne_zero.2 hd), Matrix.one_mulVec]

/-- size of the projection -/
noncomputable def q : ℝ := ∑ c, mom S W Y c * pr S W Y c

theorem q_eq (hd : (gram S W Y).det ≠ 0) : q S W Y = Q S W (comb Y (pr S W Y)) (comb Y (pr S W Y)) := by
  rw [← dot_gram, gram_pr S W Y hd]
  unfold q; apply sum_congr rfl; intros; ring

theorem mom_dot (x : Fin 3 → ℝ) : ∑ c, mom S W Y c * x c = Q S W (fun _ => 1) (comb Y x) := by
  rw [Q_comb]; apply sum_congr rfl; intro c _; unfold mom; ring

theorem q_gap (hd : (gram S W Y).det ≠ 0) :
    Q S W (fun p => 1 - comb Y (pr S W Y) p) (fun p => 1 - comb Y (pr S W Y) p) =
      Q S W (fun _ => 1) (fun _ => 1) - q S W Y := by
  have h1 := q_eq S W Y hd
  have h2 : q S W Y = Q S W (fun _ => 1) (comb Y (pr S W Y)) := mom_dot S W Y _
  have : Q S W (fun p => 1 - comb Y (pr S W Y) p) (fun p => 1 - comb Y (pr S W Y) p) =
      Q S W (fun _ => 1) (fun _ => 1) - 2 * Q S W (fun _ => 1) (comb Y (pr S W Y)) +
        Q S W (comb Y (pr S W Y)) (comb Y (pr S W Y)) := by
    unfold Q
    rw [mul_sum, ← sum_sub_distrib, ← sum_add_distrib]
    apply sum_congr rfl; intros; ring
  rw [this, ← h1, ← h2]; ring

theorem q_lt (hW : ∀ p ∈ S, 0 ≤ W p) (h : Full S W Y) : 0 ≤ q S W Y ∧ q S W Y < Q S W (fun _ => 1) (fun _ => 1) := by
  have hd := gram_det S W Y hW h.spans
  refine ⟨by rw [q_eq S W Y hd]; exact Q_self_nonneg S W hW _, ?_⟩
  have hg := q_gap S W Y hd
  have hn := Q_self_nonneg S W hW (fun p => 1 - comb Y (pr S W Y) p)
  rcases lt_or_eq_of_le hn with hp | hp
  · linarith
  · exfalso
    have := Q_self_zero S W hW _ hp.symm
    have h1 := h (pr S W Y) 1 (fun p hp hw => by have := this p hp hw; linarith)
    exact one_ne_zero h1.2

theorem cauchy (hW : ∀ p ∈ S, 0 ≤ W p) (F H : ι → ℝ) : Q S W F H ^ 2 ≤ Q S W F F * Q S W H H := by
  have := sum_mul_sq_le_sq_mul_sq S (fun p => Real.sqrt (W p) * F p) (fun p => Real.sqrt (W p) * H p)
  refine le_trans (le_of_eq ?_) (le_trans this (le_of_eq ?_))
  · congr 1
    unfold Q; apply sum_congr rfl; intro p hp
    have := Real.mul_self_sqrt (hW p hp)
    linear_combination (-(F p * H p)) * this
  · unfold Q
    congr 1 <;>
    · apply sum_congr rfl; intro p hp
      have := Real.sq_sqrt (hW p hp)
      rw [mul_pow, this]; ring

theorem mom_sq (hW : ∀ p ∈ S, 0 ≤ W p) (hd : (gram S W Y).det ≠ 0) (x : Fin 3 → ℝ) :
    (∑ c, mom S W Y c * x c) ^ 2 ≤ q S W Y * Q S W (comb Y x) (comb Y x) := by
  have h1 : ∑ c, mom S W Y c * x c = Q S W (comb Y (pr S W Y)) (comb Y x) := by
    rw [Q_comm, ← dot_gram, gram_pr S W Y hd]; apply sum_congr rfl; intros; ring
  rw [h1, q_eq S W Y hd]
  exact cauchy S W hW _ _

theorem comb_smul (a : ℝ) (x : Fin 3 → ℝ) (p : ι) : comb Y (fun c => a * x c) p = a * comb Y x p := by
  unfold comb; rw [mul_sum]; apply sum_congr rfl; intros; ring

theorem comb_sub (x y : Fin 3 → ℝ) (p : ι) : comb Y (fun c => x c - y c) p = comb Y x p - comb Y y p := by
  unfold comb; rw [← sum_sub_distrib]; apply sum_congr rfl; intros; ring

theorem Q_smul (a : ℝ) (F : ι → ℝ) : Q S W (fun p => a * F p) (fun p => a * F p) = a ^ 2 * Q S W F F := by
  unfold Q; rw [mul_sum]; apply sum_congr rfl; intros; ring

/-- one pass shrinks a difference by the rate -/
theorem shrink (hW : ∀ p ∈ S, 0 ≤ W p) (hd : (gram S W Y).det ≠ 0) (kap : ℝ) (x : Fin 3 → ℝ) :
    Q S W (comb Y fun c => kap * (∑ c, mom S W Y c * x c) * pr S W Y c)
        (comb Y fun c => kap * (∑ c, mom S W Y c * x c) * pr S W Y c) ≤
      (kap * q S W Y) ^ 2 * Q S W (comb Y x) (comb Y x) := by
  have h : comb Y (fun c => kap * (∑ c, mom S W Y c * x c) * pr S W Y c) =
      fun p => (kap * ∑ c, mom S W Y c * x c) * comb Y (pr S W Y) p := by
    funext p; rw [← comb_smul]
  rw [h, Q_smul, ← q_eq S W Y hd]
  have h2 := mom_sq S W Y hW hd x
  have hq : 0 ≤ q S W Y := by rw [q_eq S W Y hd]; exact Q_self_nonneg S W hW _
  have := mul_le_mul_of_nonneg_left h2 (mul_nonneg (sq_nonneg kap) hq)
  nlinarith

/-- removing the mean does not increase a sum of squares -/
theorem centre_sq (n : ℕ) (a : ℕ → ℝ) :
    ∑ t ∈ range n, (a t - (∑ u ∈ range n, a u) / n) ^ 2 ≤ ∑ t ∈ range n, a t ^ 2 := by
  rcases Nat.eq_zero_or_pos n with h | h
  · subst h; simp
  · have hn : (n : ℝ) ≠ 0 := by exact_mod_cast h.ne'
    have hnp : (0 : ℝ) < n := by exact_mod_cast h
    set m := (∑ u ∈ range n, a u) / n with hm
    have hs : ∑ u ∈ range n, a u = n * m := by rw [hm]; field_simp
    have : ∑ t ∈ range n, (a t - m) ^ 2 = ∑ t ∈ range n, a t ^ 2 - n * m ^ 2 := by
      have e : ∀ t, (a t - m) ^ 2 = a t ^ 2 - 2 * m * a t + m ^ 2 := by intro t; ring
      simp only [e]
      rw [sum_add_distrib, sum_sub_distrib, ← mul_sum, hs, sum_const, card_range, nsmul_eq_mul]; ring
    rw [this]
    nlinarith [mul_nonneg hnp.le (sq_nonneg m)]

theorem centre_Q (hW : ∀ p ∈ S, 0 ≤ W p) (n : ℕ) (x : ℕ → Fin 3 → ℝ) :
    ∑ t ∈ range n, Q S W (comb Y fun j => x t j - (∑ u ∈ range n, x u j) / n)
        (comb Y fun j => x t j - (∑ u ∈ range n, x u j) / n) ≤
      ∑ t ∈ range n, Q S W (comb Y (x t)) (comb Y (x t)) := by
  unfold Q
  rw [sum_comm, sum_comm (s := range n) (t := S)]
  apply sum_le_sum; intro p hp
  have e : ∀ t, comb Y (fun j => x t j - (∑ u ∈ range n, x u j) / n) p =
      comb Y (x t) p - (∑ u ∈ range n, comb Y (x u) p) / n := by
    intro t
    rw [comb_sub]
    congr 1
    unfold comb
    rw [sum_comm, div_eq_mul_inv, sum_mul]
    apply sum_congr rfl; intro c _
    dsimp only
    rw [sum_mul, div_eq_mul_inv, sum_mul, sum_mul]
    apply sum_congr rfl; intros; ring
  simp only [e]
  have := mul_le_mul_of_nonneg_left (centre_sq n fun t => comb Y (x t) p) (hW p hp)
  rw [mul_sum, mul_sum] at this
  refine le_trans (le_of_eq ?_) (le_trans this (le_of_eq ?_)) <;>
  · apply sum_congr rfl; intros; ring

end Verif.DegreeOne.Alg
