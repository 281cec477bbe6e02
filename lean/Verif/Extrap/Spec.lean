import Verif.Extrap.Model
import Mathlib.Algebra.Polynomial.Eval.Defs
import Mathlib.Algebra.Polynomial.Degree.Defs

/-!
# Specification: extrapolation with a regression model (C99)
-/
namespace Verif.Extrap

/-- a signal of the model: a polynomial of degree at most `ORDER` plus waves of the given periods -/
def IsModel (ORDER : ℤ) (periods : List ℝ) (f : ℝ → ℝ) : Prop :=
  ∃ p : Polynomial ℝ, (∀ k : ℕ, ORDER < k → p.coeff k = 0) ∧ ∃ a b : ℕ → ℝ, ∀ t : ℝ, f t = p.eval t +
    ∑ k ∈ Finset.range periods.length,
      (a k * Real.sin (2 * Real.pi * t / periods.getD k 0) + b k * Real.cos (2 * Real.pi * t / periods.getD k 0))

/-- sum of squared misfits of a signal -/
def misfit {n : ℕ} (t d : Fin n → ℝ) (f : ℝ → ℝ) : ℝ := ∑ i, (d i - f (t i)) ^ 2

/-- a best signal of the model -/
def IsBest (ORDER : ℤ) (periods : List ℝ) {n : ℕ} (t d : Fin n → ℝ) (f : ℝ → ℝ) : Prop :=
  IsModel ORDER periods f ∧ ∀ g, IsModel ORDER periods g → misfit t d f ≤ misfit t d g

/-- the dates determine the signals of the model: only zero vanishes at all of them -/
def Determines (ORDER : ℤ) (periods : List ℝ) {n : ℕ} (t : Fin n → ℝ) : Prop :=
  ∀ f, IsModel ORDER periods f → (∀ i, f (t i) = 0) → ∀ x, f x = 0

/-- arguments `regress_model` does not refuse -/
structure Valid (n : ℕ) (ORDER : ℤ) (periods : List ℝ) : Prop where
  many : n ≠ 1
  columns : 0 ≤ ORDER ∨ periods ≠ []
  periods : 0 ∉ periods

end Verif.Extrap
