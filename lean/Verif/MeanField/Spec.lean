import Verif.MeanField.Model
import Verif.Maps.Spec

/-!
# Specification of the mean field
-/
namespace Verif.MeanField
open Verif.Harmonics

/-- arithmetic mean of the first `n` values -/
def average {K : Type} [Field K] (n : ℕ) (x : ℕ → K) : K := (∑ t ∈ Finset.range n, x t) / n

/-- a single field has the coefficients `C`, `S`: degrees up to `L`, orders up to the degree and up to `M`, zeros elsewhere -/
structure Has {K : Type} [Field K] (h : Harm K) (L M : ℕ) (C S : ℕ → ℕ → K) : Prop where
  lmax : h.lmax = L
  mmax : h.mmax = M
  single : h.nt = none
  coefs : ∀ l m, l ≤ L → m ≤ M → h.clm l m 0 = (if m ≤ l then C l m else 0) ∧ h.slm l m 0 = (if m ≤ l then S l m else 0)

/-- the months: `n` fields with degrees up to `L` and orders up to `M`, with dates -/
structure Months.Ok {K : Type} (g : Months K) (L M n : ℕ) : Prop where
  lmax : g.field.lmax = L
  mmax : g.field.mmax = M
  nt : g.field.nt = some n
  wf : g.field.WF
  le : M ≤ L

/-- the mean of the cosine coefficients -/
def Months.meanC {K : Type} [Field K] (g : Months K) (n l m : ℕ) : K := average n (g.field.clm l m)

/-- the mean of the sine coefficients -/
def Months.meanS {K : Type} [Field K] (g : Months K) (n l m : ℕ) : K := average n (g.field.slm l m)

end Verif.MeanField
