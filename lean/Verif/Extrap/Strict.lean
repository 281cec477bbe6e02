import Verif.Extrap.Model

/-!
# C99: the date that trends are relative to
-/
namespace Verif.Extrap

open Classical in
/-- the fit relative to a date that is given -/
noncomputable def fitAt {n : ℕ} (t d : Fin n → ℝ) (tout : List ℝ) (o : ℤ) (cs : List ℝ) (R : ℝ) : Except Err (List ℝ) :=
  if n = 1 ∨ (basis R o cs).length = 0 ∨ 0 ∈ cs then .error .linAlgError
  else .ok (tout.map fun x : ℝ => ∑ j : Fin (basis R o cs).length, (basis R o cs)[j] x *
    TimeSeries.lstsq (design (basis R o cs) t) d j)

/-- **C99** without a date for the trends they are relative to the mean of the dates, also for fits that are not determined -/
theorem regress_mean_date {n : ℕ} (t d : Fin n → ℝ) (tout : List ℝ) (o : ℤ) (cs : Option (List ℝ)) :
    regressModel t d tout o cs 0 = regressModel t d tout o cs ((∑ i, t i) / n) := by
  cases cs with
  | none => rfl
  | some cs =>
    have : relative t 0 = relative t ((∑ i, t i) / n) := by
      unfold relative
      rw [if_pos rfl]
      split_ifs with h <;> rfl
    exact congrArg (fitAt t d tout o cs) this

end Verif.Extrap
