import Verif.Uplift.Props

/-!
# C97: archives whose names have no date
-/
namespace Verif.Uplift
open Verif.Names Verif.Time Verif.Dealias

/-- **C97** an archive whose name does not fit the pattern of the dates ends the program with an exception; no file is written -/
theorem no_date_raises (eps scalef : ℝ) (f : ℕ → ℝ) (j : Job) (nt L : ℕ) (now : ℚ) (st : Disk × List Name) (tar : Tar)
    (h : findall (archRe j.years) tar.name = []) : archStep eps scalef f j nt L now st tar = (st, .raised) := by
  unfold archStep archDate
  rw [h]
  rfl

/-- a name without date -/
example : findall (archRe none) "AOD1B_latest.tar.gz".toList = [] := by decide +kernel

end Verif.Uplift
