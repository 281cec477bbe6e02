import Verif.Fingerprint.Files

/-!
# C98: series without dates in HDF5 files
-/
namespace Verif.Fingerprint
open Verif.Harmonics Verif.SeaLevel Verif.Analysis Verif.Legendre

/-- **C98** a series without dates is written to an HDF5 file, all its maps -/
theorem series_hdf5 (E : Units.Earth) (tol scalef : ℝ) (o : Opts) (hD : o.DATE = false) (m : Mask) (load : Harm ℝ)
    (h1 : dates load ≠ 1) (hw : WellPosed E scalef (solverArgs o m none)) (hI : 1 ≤ o.ITERATIONS) :
    ∃ data, run E tol scalef .HDF5 o m load = some (.grid 3 (dates load) data none) ∧
      ∀ t < dates load, IsFingerprint E tol scalef o m (loadAt o.LMAX load t) fun j i => data j i t := by
  obtain ⟨s, hs, -, -, h3, h4, h5⟩ := fingerprint_maps E tol scalef o m load (by rw [hD]; exact fun h => absurd h (by decide)) hw hI
  refine ⟨s.data, ?_, h5⟩
  rw [if_neg h1] at h3
  unfold run
  rw [hs]
  simp [toHDF5, hD, h3]

end Verif.Fingerprint
