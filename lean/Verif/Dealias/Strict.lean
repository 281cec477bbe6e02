import Verif.Dealias.Main

/-!
# C86: names of the monthly files
-/
namespace Verif.Dealias
open Verif.Names Verif.SLR Verif.SpatialIO

/-- **C86** names of files in the format of the data centers: product, first and last day, mission (GRACE up to June 2017),
processing center, release.  CSR is `UTCSR`, JPL is `JPLEM`, another center is `GFZOP` in release 6 and `EIGEN` before -/
theorem shm_name (j : Job) (L : ℕ) (r : DateRow) (hf : j.form = .SHM) (mission center : String)
    (hm : mission = "GRAC" ∧ r.mon ≤ 186 ∨ mission = "GRFO" ∧ 187 ≤ r.mon)
    (hc : (center, j.proc, true) ∈ [("UTCSR", "CSR".toList, true), ("JPLEM", "JPL".toList, true)] ∨
      (j.proc ≠ "CSR".toList ∧ j.proc ≠ "JPL".toList ∧
        (center = "GFZOP" ∧ j.drel = "RL06".toList ∨ center = "EIGEN" ∧ j.drel ≠ "RL06".toList))) :
    outName j L r = j.dset ++ "-2_".toList ++ zpad 4 r.styr.toNat ++ zpad 3 r.stday.toNat ++ "-".toList ++
      zpad 4 r.endyr.toNat ++ zpad 3 r.endday.toNat ++ "_".toList ++ mission.toList ++ "_".toList ++ center.toList ++
      "_BC01_".toList ++ j.drel.drop 2 ++ "00.gz".toList := by
  have h1 : (if r.mon ≤ 186 then "GRAC".toList else "GRFO".toList) = mission.toList := by
    rcases hm with ⟨rfl, h⟩ | ⟨rfl, h⟩
    · rw [if_pos h]
    · rw [if_neg (by omega)]
  have h2 : centerOf j.proc j.drel = center.toList := by
    unfold centerOf
    rcases hc with h | ⟨n1, n2, ⟨rfl, h⟩ | ⟨rfl, h⟩⟩
    · simp only [List.mem_cons, Prod.mk.injEq, and_true, List.not_mem_nil, or_false] at h
      rcases h with ⟨rfl, h⟩ | ⟨rfl, h⟩
      · rw [if_pos h]
      · rw [h, if_neg (by decide), if_pos rfl]
    · rw [if_neg n1, if_neg n2, if_pos h]
    · rw [if_neg n1, if_neg n2, if_neg h]
  unfold outName
  rw [if_pos hf, h1, h2]

/-- **C86** names of files in the other formats -/
theorem data_name (j : Job) (L : ℕ) (r : DateRow) (s : String)
    (hf : (j.form, s) ∈ [(Form.ascii, "txt"), (Form.netCDF4, "nc"), (Form.HDF5, "H5")]) :
    outName j L r = j.proc ++ "_".toList ++ j.drel ++ "_".toList ++ j.dset ++ "_CLM_L".toList ++ zpad 0 L ++ "_".toList ++
      zpad 3 r.mon ++ ".".toList ++ s.toList := by
  simp only [List.mem_cons, Prod.mk.injEq, List.not_mem_nil, or_false] at hf
  unfold outName
  rcases hf with ⟨h, rfl⟩ | ⟨h, rfl⟩ | ⟨h, rfl⟩ <;> rw [h] <;> simp [suffixOf]

/-- **C86** a header with two times of day, or with none, cannot be read -/
example : hourOf "DATA SET 01: 002145 COEFFICIENTS FOR 2006-01-01 00:00:00 TO 06:00:00".toList = none ∧
    hourOf "DATA SET 01: 002145 COEFFICIENTS FOR 2006-01-01".toList = none ∧
    hourOf "DATA SET 01: 2006-01-01 18:00:00".toList = some 18 := by
  decide +kernel

end Verif.Dealias
