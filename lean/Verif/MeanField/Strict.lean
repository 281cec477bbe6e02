import Verif.MeanField.Props
import Verif.HarmIO.Strict

/-!
# C93: the format asked for is the format of the file
-/
namespace Verif.MeanField
open Verif.Harmonics Verif.HarmIO.Data

/-- **C93** with format netCDF4 the mean file is a netCDF4 file (it has dimensions), with HDF5 an HDF5 file (it has none) -/
theorem mean_formats (root : SpatialIO.Data.Attrs) (j : Job) (sqrt : ℚ → ℚ) (g : Months ℚ) (f : MeanFile ℚ) :
    (writeMean "netCDF4".toList root j sqrt g = .ok f → ∃ d, f = .data d ∧ (d.dims.lookup "lm").isSome ∧
      (d.dims.lookup "time").isSome) ∧
    (writeMean "HDF5".toList root j sqrt g = .ok f → ∃ d, f = .data d ∧ d.dims = []) := by
  have key : ∀ hdf5, (writeData hdf5 root none (meanField sqrt g)).map MeanFile.data = .ok f →
      ∃ o' d, f = .data d ∧ write hdf5 {} none ⟨(meanField sqrt g).h, root⟩ = .ok (o', d) := by
    intro hdf5 h
    unfold writeData at h
    cases hw : write hdf5 {} none ⟨(meanField sqrt g).h, root⟩ with
    | error e => rw [hw] at h; simp [Except.map] at h
    | ok r =>
      rw [hw] at h
      simp only [Except.map, Except.ok.injEq] at h
      exact ⟨r.1, r.2, h.symm, rfl⟩
  constructor
  · intro h
    have h' : (writeData false root none (meanField sqrt g)).map MeanFile.data = .ok f := by
      rw [← h]; unfold writeMean; rw [show formOf "netCDF4".toList = .ok (.netCDF4, "nc".toList) by rfl]
    obtain ⟨o', d, e, hw⟩ := key false h'
    refine ⟨d, e, ?_⟩
    rw [(netcdf_dimensions {} none _ o' d hw).1 (Or.inl rfl)]
    exact ⟨by simp [List.lookup], by simp [List.lookup]⟩
  · intro h
    have h' : (writeData true root none (meanField sqrt g)).map MeanFile.data = .ok f := by
      rw [← h]; unfold writeMean; rw [show formOf "HDF5".toList = .ok (.HDF5, "H5".toList) by rfl]
    obtain ⟨o', d, e, hw⟩ := key true h'
    refine ⟨d, e, ?_⟩
    obtain ⟨f', at_, f1, r, _, _, h3, _, h5, _⟩ := write_inv true {} none _ o' d hw
    unfold addDims at h3
    rw [if_pos rfl] at h3
    simp only [if_true, Except.ok.injEq] at h3
    rw [h5, ← h3]

end Verif.MeanField
