import Verif.Fingerprint.Model
import Verif.SeaLevel.Props

/-!
# Specification: maps of sea level change of a load file (C98)

`WellPosed`, `surface`, `PolarLove` are those of C41.
-/
namespace Verif.Fingerprint
open Verif.Harmonics Verif.SeaLevel Verif.Analysis Verif.Legendre

/-- the load of date `t` up to degree and order `LMAX`; coefficients the file does not have are zero -/
noncomputable def loadAt (LMAX : ℕ) (h : Harm ℝ) (t : ℕ) : CSlm :=
  ⟨fun l m => if l ≤ LMAX ∧ l ≤ h.lmax ∧ m ≤ LMAX ∧ m ≤ h.mmax then h.clm l m t else 0,
   fun l m => if l ≤ LMAX ∧ l ≤ h.lmax ∧ m ≤ LMAX ∧ m ≤ h.mmax then h.slm l m t else 0⟩

/-- the number of dates of a file -/
def dates (h : Harm ℝ) : ℕ := h.nt.getD 1

/-- a cell is land, a lake or a small island; ocean (0) and ice shelves (4) are not -/
def IsLand (m : Mask) (j i : ℕ) : Prop := 1 ≤ m.code j i ∧ m.code j i ≤ 3

/-- area in square centimetres of a cell of row `j` -/
noncomputable def cellArea (E : Units.Earth) (m : Mask) (j : ℕ) : ℝ :=
  Units.rad_e E ^ 2 * (Real.sin ((90 - ((m.lat.getD j 0 : ℚ) : ℝ)) * Real.pi / 180) *
    stepRad (fun i => ((m.lon.getD i 0 : ℚ) : ℝ)) * stepRad (fun j => ((m.lat.getD j 0 : ℚ) : ℝ)))

/-- the mass of a layer of water -/
noncomputable def waterMass (E : Units.Earth) (m : Mask) (f : ℕ → ℕ → ℝ) : ℝ :=
  ∑ j ∈ Finset.range m.lat.length, ∑ i ∈ Finset.range m.lon.length, f j i * cellArea E m j

/-- a map solves the sea level equation for a load: there is none on land, the water of the map is what the load has lost, and over the
ocean it is, up to a uniform shift, the response of the Earth to the load and to a water layer `g` over the ocean that balances the
load as well -/
structure IsFingerprint (E : Units.Earth) (tol scalef : ℝ) (o : Opts) (m : Mask) (load : CSlm) (f : ℕ → ℕ → ℝ) : Prop where
  land : ∀ j i, IsLand m j i → f j i = 0
  mass : waterMass E m f = -(Units.mass E * load.clm 0 0)
  equation : ∃ k2 h2 kf g w d, PolarLove (solverArgs o m none) k2 h2 kf ∧ (∀ j i, IsLand m j i → g j i = 0) ∧
    waterMass E m g = -(Units.mass E * load.clm 0 0) ∧
    genHarmonics tol scalef ⟨m.lon.length, m.lat.length, fun i j => g j i⟩ m.lon.length m.lat.length
      (fun i => ((m.lon.getD i 0 : ℚ) : ℝ)) (fun j => ((m.lat.getD j 0 : ℚ) : ℝ)) o.LMAX none none = some w ∧
    ∀ j i, ¬ IsLand m j i → f j i = surface E (solverArgs o m none) k2 h2 kf w load ((m.lon.getD i 0 : ℚ) : ℝ) ((m.lat.getD j 0 : ℚ) : ℝ) + d

end Verif.Fingerprint
