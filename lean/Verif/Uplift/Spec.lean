import Verif.Uplift.Model
import Verif.Dealias.Series
import Verif.Maps.Lemmas
import Verif.Time.Calendar

/-!
# Specification: maps of elastic uplift from AOD1B archives (C97)

Names and texts of the files are those of C86 (`archiveName`, `FileOf`, `Day`, `Hour`), the series is that of C91.
-/
namespace Verif.Uplift
open Verif.Names Verif.Time Verif.Time.Spec Verif.Dealias Verif.Legendre
open Verif.GeoRead (pad2 pad4)

/-- the archive of a month: it has the name of the month and holds one file for some of its days, each with `nt` fields of
the product -/
structure IsMonth (prod : Name) (P : List (ℕ × ℕ)) (nt : ℕ) (a : Arch) (y m : ℕ) : Prop where
  name : ∃ rel tgz, IsDigits rel ∧ a.tar.name = archiveName y m rel tgz
  year : 1000 ≤ y ∧ y < 10000 ∧ y % 4000 ≠ 0
  month : 1 ≤ m ∧ m ≤ 12
  members : a.tar.members = a.files.map Prod.snd
  some : a.files ≠ []
  files : ∀ f ∈ a.files, FileOf prod P f.1 f.2 ∧ f.1.y = y ∧ f.1.m = m ∧ f.1.hours.length = nt ∧ 1 ≤ f.1.d ∧
    (f.1.d : ℤ) ≤ monthLen y m
  once : (a.files.map fun f => f.1.d).Nodup

/-- the factor from mass coefficients to uplift in millimetres -/
noncomputable def rise (E : Units.Earth) (hl kl : ℕ → ℝ) (l : ℕ) : ℝ := 10 * Units.rad_e E * hl l / (1 + kl l)

/-- the map of one field: rows are latitudes -/
noncomputable def upliftMap (eps : ℝ) (rise : ℕ → ℝ) (L : ℕ) (lons lats : List ℚ) (f : Hour) : List (List ℝ) :=
  lats.map fun lat : ℚ => lons.map fun lon : ℚ =>
    Maps.series 0 L L rise (fun l m => (f.c l m : ℝ)) (fun l m => (f.s l m : ℝ)) (Real.cos ((90 - (lat : ℝ)) * Real.pi / 180))
      (codeU eps (Real.cos ((90 - (lat : ℝ)) * Real.pi / 180))) ((lon : ℝ) * Real.pi / 180)

/-- the maps of a month: the field `c` of day `d` is at position `(d-1)*nt + c`, its time is in hours since the beginning of the
month.  Days without a file have maps of zeros, 24 hours before the beginning of the month -/
structure IsUplift (eps : ℝ) (rise : ℕ → ℝ) (L nt : ℕ) (lons lats : List ℚ) (a : Arch) (y m : ℕ) (g : Grid) : Prop where
  lon : g.lon = lons
  lat : g.lat = lats
  since : g.since = "hours since ".toList ++ pad4 y ++ "-".toList ++ pad2 m ++ "-01T00:00:00".toList
  length : g.data.length = nt * (monthLen y m).toNat ∧ g.hours.length = nt * (monthLen y m).toNat
  fields : ∀ f ∈ a.files, ∀ c : ℕ, ∀ h : Hour, f.1.hours[c]? = some h →
    g.data[(f.1.d - 1) * nt + c]? = some (upliftMap eps rise L lons lats h) ∧
    g.hours[(f.1.d - 1) * nt + c]? = some ((h.h : ℤ) + 24 * ((f.1.d : ℤ) - 1))
  missing : ∀ d c : ℕ, 1 ≤ d → (d : ℤ) ≤ monthLen y m → (∀ f ∈ a.files, f.1.d ≠ d) → c < nt →
    g.data[(d - 1) * nt + c]? = some (lats.map fun _ => lons.map fun _ => 0) ∧ g.hours[(d - 1) * nt + c]? = some (-24)

/-- the years the user asks for: all, or some of four digits -/
def Asked (years : Option (List ℕ)) : Prop := ∀ ys, years = some ys → ys ≠ [] ∧ ∀ v ∈ ys, 1000 ≤ v ∧ v < 10000

/-- the year is asked for -/
def Wanted (years : Option (List ℕ)) (y : ℕ) : Prop := ∀ ys, years = some ys → y ∈ ys

end Verif.Uplift
