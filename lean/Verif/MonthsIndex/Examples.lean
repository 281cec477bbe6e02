import Verif.MonthsIndex.Run

/-!
# Concrete cases for the index of months
-/
namespace Verif.MonthsIndex
open Verif.Time Verif.Dates Verif.SLR Verif.SpatialIO Verif.MonthsIndex.Spec

/-- two months of CSR: April and May 2002 -/
def exFiles : List (String × FileDates) := [("a", ⟨2002, 95, 2002, 120⟩), ("b", ⟨2002, 122, 2002, 137⟩)]

/-- two months of JPL: May and August 2002 -/
def exFiles2 : List (String × FileDates) := [("c", ⟨2002, 121, 2002, 151⟩), ("d", ⟨2002, 213, 2002, 243⟩)]

example : months false (exFiles.map Prod.snd) = [4, 5] ∧ months false (exFiles2.map Prod.snd) = [5, 8] := by decide +kernel

-- the line of a date file
example : datesLine 4 ⟨2002, 95, 2002, 120⟩ = "2002.29452055 004     2002 095     2002 120      108".toList := by
  decide +kernel

example : readRow "2002.29452055 004     2002 095     2002 120      108".toList = some ⟨4, 2002, 95, 2002, 120⟩ := by
  decide +kernel

/-- the dates of the data of two centers -/
def exData (p _ d : Text) : List FileDates :=
  if d = "GSM".toList then if p = "CSR".toList then exFiles.map Prod.snd else exFiles2.map Prod.snd else []

/-- the index of the two datasets, starting without any date file -/
def exIndex : List Text :=
  ["   MONTH           CSR_RL06             JPL_RL06       ",
   "004 Apr2002   2002_095--2002_120     ** missing **   ",
   "005 May2002   2002_122--2002_137   2002_121--2002_151",
   "006 Jun2002     ** missing **        ** missing **   ",
   "007 Jul2002     ** missing **        ** missing **   ",
   "008 Aug2002     ** missing **      2002_213--2002_243"].map String.toList

theorem ex_run : (runGraceDate exData (fun _ _ => none) ["JPL".toList, "CSR".toList] ["RL06".toList, "v02.4".toList]).2 =
    (exIndex, none) := by decide +kernel

-- the hypotheses of `run_shows` hold in this case
example : (∀ p r, Redated ["JPL".toList, "CSR".toList] ["RL06".toList, "v02.4".toList] p r →
    2 ≤ (if p = "CSR".toList then exFiles else exFiles2).length) ∧
    Redated ["JPL".toList, "CSR".toList] ["RL06".toList, "v02.4".toList] "CSR".toList "RL06".toList := by
  refine ⟨?_, by decide, by decide, by decide⟩
  intro p r _
  split_ifs <;> decide

example : (months false (exFiles.map Prod.snd)).Nodup ∧ (months false (exFiles2.map Prod.snd)).Nodup := by decide +kernel

example : Label ("004 Apr2002".toList) 4 := ⟨2002, 4, "Apr", by norm_num, by norm_num, rfl, by decide⟩

example : Blanked (column "004 Apr2002   2002_095--2002_120     ** missing **   ".toList 0)
    (range ⟨4, 2002, 95, 2002, 120⟩) := ⟨2, 0, by decide⟩

example : Blanked (column "004 Apr2002   2002_095--2002_120     ** missing **   ".toList 1) "** missing **".toList :=
  ⟨4, 3, by decide⟩

/-- a date file with the month 5 twice -/
def twice : List Text := datesHeader :: [datesLine 4 ⟨2002, 95, 2002, 120⟩, datesLine 5 ⟨2002, 122, 2002, 137⟩,
  datesLine 5 ⟨2002, 138, 2002, 151⟩]

/-- **A month twice**: only April is written -/
theorem ex_twice : monthsIndex (fun p _ => if p = "CSR".toList then some twice else none) ["RL06".toList] =
    (["   MONTH           CSR_RL06       ".toList, "004 Apr2002   2002_095--2002_120".toList], some .value) := by
  decide +kernel

/-- **A single line**: the program raises although nothing is wrong with the file -/
theorem ex_single : monthsIndex (fun p _ => if p = "CSR".toList then some [datesHeader, datesLine 4 ⟨2002, 95, 2002, 120⟩] else
    none) ["RL06".toList] = (["   MONTH           CSR_RL06       ".toList], some .index) := by
  decide +kernel

/-- **No lines**: the index is left empty -/
theorem ex_empty : monthsIndex (fun p _ => if p = "CSR".toList then some (datesFile false []) else none) ["RL06".toList] =
    ([], some .value) := by decide +kernel

end Verif.MonthsIndex
