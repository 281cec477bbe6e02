import Verif.GeoFile.Model

/-!
# Geocenter files written by scripts/monte_carlo_degree_one.py

Coefficients and their uncertainties.  The functions `print_header`, `print_harmonic` and `print_global` are those of
`calc_degree_one.py` for files whose dealiasing has not been restored.
-/
namespace Verif.GeoFile
open Verif.SLR Verif.SpatialIO Verif.HarmIO Verif.MeanField

/-- `print_variables` with `'single precision'` and `'fully normalized'` (scripts/monte_carlo_degree_one.py:807, 1082-1143),
without the last line of the header -/
def mcVariables : List Line :=
  head 2 0 "variables" :: (varLines "mid-epoch_time" "mid-date of each measurement epoch" "single precision" "decimal-years" "1st column" ++
  varLines "C10" "C10 coefficient; cosine coefficient for degree 1 and order 0" "single precision" "fully normalized" "2nd column" ++
  varLines "C11" "C11 coefficient; cosine coefficient for degree 1 and order 1" "single precision" "fully normalized" "3rd column" ++
  varLines "S11" "S11 coefficient; sine coefficient for degree 1 and order 1" "single precision" "fully normalized" "4th column" ++
  varLines "eC10" "eC10 uncertainty; cosine coefficient for degree 1 and order 0" "single precision" "fully normalized" "5th column" ++
  varLines "eC11" "eC11 uncertainty; cosine coefficient for degree 1 and order 1" "single precision" "fully normalized" "6th column" ++
  varLines "eS11" "eS11 uncertainty; sine coefficient for degree 1 and order 1" "single precision" "fully normalized" "7th column" ++
  [head 4 22 "month", field 6 20 "long_name" "GRACE month of each measurement epoch".toList,
    field 6 20 "description" "months starting 2002-01-01".toList, field 6 20 "data_type" "integer".toList,
    field 6 20 "units" "month".toList, field 6 20 "comment" "8th column".toList] ++ [[], []])

/-- the header above the last line (scripts/monte_carlo_degree_one.py:803-807, 925-1079) -/
def mcHeader (f : Info) (first last : ℤ) : List Line :=
  let g := { f with AOD := false }
  printHeader ++ (printHarmonic f.kl ++ (printGlobal g first last ++ mcVariables))

/-- one date: coefficients and uncertainties -/
structure McDate where
  time : ℚ
  c10 : ℚ
  c11 : ℚ
  s11 : ℚ
  ec10 : ℚ
  ec11 : ℚ
  es11 : ℚ
  month : ℕ

/-- `'{0:11.4f}{1:14.6e}…{6:14.6e} {7:03d}'` (scripts/monte_carlo_degree_one.py:797-798, 808-812) -/
def mcDataLine (d : McDate) : Line :=
  fmtF 11 4 d.time ++ fmtEL 14 6 d.c10 ++ fmtEL 14 6 d.c11 ++ fmtEL 14 6 d.s11 ++ fmtEL 14 6 d.ec10 ++ fmtEL 14 6 d.ec11 ++
    fmtEL 14 6 d.es11 ++ ' ' :: num 3 d.month

/-- the file (scripts/monte_carlo_degree_one.py:797-814); without dates `calendar_year[0]` raises -/
def mcFileLines (f : Info) (ds : List McDate) : Option (List Line) :=
  match ds.head?, ds.getLast? with
  | some a, some b => some (mcHeader f a.month b.month ++ endMark :: ds.map mcDataLine)
  | _, _ => none

end Verif.GeoFile
