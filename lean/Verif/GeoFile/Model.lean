import Verif.GeoFile.Yaml
import Verif.MeanField.Model
import Verif.Time.Model

/-!
# Geocenter files written by scripts/calc_degree_one.py

The text files with the degree one coefficients: YAML header and data.  Every `fid.write` of the source ends a line, and the
lines are modelled directly; reading splits them again (texts given by the user are assumed to have no line break).
-/
namespace Verif.GeoFile
open Verif.SLR Verif.SpatialIO Verif.HarmIO Verif.MeanField

/-- blanks -/
def blanks (n : ℕ) : Line := List.replicate n ' '

/-- `'{0:w}: {1}'` behind `i` blanks -/
def field (i w : ℕ) (name : String) (text : Line) : Line := blanks i ++ (padRight w name.toList ++ (':' :: ' ' :: text))

/-- `'{0:w}:'` behind `i` blanks -/
def head (i w : ℕ) (name : String) : Line := blanks i ++ (padRight w name.toList ++ [':'])

/-- what the header depends on; `AOD`: the dealiasing has been restored (`'_wAOD'` is not empty).  `citation` and
`reference` of the GIA model are `None` for models in the reformatted ascii format.  `today` is the date of the run -/
structure Info where
  PROC : Line
  DREL : Line
  MODEL : Line
  AOD : Bool
  citation : Option Line
  reference : Option Line
  SLR : String
  S21 : String
  kl : ℚ
  today : ℕ × ℕ × ℕ

/-- text of an attribute that may be `None` -/
def orNone : Option Line → Line
  | some s => s
  | none => "None".toList

/-- `print_header` (scripts/calc_degree_one.py:1137-1144) -/
def printHeader : List Line :=
  [head 0 0 "header", head 2 0 "dimensions", field 4 22 "degree" "1".toList, field 4 22 "order" "1".toList, []]

/-- `print_harmonic` (scripts/calc_degree_one.py:1147-1158) -/
def printHarmonic (kl : ℚ) : List Line :=
  [head 2 0 "non-standard_attributes", head 4 22 "love_number",
    field 6 20 "long_name" "Gravitational Load Love Number of Degree 1 (k1)".toList,
    field 6 20 "value" (fmtF 0 3 kl), field 4 22 "formatting_string" "(f11.4,3e14.6,i4)".toList, []]

/-- the mission (scripts/calc_degree_one.py:1163) -/
def mission : Line := "GRACE/GRACE-FO".toList

/-- `', '.join` and the like -/
def join (sep : String) (ts : List Line) : Line := sep.toList.intercalate ts

/-- the summary (scripts/calc_degree_one.py:1166-1190) -/
def summary (f : Info) (MODEL : Line) : Line :=
  "Geocenter coefficients derived from ".toList ++ mission ++ " mission measurements and ".toList ++ MODEL ++
    " ocean model outputs.".toList ++
  (if f.AOD then
    "  These coefficients represent the largest-scale variability of atmospheric, oceanic, hydrologic, cryospheric, ".toList ++
      "and solid Earth processes.".toList
  else
    ("  These coefficients represent the largest-scale variability of hydrologic, cryospheric, and solid Earth ".toList ++
      "processes.  In addition, the coefficients represent the atmospheric and oceanic processes not captured in the ".toList) ++
      mission ++ ' ' :: f.DREL ++ " de-aliasing product.".toList) ++
  "  Glacial Isostatic Adjustment (GIA) estimates from ".toList ++ orNone f.citation ++ " have been restored.".toList ++
  (if f.AOD then "  Monthly atmospheric and oceanic de-aliasing product has been restored.".toList
  else if f.DREL = "RL05".toList then "  ECMWF corrections from Fagiolini et al. (2015) have been restored.".toList
  else [])

/-- the projects (scripts/calc_degree_one.py:1191-1194) -/
def project (DREL : Line) : Line :=
  join ", " ("NASA Gravity Recovery And Climate Experiment (GRACE)".toList ::
    if DREL = "RL06".toList then ["GRACE Follow-On (GRACE-FO)".toList] else [])

/-- the keywords (scripts/calc_degree_one.py:1195-1205) -/
def keywords (DREL : Line) : Line :=
  join ", " ("GRACE".toList :: ((if DREL = "RL06".toList then ["GRACE-FO".toList] else []) ++
    ["Spherical Harmonic Model".toList, "Gravitational Field".toList, "Geopotential".toList, "Time Variable Gravity".toList,
      "Mass Transport".toList, "Satellite Geodesy".toList]))

/-- the source (scripts/calc_degree_one.py:1210-1215) -/
def source (f : Info) (MODEL : Line) : Line :=
  "An inversion using ".toList ++ mission ++ " measurements and ".toList ++ MODEL ++ " ocean model outputs.".toList ++
    (if f.AOD then "  Atmospheric and oceanic variation restored using the ".toList ++ f.DREL ++ " de-aliasing product.".toList
    else [])

/-- the acknowledgement (scripts/calc_degree_one.py:1222-1229) -/
def acknowledgement (DREL : Line) : Line :=
  join ".  " (["Work was supported by an appointment to the NASA Postdoctoral Program at NASA Goddard Space Flight Center, ".toList ++
      "administered by Universities Space Research Association under contract with NASA".toList,
    "GRACE is a joint mission of NASA (USA) and DLR (Germany)".toList] ++
    (if DREL = "RL06".toList then ["GRACE-FO is a joint mission of NASA (USA) and GFZ (Germany)".toList] else []))

/-- (scripts/calc_degree_one.py:1235-1238) -/
def refSutterley : Line :=
  ("T. C. Sutterley, and I. Velicogna, \"Improved estimates of geocenter variability from time-variable ".toList ++
    "gravity and ocean model outputs\", Remote Sensing, 11(18), 2108, (2019). ".toList ++
    "https://doi.org/10.3390/rs11182108".toList)

/-- (scripts/calc_degree_one.py:1239-1242) -/
def refSwenson : Line :=
  ("S. C. Swenson, D. P. Chambers, and J. Wahr, \"Estimating geocenter variations from a combination of ".toList ++
    "GRACE and ocean model output\", Journal of Geophysical Research - Solid Earth, 113(B08410), (2008). ".toList ++
    "https://doi.org/10.1029/2007JB005338".toList)

/-- (scripts/calc_degree_one.py:1247-1251) -/
def refFagiolini : Line :=
  ("E. Fagiolini, F. Flechtner, M. Horwath, H. Dobslaw, \"Correction of inconsistencies in ECMWF's ".toList ++
    "operational analysis data during de-aliasing of GRACE gravity models\", Geophysical Journal ".toList ++
    "International, 202(3), 2150, (2015). https://doi.org/10.1093/gji/ggv276".toList)

/-- (scripts/calc_degree_one.py:1254-1257) -/
def refCheng : Line :=
  ("M. Cheng, B. D. Tapley, and J. C. Ries, \"Deceleration in the Earth's oblateness\", Journal of ".toList ++
    "Geophysical Research: Solid Earth, 118(2), 740-747, (2013). https://doi.org/10.1002/jgrb.50058".toList)

/-- (scripts/calc_degree_one.py:1274-1277) -/
def refCheng21 : Line :=
  ("M. Cheng, J. C. Ries, and B. D. Tapley, \"Variations of the Earth's figure axis from satellite laser ".toList ++
    "ranging and GRACE\", Journal of Geophysical Research: Solid Earth, 116, B01409, (2011). ".toList ++
    "https://doi.org/10.1029/2010JB000850".toList)

/-- (scripts/calc_degree_one.py:1259-1262) -/
def refLoomis : Line :=
  ("B. D. Loomis, K. E. Rachlin, and S. B. Luthcke, \"Improved Earth Oblateness Rate Reveals Increased ".toList ++
    "Ice Sheet Losses and Mass-Driven Sea Level Rise\", Geophysical Research Letters, 46(12), 6910-6917, ".toList ++
    "(2019). https://doi.org/10.1029/2019GL082929".toList)

/-- (scripts/calc_degree_one.py:1263-1267) -/
def refLoomis30 : Line :=
  ("B. D. Loomis, K. E. Rachlin, D. N. Wiese, F. W. Landerer, and S. B. Luthcke, \"Replacing ".toList ++
    "GRACE/GRACE-FO C30 with satellite laser ranging: Impacts on Antarctic Ice Sheet mass change\", ".toList ++
    "Geophysical Research Letters, 47(3), (2020). https://doi.org/10.1029/2019GL085488".toList)

/-- (scripts/calc_degree_one.py:1279-1282) -/
def refDahle : Line :=
  ("C. Dahle and M. Murboeck, \"Post-processed GRACE/GRACE-FO Geopotential GSM Coefficients GFZ RL06 ".toList ++
    "(Level-2B Product).\" V. 0002. GFZ Data Services, (2019). http://doi.org/10.5880/GFZ.GRAVIS_06_L2B".toList)

/-- (scripts/calc_degree_one.py:1269-1272) -/
def refKoenig : Line :=
  ("R. Koenig, P. Schreiner, and C. Dahle, \"Monthly estimates of C(2,0) generated by GFZ from SLR ".toList ++
    "satellites based on GFZ GRACE/GRACE-FO RL06 background models.\" V. 1.0. GFZ Data Services, (2019). ".toList ++
    "http://doi.org/10.5880/GFZ.GRAVIS_06_C20_SLR".toList)

/-- the list of references (scripts/calc_degree_one.py:1233-1285) -/
def references (f : Info) : List Line :=
  [refSutterley, refSwenson, orNone f.reference] ++
  (if f.DREL = "RL05".toList ∧ f.AOD = false then [refFagiolini] else []) ++
  (if f.SLR = "CSR" then [refCheng] else if f.SLR = "GSFC" then [refLoomis, refLoomis30]
    else if f.SLR = "GFZ" then [refKoenig] else []) ++
  (if f.S21 = "CSR" then [refCheng21] else if f.S21 = "GFZ" then [refDahle] else [])

/-- `'{0:4.0f}-{1:02.0f}'` of the calendar date of a month (scripts/calc_degree_one.py:1299-1303) -/
def monthText (g : ℤ) : Line :=
  let ym := Verif.Time.graceToCalendar g
  pad 4 ((if ym.1 < 0 then ['-'] else []) ++ (natDigits ym.1.natAbs).map dchar) ++ '-' :: num 2 ym.2.toNat

/-- `time.strftime('%Y-%m-%d')` -/
def dayText (d : ℕ × ℕ × ℕ) : Line := num 4 d.1 ++ '-' :: num 2 d.2.1 ++ '-' :: num 2 d.2.2

/-- `print_global` (scripts/calc_degree_one.py:1161-1302) for the first and the last month; `MODEL.replace('_',' ')` is at the
place of the call (scripts/calc_degree_one.py:887-888) -/
def printGlobal (f : Info) (first last : ℤ) : List Line :=
  let MODEL := f.MODEL.map fun c => if c = '_' then ' ' else c
  [head 2 0 "global_attributes",
    field 4 22 "title" (mission ++ " Geocenter Coefficients ".toList ++ f.PROC ++ ' ' :: f.DREL),
    field 4 22 "summary" (summary f MODEL), field 4 22 "project" (project f.DREL),
    field 4 22 "keywords" (keywords f.DREL),
    field 4 22 "keywords_vocabulary" "NASA Global Change Master Directory (GCMD) Science Keywords".toList,
    field 4 22 "history" (mission ++ " Level-3 Data created at UC Irvine".toList),
    field 4 22 "source" (source f MODEL), field 4 22 "processing_level" "3".toList,
    field 4 22 "acknowledgement" (acknowledgement f.DREL),
    field 4 22 "product_version" ("Release-".toList ++ f.DREL.drop 2), head 4 22 "references"] ++
  (references f).map (fun r => blanks 6 ++ ('-' :: ' ' :: r)) ++
  [field 4 22 "creator_name" "Tyler C. Sutterley and Isabella Velicogna".toList,
    field 4 22 "creator_email" "tsutterl@uw.edu and isabella@uci.edu".toList,
    field 4 22 "creator_url" "https://www.ess.uci.edu/~velicogna/index.html".toList,
    field 4 22 "creator_type" "group".toList,
    field 4 22 "creator_institution" "University of Washington; University of California, Irvine".toList,
    field 4 22 "time_coverage_start" (monthText first), field 4 22 "time_coverage_end" (monthText last),
    field 4 22 "date_created" (dayText f.today), []]

/-- the fields of a variable (scripts/calc_degree_one.py:1309-1344) -/
def varLines (name long type units comment : String) : List Line :=
  [head 4 22 name, field 6 20 "long_name" long.toList, field 6 20 "data_type" type.toList,
    field 6 20 "units" units.toList, field 6 20 "comment" comment.toList]

/-- `print_variables` with `'single precision'` and `'fully normalized'` (scripts/calc_degree_one.py:889, 1305-1345), without
the end of the header -/
def printVariables : List Line :=
  head 2 0 "variables" :: (varLines "mid-epoch_time" "mid-date of each measurement epoch" "single precision" "decimal-years" "1st column" ++
  varLines "C10" "C10 coefficient; cosine coefficient for degree 1 and order 0" "single precision" "fully normalized" "2nd column" ++
  varLines "C11" "C11 coefficient; cosine coefficient for degree 1 and order 1" "single precision" "fully normalized" "3rd column" ++
  varLines "S11" "S11 coefficient; sine coefficient for degree 1 and order 1" "single precision" "fully normalized" "4th column" ++
  [head 4 22 "month", field 6 20 "long_name" "GRACE month of each measurement epoch".toList,
    field 6 20 "description" "months starting 2002-01-01".toList, field 6 20 "data_type" "integer".toList,
    field 6 20 "units" "month".toList, field 6 20 "comment" "5th column".toList] ++ [[], []])

/-- the last line of the header (scripts/calc_degree_one.py:1346) -/
def endMark : Line := "# End of YAML header".toList

/-- the header above the last line (scripts/calc_degree_one.py:885-889) -/
def headerLines (f : Info) (first last : ℤ) : List Line :=
  printHeader ++ (printHarmonic f.kl ++ (printGlobal f first last ++ printVariables))

/-- one date: decimal date, coefficients and month -/
structure Date where
  time : ℚ
  c10 : ℚ
  c11 : ℚ
  s11 : ℚ
  month : ℕ

/-- `'{0:w.pe}'.format(x)` -/
def fmtEL (w p : ℕ) (x : ℚ) : Line :=
  let m := (sciParts p x).1
  let e := (sciParts p x).2
  let d := expDigits e.natAbs
  pad w ((if x < 0 then ['-'] else []) ++ (natDigits (m / 10 ^ p)).map dchar ++ '.' :: (lastDigits p m).map dchar ++
    'e' :: (if e < 0 then '-' else '+') :: (d.1 :: d.2).map dchar)

/-- `'{0:11.4f}{1:14.6e}{2:14.6e}{3:14.6e} {4:03d}'` (scripts/calc_degree_one.py:876, 891-898) -/
def dataLine (d : Date) : Line :=
  fmtF 11 4 d.time ++ fmtEL 14 6 d.c10 ++ fmtEL 14 6 d.c11 ++ fmtEL 14 6 d.s11 ++ ' ' :: num 3 d.month

/-- the file (scripts/calc_degree_one.py:880-900); without dates `calendar_year[0]` raises -/
def fileLines (f : Info) (ds : List Date) : Option (List Line) :=
  match ds.head?, ds.getLast? with
  | some a, some b => some (headerLines f a.month b.month ++ endMark :: ds.map dataLine)
  | _, _ => none

/-- (gravity_toolkit/read_GIA_model.py:227-232) -/
def giaIvins : Line :=
  ("E. R. Ivins, T. S. James, J. Wahr, E. J. O. Schrama, F. W. Landerer, and K. M. Simon, \"Antarctic ".toList ++
    "contribution to sea level rise observed by GRACE with improved GIA correction\", Journal of ".toList ++
    "Geophysical Research: Solid Earth, 118(6), 3126-3141, (2013). https://doi.org/10.1002/jgrb.50208".toList)

/-- (gravity_toolkit/read_GIA_model.py:227-232) -/
def citeIvins : Line := "Ivins_et_al._(2013)".toList

/-- (gravity_toolkit/read_GIA_model.py:241-246) -/
def giaPeltier : Line :=
  ("W. R. Peltier, D. F. Argus, and R. Drummond, \"Space geodesy constrains ice age terminal ".toList ++
    "deglaciation: The global ICE-6G_C (VM5a) model\", Journal of Geophysical Research: Solid Earth, ".toList ++
    "120(1), 450-487, (2015). https://doi.org/10.1002/2014JB011176".toList)

/-- (gravity_toolkit/read_GIA_model.py:241-246) -/
def citePeltier : Line := "Peltier_et_al._(2015)".toList

/-- (gravity_toolkit/read_GIA_model.py:257-263) -/
def giaWhitehouse : Line :=
  ("P. L. Whitehouse, M. J. Bentley, G. A. Milne, M. A. King, I. D. Thomas, \"A new glacial isostatic ".toList ++
    "adjustment model for Antarctica: calibrated and tested using observations of relative sea-level ".toList ++
    "change and present-day uplift rates\", Geophysical Journal International, 190(3), 1464-1482, (2012). ".toList ++
    "https://doi.org/10.1111/j.1365-246X.2012.05557.x".toList)

/-- (gravity_toolkit/read_GIA_model.py:257-263) -/
def citeWhitehouse : Line := "Whitehouse_et_al._(2012)".toList

/-- (gravity_toolkit/read_GIA_model.py:274-280) -/
def giaSimpson : Line :=
  ("M. J. R. Simpson, G. A. Milne, P. Huybrechts, A. J. Long, \"Calibrating a glaciological model of the ".toList ++
    "Greenland ice sheet from the Last Glacial Maximum to present-day using field observations of ".toList ++
    "relative sea level and ice extent\", Quaternary Science Reviews, 28(17-18), 1631-1657, (2009). ".toList ++
    "https://doi.org/10.1016/j.quascirev.2009.03.004".toList)

/-- (gravity_toolkit/read_GIA_model.py:274-280) -/
def citeSimpson : Line := "Simpson_et_al._(2009)".toList

/-- (gravity_toolkit/read_GIA_model.py:288-293) -/
def giaWu : Line :=
  ("X. Wu, M. B. Heflin, H. Schotman, B. L. A. Vermeersen, D. Dong, R. S. Gross, E. R. Ivins, A. W. ".toList ++
    "Moore, S. E. Owen, \"Simultaneous estimation of global present-day water transport and glacial ".toList ++
    "isostatic adjustment\", Nature Geoscience, 3(9), 642-646, (2010). https://doi.org/10.1038/ngeo938".toList)

/-- (gravity_toolkit/read_GIA_model.py:288-293) -/
def citeWu : Line := "Wu_et_al._(2010)".toList

/-- (gravity_toolkit/read_GIA_model.py:299-304) -/
def giaCaron : Line :=
  ("L. Caron, E. R. Ivins, E. Larour, S. Adhikari, J. Nilsson and G. Blewitt, \"GIA Model Statistics for ".toList ++
    "GRACE Hydrology, Cryosphere, and Ocean Science\", Geophysical Research Letters, 45(5), 2203-2212, ".toList ++
    "(2018). https://doi.org/10.1002/2017GL076644".toList)

/-- (gravity_toolkit/read_GIA_model.py:299-304) -/
def citeCaron : Line := "Caron_et_al._(2018)".toList

/-- (gravity_toolkit/read_GIA_model.py:311-316) -/
def giaPeltierD : Line :=
  ("W. R. Peltier, D. F. Argus, and R. Drummond, \"Comment on \"An assessment of the ICE-6G_C (VM5a) ".toList ++
    "glacial isostatic adjustment model\" by Purcell et al.\", Journal of Geophysical Research: Solid ".toList ++
    "Earth, 123(2), 2019-2028, (2018). https://doi.org/10.1002/2016JB013844".toList)

/-- (gravity_toolkit/read_GIA_model.py:311-316) -/
def citePeltierD : Line := "Peltier_et_al._(2018)".toList

/-- (gravity_toolkit/read_GIA_model.py:325-330) -/
def giaA13 : Line :=
  ("G. A, J. Wahr, and S. Zhong, \"Computations of the viscoelastic response of a 3-D compressible Earth ".toList ++
    "to surface loading; an application to Glacial Isostatic Adjustment in Antarctica and Canada\", ".toList ++
    "Geophysical Journal International, 192(2), 557-572, (2013). https://doi.org/10.1093/gji/ggs030".toList)

/-- (gravity_toolkit/read_GIA_model.py:325-330) -/
def citeA13 : Line := "A_et_al._(2013)".toList

/-- (gravity_toolkit/read_GIA_model.py:339-344) -/
def giaA13J : Line :=
  ("G. A, J. Wahr, and S. Zhong, \"Computations of the viscoelastic response of a 3-D compressible Earth ".toList ++
    "to surface loading; an application to Glacial Isostatic Adjustment in Antarctica and Canada\", ".toList ++
    "Geophysical Journal International, 192(2), 557-572, (2013). https://doi.org/10.1093/gji/ggs030".toList)

/-- (gravity_toolkit/read_GIA_model.py:339-344) -/
def citeA13J : Line := "A_et_al._(2013)".toList

/-- citation and reference of the GIA models (gravity_toolkit/read_GIA_model.py:223-344); models in the reformatted ascii
format have none (gravity_toolkit/read_GIA_model.py:561-570) -/
def giaReferences : List (String × Line × Line) :=
  [("IJ05-R2", citeIvins, giaIvins),
    ("ICE6G", citePeltier, giaPeltier),
    ("W12a", citeWhitehouse, giaWhitehouse),
    ("SM09", citeSimpson, giaSimpson),
    ("Wu10", citeWu, giaWu),
    ("Caron", citeCaron, giaCaron),
    ("ICE6G-D", citePeltierD, giaPeltierD),
    ("AW13-ICE6G", citeA13, giaA13),
    ("AW13-IJ05", citeA13J, giaA13J)]

end Verif.GeoFile
