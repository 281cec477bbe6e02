/-!
# Model of the names in queries of NASA CMR

`cmr_product_shortname` and `cmr_readable_granules` of `gravity_toolkit/utilities.py`. Texts are Lean strings, except for the
granule pattern and the names it is compared with, which are lists of characters.
-/
namespace Verif.Cmr

/-- the default of `product` (utilities.py:1528) -/
def allProducts : List String := ["GAA", "GAB", "GAC", "GAD", "GSM"]

/-- GRACE Level-2 short names of a center (utilities.py:1586-1608) -/
def graceL2 (center release : String) (products : List String) : List String :=
  products.filterMap fun p =>
    if center = "CSR" ∧ (p = "GAA" ∨ p = "GAB") then none
    else some ("GRACE_" ++ p ++ "_L2_GRAV_" ++ center ++ "_" ++ release)

/-- `cmr_product_shortname` (utilities.py:1522-1631): `none` is the exception for a combination without entry. `re.findall`
of the digits of `RL06` with three places is `006`. -/
def shortnames (mission center release level version : String) (products : List String) : Option (List String) :=
  if mission = "grace" then
    if level = "L1B" then
      if center = "GFZ" then (if release = "RL06" then some ["GRACE_AOD1B_GRAV_GFZ_" ++ release] else none)
      else if center = "JPL" then
        (if release = "RL02" ∨ release = "RL03" then some ["GRACE_L1B_GRAV_JPL_" ++ release] else none)
      else none
    else if level = "L2" then
      if (center = "CSR" ∨ center = "GFZ" ∨ center = "JPL") ∧ release = "RL06" then some (graceL2 center release products)
      else none
    else none
  else if mission = "grace-fo" then
    if level = "L1A" ∨ level = "L1B" then
      if center = "JPL" ∧ release = "RL04" then some ["GRACEFO_" ++ level ++ "_ASCII_GRAV_JPL_" ++ release] else none
    else if level = "L2" then
      if (center = "CSR" ∨ center = "GFZ" ∨ center = "JPL") ∧ release = "RL06" then
        some ["GRACEFO_L2_" ++ center ++ "_MONTHLY_" ++ "006" ++ version]
      else none
    else none
  else none

/-- the `product` argument of `cmr`, `None` by default: formatted as text -/
def productText : Option String → String
  | none => "None"
  | some p => p

/-- `'{0}-2_???????-???????_????_?????_{1}_???{2}*'` (utilities.py:1676, 1679) -/
def l2Pattern (product solution version : List Char) : List Char :=
  product ++ "-2_???????-???????_????_?????_".toList ++ solution ++ "_???".toList ++ version ++ "*".toList

/-- `cmr_readable_granules` (utilities.py:1633-1683) -/
def granules (product : Option String) (level solution version : String) : List Char :=
  if level = "L1B" ∧ product = some "AOD1B" then "AOD1B_*".toList
  else if level = "L1A" ∨ level = "L1B" then "grace*".toList
  else if level = "L2" ∧ product = some "GSM" then l2Pattern "GSM".toList solution.toList version.toList
  else if level = "L2" then l2Pattern (productText product).toList "BC01".toList version.toList
  else "*".toList

/-- the ends of a text -/
def ends : List Char → List (List Char)
  | [] => [[]]
  | c :: n => (c :: n) :: ends n

/-- matching of a readable granule name on the server: `?` is any character, `*` any text -/
def glob : List Char → List Char → Bool
  | [], n => n.isEmpty
  | a :: p, n =>
    if a = '*' then (ends n).any fun k => glob p k
    else match n with
      | [] => false
      | c :: n => (a == '?' || a == c) && glob p n

end Verif.Cmr
