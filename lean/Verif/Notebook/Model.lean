import Mathlib.Algebra.Order.Group.Unbundled.Int

/-!
# Widgets of the notebooks (`widgets` of gravity_toolkit/tools.py)

The parts with state: releases and products offered, degree and order, the files to be removed and the boxes that follow the release.
Of `ipywidgets` the model takes that a bounded number is brought into its bounds when it is set and when the bounds are lowered, that
the functions registered with `observe` are called, in the order in which they have been registered, when a value changes, that an
exception of one of them ends the others, and that a widget is not equal to a text.
-/
namespace Verif.Notebook

/-- texts -/
abbrev Str := List Char

/-- exceptions -/
inductive Err where
  /-- `KeyError` -/
  | key
  /-- `TraitError`: the value is not offered -/
  | trait
  /-- `UnboundLocalError` -/
  | unbound
deriving DecidableEq

/-! ## Releases and products -/

/-- the centers offered (tools.py:178-179) -/
def centers : List String := ["CSR", "GFZ", "JPL", "CNES"]

/-- `set_release` (tools.py:233-241): the releases offered; the last one is chosen -/
def releases (center : String) : List String :=
  if center = "CNES" then ["RL01", "RL02", "RL03", "RL04", "RL05"] else ["RL04", "RL05", "RL06"]

/-- the products offered (tools.py:244-258) -/
def products (center release : String) : Except Err (List String) :=
  if center = "CNES" then
    if release = "RL01" then .ok ["GAC", "GSM"]
    else if release = "RL02" then .ok ["GAA", "GAB", "GSM"]
    else if release = "RL03" then .ok ["GAA", "GAB", "GSM"]
    else if release = "RL04" then .ok ["GSM"]
    else if release = "RL05" then .ok ["GAA", "GAB", "GSM"]
    else .error .key
  else if center = "CSR" then .ok ["GAC", "GAD", "GSM"]
  else if center = "GFZ" ∨ center = "JPL" then .ok ["GAA", "GAB", "GAC", "GAD", "GSM"]
  else .error .unbound

/-- `set_product` (tools.py:244-260) with the default product: products offered and chosen -/
def setProduct (center release default : String) : Except Err (List String × String) :=
  match products center release with
  | .error e => .error e
  | .ok ps => if default ∈ ps then .ok (ps, default) else .error .trait

/-- `set_max_degree` (tools.py:427-442): `same t` is the comparison of the center with a text -/
def maxDegree (same : String → Bool) (release : String) : Except Err ℤ :=
  let table : Option (List (String × ℤ)) :=
    if same "CNES" then some [("RL01", 50), ("RL02", 50), ("RL03", 80), ("RL04", 90), ("RL05", 90)]
    else if same "CSR" || same "JPL" then some [("RL04", 60), ("RL05", 60), ("RL06", 60)]
    else if same "GFZ" then some [("RL04", 90), ("RL05", 90), ("RL06", 60)]
    else none
  match table with
  | none => .error .unbound
  | some t =>
    match t.lookup release with
    | none => .error .key
    | some n => .ok n

/-! ## State -/

/-- center, release, product and months -/
structure Menus where
  center : String
  release : String
  product : String
  months : List ℕ

/-- a bounded number whose lower bound is zero -/
structure Bounded where
  value : ℤ
  max : ℤ
deriving DecidableEq

/-- to set the value -/
def Bounded.set (b : Bounded) (v : ℤ) : Bounded := { b with value := min (Max.max v 0) b.max }

/-- to set the upper bound -/
def Bounded.bound (b : Bounded) (m : ℤ) : Bounded := ⟨min b.value m, m⟩

/-- the widgets -/
structure State where
  menus : Menus
  lmax : Bounded
  mmax : Bounded
  /-- files to be removed and the text with their names -/
  files : List Str
  label : Str
  poleTide : Bool
  atm : Bool

/-- `set_max_order` (tools.py:444-448) -/
def setMaxOrder (s : State) : State := { s with mmax := (s.mmax.bound s.lmax.value).set s.lmax.value }

/-- `set_pole_tide` and the value at the start (tools.py:402-403, 451-455) -/
def poleTideOf (m : Menus) : Bool := decide (m.release = "RL05") && decide (m.product = "GSM")

/-- `set_atm_corr` and the value at the start (tools.py:412, 458-461) -/
def atmOf (m : Menus) : Bool := decide (m.release = "RL05")

/-- the widgets at the start (tools.py:299-413, 545-551) with the default degree -/
def start (m : Menus) (degree : ℤ) : State :=
  ⟨m, ⟨degree, degree⟩, ⟨degree, degree⟩, [], [], poleTideOf m, atmOf m⟩

/-- the files named by a text: `set_removefile` (tools.py:708-714) -/
def filesOf (label : Str) : List Str := if label = [] then [] else label.splitOn ','

/-- the text of the files: `set_removelabel` (tools.py:716-719) -/
def labelOf (files : List Str) : Str := [','].intercalate files

/-- to set the text: the function that observes it is called if it has changed -/
def setLabel (t : Str) (s : State) : State :=
  if t = s.label then s else { s with label := t, files := filesOf t }

/-- the comparison `self.center == '...'` (tools.py:430-436): a widget is compared with a text -/
def sameCenter (_ : Menus) : String → Bool := fun _ => false

/-- the functions that observe the release behind `set_product` and `update_months`: degree, pole tide and atmosphere, in this
order (tools.py:418-420) -/
def releaseObservers (s : State) : State × Option Err :=
  match maxDegree (sameCenter s.menus) s.menus.release with
  | .error e => (s, some e)
  | .ok n =>
    let s := { s with lmax := (s.lmax.bound n).set n }
    ({ s with poleTide := poleTideOf s.menus, atm := atmOf s.menus }, none)

/-- the function that observes the product (tools.py:416) -/
def productObservers (s : State) : State × Option Err :=
  match maxDegree (sameCenter s.menus) s.menus.release with
  | .error e => (s, some e)
  | .ok n => ({ s with lmax := (s.lmax.bound n).set n }, none)

/-- what a user can do.  `menus` stands for whatever the first functions that observe the menus make of them -/
inductive Event where
  | degree (v : ℤ)
  | order (v : ℤ)
  /-- the dialog for the files to be removed (tools.py:690-706) -/
  | pick (files : List Str)
  | label (t : Str)
  | center (menus : Menus)
  | release (menus : Menus)
  | product (menus : Menus)
  | tickPoleTide (b : Bool)
  | tickAtm (b : Bool)

/-- one event -/
def step (s : State) : Event → State
  | .degree v =>
    let s' := { s with lmax := s.lmax.set v }
    if s'.lmax.value = s.lmax.value then s' else setMaxOrder s'
  | .order v => { s with mmax := s.mmax.set v }
  | .pick fs =>
    let s' := { s with files := s.files ++ fs }
    setLabel (labelOf s'.files) s'
  | .label t => setLabel t s
  | .center m => { s with menus := m }
  | .release m => (releaseObservers { s with menus := m }).1
  | .product m => (productObservers { s with menus := m }).1
  | .tickPoleTide b => { s with poleTide := b }
  | .tickAtm b => { s with atm := b }

/-- a history -/
def run (s : State) (es : List Event) : State := es.foldl step s

/-- the menus -/
inductive Menu where
  | center | release | product
deriving DecidableEq

/-- the menus when the functions that observe a menu have run with the values at the end: `set_release`, `set_product` and
`update_months` for the center, the last two for the release, none of them for the product (tools.py:225-229, 263-272); `find`
gives the months of a center, release and product (`grace_find_months`), `default` is the default product.  What these functions
do with values in between, while a menu is being filled, is left out -/
def settled (find : String → String → String → List ℕ) (default : String) (m : Menus) (menu : Menu) (value : String) : Except Err Menus :=
  match menu with
  | .center =>
    let r := (releases value).getLastD ""
    match setProduct value r default with
    | .error e => .error e
    | .ok (_, p) => .ok ⟨value, r, p, find value r p⟩
  | .release =>
    match setProduct m.center value default with
    | .error e => .error e
    | .ok (_, p) => .ok ⟨m.center, value, p, find m.center value p⟩
  | .product => .ok { m with product := value }

end Verif.Notebook
