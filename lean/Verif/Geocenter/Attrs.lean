import Verif.Geocenter.Model
/-!
# Attributes of `geocenter` objects: dictionaries, copies, `get`, `scale`, `power`

Models of `geocenter.to_dict` (geocenter.py:883-907), `from_dict` (geocenter.py:806-827), `copy`
(geocenter.py:783-804) on the level of attributes, `get` (geocenter.py:1191-1206), the last step of
`from_netCDF4` (geocenter.py:742-781: all variables of the file are put into a dictionary for `from_dict`),
`scale` (geocenter.py:1157-1173) and `power` (geocenter.py:1175-1189).

An object is a map of attribute names; arrays are an arbitrary type.  That the copies are independent of the
originals is part of C98 (Verif/Share) and not repeated here.
-/
namespace Verif.Geocenter.Attrs

/-- the value of an attribute or dictionary entry -/
inductive Val (A : Type)
  /-- Python's None -/
  | none
  /-- an array (or another object with a method `copy`) -/
  | arr (a : A)
  /-- the array without dimensions that holds None, `np.copy(None)` -/
  | noneArr
  /-- an object without a method `copy`, e.g. a float or a string -/
  | plain
  deriving DecidableEq, Repr

/-- attributes that are set, or entries of a dictionary -/
abbrev Map (A : Type) := String → Option (Val A)

/-- the names of `fields` in `from_dict` and `to_dict` (geocenter.py:818-820, 893-895) -/
def dictFields : List String :=
  ["time", "month", "C10", "C11", "S11", "eC10", "eC11", "eS11", "X", "Y", "Z", "X_sigma", "Y_sigma", "Z_sigma"]

/-- the names of `fields` in `copy` (geocenter.py:793-795) -/
def copyFields : List String := ["time", "month", "C10", "C11", "S11", "eC10", "eC11", "eS11", "X", "Y", "Z"]

/-- attributes of `geocenter()` (geocenter.py:97-109); the radius and the iterator are not in this map -/
def fresh (A : Type) : Map A := fun k =>
  if k ∈ ["C10", "C11", "S11", "X", "Y", "Z", "time", "month", "filename"] then some .none else .none

/-- one assignment -/
def set {A : Type} (m : Map A) (k : String) (v : Val A) : Map A := fun k' => if k' = k then some v else m k'

/-- one turn of the loop in `to_dict` (geocenter.py:899-905): `copy.copy` copies anything -/
def toDictStep {A : Type} (g : Map A) (d : Map A) (k : String) : Map A :=
  match g k with
  | Option.none => d
  | some v => set d k v

/-- `to_dict` (geocenter.py:883-907) -/
def toDict {A : Type} (g : Map A) : Map A := dictFields.foldl (toDictStep g) fun _ => .none

/-- one turn of the loop in `from_dict` (geocenter.py:822-826): absent keys and values without `copy` are passed over -/
def fromDictStep {A : Type} (d : Map A) (g : Map A) (k : String) : Map A :=
  match d k with
  | some (.arr a) => set g k (.arr a)
  | some .noneArr => set g k .noneArr
  | _ => g

/-- `from_dict` on an object (geocenter.py:806-827) -/
def fromDict {A : Type} (g : Map A) (d : Map A) : Map A := dictFields.foldl (fromDictStep d) g

/-- one turn of the loop in `copy` (geocenter.py:798-803): `np.copy` of None is an array that holds None -/
def copyStep {A : Type} (g : Map A) (t : Map A) (k : String) : Map A :=
  match g k with
  | Option.none => t
  | some (.arr a) => set t k (.arr a)
  | some .none => set t k .noneArr
  | some .noneArr => set t k .noneArr
  | some .plain => set t k .plain

/-- `copy` (geocenter.py:783-804) -/
def copy {A : Type} (g : Map A) : Map A := copyFields.foldl (copyStep g) (fresh A)

/-- `get` (geocenter.py:1191-1206); `Option.none` is AttributeError -/
def get {A : Type} (g : Map A) (k : String) : Option (Val A) := g k

/-- `from_netCDF4` (geocenter.py:773-781): the variables of the file in a dictionary, then `from_dict` -/
def fromVariables {A : Type} (g : Map A) (vars : List (String × A)) : Map A :=
  fromDict g (vars.foldl (fun d v => set d v.1 (.arr v.2)) fun _ => .none)

end Verif.Geocenter.Attrs

namespace Verif.Geocenter

/-- `scale` (geocenter.py:1157-1173): `var` is a number for all dates or one number per date.  `none`:
a coefficient is missing and the product with None fails. -/
noncomputable def scale {n : ℕ} (var : Ser n) (g : Geo n) : Option (Geo n) :=
  match g.coef with
  | ⟨some a, some b, some c⟩ =>
    some { coef := ⟨some fun i => var i * a i, some fun i => var i * b i, some fun i => var i * c i⟩
           err := noTriple n, cart := noTriple n, sig := noTriple n, radius := defaultRadius
           time := g.time, month := g.month }
  | _ => none

/-- `power` (geocenter.py:1175-1189) for powers that are natural numbers -/
noncomputable def power {n : ℕ} (k : ℕ) (g : Geo n) : Option (Geo n) :=
  match g.coef with
  | ⟨some a, some b, some c⟩ =>
    some { coef := ⟨some fun i => a i ^ k, some fun i => b i ^ k, some fun i => c i ^ k⟩
           err := noTriple n, cart := noTriple n, sig := noTriple n, radius := defaultRadius
           time := g.time, month := g.month }
  | _ => none

end Verif.Geocenter
