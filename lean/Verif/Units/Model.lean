import Mathlib.Analysis.SpecialFunctions.Pow.Real
import Mathlib.Analysis.SpecialFunctions.Trigonometric.Basic

/-!
# Model of `units.py`

Exact real arithmetic; `x**(1.0/3.0)` is the real power.  Degree dependent arrays are functions of the
degree (read only up to `lmax`).  Physical constants of the constructor are kept symbolic in `Earth`
and instantiated in `default`.
-/
namespace Verif.Units

/-- the constants held by a `units` object (units.py:58-82) -/
structure Earth where
  G : ℝ
  GM : ℝ
  a_axis : ℝ
  flat : ℝ
  g_wmo : ℝ

/-- constructor with the default ellipsoid (units.py:58-82) -/
noncomputable def Earth.default : Earth where
  G := 6.67430e-8
  GM := 3986004.418e14 - 3.5e14
  a_axis := 6.378137e8
  flat := 1 / 298.257223563
  g_wmo := 980.665

variable (E : Earth)

/-- property `b_axis` (units.py:96-100) -/
noncomputable def b_axis : ℝ := (1 - E.flat) * E.a_axis
/-- property `rad_e` (units.py:102-106) -/
noncomputable def rad_e : ℝ := E.a_axis * (1 - E.flat) ^ ((1 : ℝ) / 3)
/-- property `rho_e` (units.py:108-112) -/
noncomputable def rho_e : ℝ := 0.75 * E.GM / (E.G * Real.pi * rad_e E ^ 3)
/-- property `mass` (units.py:114-118) -/
noncomputable def mass : ℝ := (4 / 3) * Real.pi * rho_e E * rad_e E ^ 3

/-- the degree dependent attributes (units.py:81-92); `none` is Python's `None` -/
structure Factors where
  norm : Option (ℕ → ℝ) := none
  cmwe : Option (ℕ → ℝ) := none
  mmwe : Option (ℕ → ℝ) := none
  mmGH : Option (ℕ → ℝ) := none
  mmCU : Option (ℕ → ℝ) := none
  mmCH : Option (ℕ → ℝ) := none
  cmVCU : Option (ℕ → ℝ) := none
  mVCU : Option (ℕ → ℝ) := none
  microGal : Option (ℕ → ℝ) := none
  mbar : Option (ℕ → ℝ) := none
  Pa : Option (ℕ → ℝ) := none

/-- `fraction` (units.py:166-172, 231-234) -/
noncomputable def fraction (elastic ellipsoidal : Bool) (kl : ℕ → ℝ) (l : ℕ) : ℝ :=
  let f : ℝ := 1
  let f := if elastic then f + kl l else f
  if ellipsoidal then f / (1 - E.flat) else f

/-- `units.harmonic(hl, kl, ll)` (units.py:120-197): assigns every degree dependent attribute -/
noncomputable def harmonic (elastic ellipsoidal : Bool) (hl kl ll : ℕ → ℝ) (s : Factors) : Factors :=
  let fr := fraction E elastic ellipsoidal kl
  { s with
    norm := some fun _ => 1
    cmwe := some fun l => rho_e E * rad_e E * (2 * l + 1) / fr l / 3
    mmwe := some fun l => 10 * rho_e E * rad_e E * (2 * l + 1) / fr l / 3
    mmGH := some fun _ => 1 * (10 * rad_e E)
    mmCU := some fun l => 10 * rad_e E * hl l / fr l
    mmCH := some fun l => 10 * rad_e E * ll l / fr l
    cmVCU := some fun l => rad_e E * (2 * l + 1) / 2
    mVCU := some fun l => rad_e E * (2 * l + 1) / 200
    microGal := some fun l => 1e6 * E.GM * (l + 1) / rad_e E ^ 2
    mbar := some fun l => E.g_wmo * rho_e E * rad_e E * (2 * l + 1) / fr l / 3e3
    Pa := some fun l => E.g_wmo * rho_e E * rad_e E * (2 * l + 1) / fr l / 30 }

/-- `units.spatial(hl, kl, ll)` (units.py:199-247): assigns five attributes, the others stay -/
noncomputable def spatial (elastic : Bool) (kl : ℕ → ℝ) (s : Factors) : Factors :=
  let fr := fraction E elastic false kl
  { s with
    norm := some fun _ => 1
    cmwe := some fun l => 3 * fr l / (1 + 2 * l) / (4 * Real.pi * rad_e E * rho_e E)
    mmwe := some fun l => 3 * fr l / (1 + 2 * l) / (40 * Real.pi * rad_e E * rho_e E)
    mmGH := some fun _ => 1 / (4 * Real.pi * rad_e E)
    microGal := some fun l => rad_e E ^ 2 / (4 * Real.pi * 1e6 * E.GM) / (l + 1) }

/-- what `get` hands back: a degree dependent array, `None`, or some other attribute of the object -/
inductive Got where
  | arr (f : ℕ → ℝ)
  | none
  | other

/-- attributes of the object that are not degree dependent factors: constants, properties, methods and
what every Python object has (units.py:58-306) -/
def otherAttrs : List String :=
  ["G", "GM", "a_axis", "flat", "g_wmo", "omega", "lmax", "l", "b_axis", "rad_e", "rho_e", "mass",
   "harmonic", "spatial", "get", "bycode", "get_attributes"]

/-- `units.get(var)` (units.py:249-261); dunder names of `object` are left out.  `Option.none` is
the `ValueError`. -/
def get (s : Factors) (var : String) : Option Got :=
  let w : Option (ℕ → ℝ) → Option Got := fun o => some (match o with | some f => .arr f | Option.none => .none)
  match var with
  | "norm" => w s.norm | "cmwe" => w s.cmwe | "mmwe" => w s.mmwe | "mmGH" => w s.mmGH
  | "mmCU" => w s.mmCU | "mmCH" => w s.mmCH | "cmVCU" => w s.cmVCU | "mVCU" => w s.mVCU
  | "microGal" => w s.microGal | "mbar" => w s.mbar | "Pa" => w s.Pa
  | v => if v ∈ otherAttrs then some .other else Option.none

/-- Python list indexing with negative indices -/
def pyIndex {A : Type} (xs : List A) (i : ℤ) : Option A :=
  if 0 ≤ i then xs[i.toNat]? else if -(xs.length : ℤ) ≤ i then xs[(xs.length + i).toNat]? else none

/-- the table of units.bycode (units.py:273-281) -/
def namedUnits : List String := ["norm", "cmwe", "mmGH", "mmCU", "microGal", "mbar", "cmVCU"]

/-- `units.bycode(var)` (units.py:263-285); `none` is the `ValueError` -/
def bycode (var : ℤ) : Option String := pyIndex namedUnits var

/-- the table of units.get_attributes (units.py:297-308) -/
def namedAttributes : List (String × String × String) :=
  [("norm", "1", "Fully-Normalized"), ("mmwe", "mm", "Equivalent_Water_Thickness"),
   ("cmwe", "cm", "Equivalent_Water_Thickness"), ("mmGH", "mm", "Geoid_Height"),
   ("mmCU", "mm", "Elastic_Crustal_Uplift"), ("mmCH", "mm", "Horizontal_Elastic_Crustal_Deformation"),
   ("microGal", "μGal", "Gravitational_Undulation"), ("mbar", "mbar", "Equivalent_Surface_Pressure"),
   ("cmVCU", "cm", "Viscoelastic_Crustal_Uplift"), ("mVCU", "meters", "Viscoelastic_Crustal_Uplift")]

/-- `units.get_attributes(var)` (units.py:287-312) -/
def getAttributes (var : String) : Option (String × String) := namedAttributes.lookup var

end Verif.Units
