import Mathlib.Analysis.SpecialFunctions.Pow.Real
import Mathlib.Analysis.SpecialFunctions.Sqrt

/-!
# Model of the `geocenter` class (`gravity_toolkit/geocenter.py`)

Series of `n` dates are functions on `Fin n`; an attribute that is `None` or absent is `none`.
Exact real arithmetic.
-/
namespace Verif.Geocenter

/-- a series -/
abbrev Ser (n : ℕ) := Fin n → ℝ

/-- three optional attributes handled together -/
structure Triple (n : ℕ) where
  z : Option (Ser n)
  x : Option (Ser n)
  y : Option (Ser n)

/-- a `geocenter` object (geocenter.py:86-109); `coef` holds (C10, C11, S11), `err` (eC10, eC11,
eS11), `cart` (Z, X, Y) and `sig` (Z_sigma, X_sigma, Y_sigma) -/
structure Geo (n : ℕ) where
  coef : Triple n
  err : Triple n
  cart : Triple n
  sig : Triple n
  radius : ℝ
  time : Ser n
  month : Fin n → ℤ

/-- nothing set -/
def noTriple (n : ℕ) : Triple n := ⟨none, none, none⟩

/-- radius set by `__init__` in millimetres (geocenter.py:87-91) -/
noncomputable def defaultRadius : ℝ := 1000 * 6378137 * (1 - 1 / 298.257223563) ^ (1 / 3 : ℝ)

/-- three assignments `self.z' = f(self.z)` etc. inside one `try` whose exceptions are swallowed:
each assignment needs its source, and the first failure ends the block -/
def tryBlock {n : ℕ} (f : Ser n → Ser n) (src old : Triple n) : Triple n :=
  match src.z with
  | none => old
  | some z =>
    match src.x with
    | none => { old with z := some (f z) }
    | some x =>
      match src.y with
      | none => { old with z := some (f z), x := some (f x) }
      | some y => ⟨some (f z), some (f x), some (f y)⟩

/-- the same three assignments without `try`: a missing source raises -/
def mustBlock {n : ℕ} (f : Ser n → Ser n) (src : Triple n) : Option (Triple n) :=
  match src.z, src.x, src.y with
  | some z, some x, some y => some ⟨some (f z), some (f x), some (f y)⟩
  | _, _, _ => none

/-- `to_cartesian` (geocenter.py:924-947) -/
noncomputable def toCartesian {n : ℕ} (g : Geo n) (kl : ℝ) : Geo n :=
  let f : Ser n → Ser n := fun c i => c i * g.radius * Real.sqrt 3 / (1 + kl)
  { g with cart := tryBlock f g.coef g.cart, sig := tryBlock f g.err g.sig }

/-- `from_cartesian` (geocenter.py:998-1018); `none`: an exception is raised -/
noncomputable def fromCartesian {n : ℕ} (g : Geo n) (kl : ℝ) : Option (Geo n) :=
  let f : Ser n → Ser n := fun c i => (1 + kl) * c i / (g.radius * Real.sqrt 3)
  (mustBlock f g.cart).map fun coef => { g with coef := coef, err := tryBlock f g.sig g.err }

/-- `rho_e*rad_e` (geocenter.py:958-961) -/
noncomputable def rhoRad : ℝ := 5.517 * 6.371e8

/-- multiply coefficients (required) and errors (if present) in place -/
noncomputable def scaleBy {n : ℕ} (g : Geo n) (k : ℝ) : Option (Geo n) :=
  let f : Ser n → Ser n := fun c i => c i * k
  (mustBlock f g.coef).map fun coef => { g with coef := coef, err := tryBlock f g.err g.err }

/-- divide coefficients (required) and errors (if present) in place -/
noncomputable def divBy {n : ℕ} (g : Geo n) (k : ℝ) : Option (Geo n) :=
  let f : Ser n → Ser n := fun c i => c i / k
  (mustBlock f g.coef).map fun coef => { g with coef := coef, err := tryBlock f g.err g.err }

/-- `to_cmwe` (geocenter.py:949-973) -/
noncomputable def toCmwe {n : ℕ} (g : Geo n) (kl : ℝ) : Option (Geo n) := scaleBy g (rhoRad / (1 + kl))
/-- `to_mmwe` (geocenter.py:975-996) -/
noncomputable def toMmwe {n : ℕ} (g : Geo n) (kl : ℝ) : Option (Geo n) :=
  (toCmwe g kl).bind fun g => scaleBy g 10
/-- `from_cmwe` (geocenter.py:1020-1044) -/
noncomputable def fromCmwe {n : ℕ} (g : Geo n) (kl : ℝ) : Option (Geo n) := scaleBy g ((1 + kl) / rhoRad)
/-- `from_mmwe` (geocenter.py:1046-1067) -/
noncomputable def fromMmwe {n : ℕ} (g : Geo n) (kl : ℝ) : Option (Geo n) :=
  (fromCmwe g kl).bind fun g => divBy g 10

/-- `to_matrix` (geocenter.py:909-922): entries `clm[l,m,t]`, `slm[l,m,t]` of a 2 by 2 by n array -/
def toMatrix {n : ℕ} (c10 c11 s11 : Ser n) : (ℕ → ℕ → Ser n) × (ℕ → ℕ → Ser n) :=
  let z : ℕ → ℕ → Ser n := fun _ _ _ => 0
  let set (a : ℕ → ℕ → Ser n) (l m : ℕ) (v : Ser n) : ℕ → ℕ → Ser n :=
    fun l' m' => if l' = l ∧ m' = m then v else a l' m'
  (set (set z 1 0 c10) 1 1 c11, set z 1 1 s11)

/-- `from_matrix` (geocenter.py:863-881); also `from_harmonics` (geocenter.py:829-861) for the
coefficients -/
def fromMatrix {n : ℕ} (g : Geo n) (clm slm : ℕ → ℕ → Ser n) : Geo n :=
  { g with coef := ⟨some (clm 1 0), some (clm 1 1), some (slm 1 1)⟩ }

/-- `copy` (geocenter.py:783-804): the uncertainties of the cartesian coordinates and the radius
are not copied -/
noncomputable def copy {n : ℕ} (g : Geo n) : Geo n :=
  { coef := g.coef, err := g.err, cart := g.cart, sig := noTriple n, radius := defaultRadius
    time := g.time, month := g.month }

/-- `add`, `subtract`, `multiply`, `divide` (geocenter.py:1101-1155) for objects of the same
length -/
def combine {n : ℕ} (op : ℝ → ℝ → ℝ) (g h : Geo n) : Option (Geo n) :=
  match g.coef, h.coef with
  | ⟨some a, some b, some c⟩, ⟨some a', some b', some c'⟩ =>
    some { g with coef := ⟨some fun i => op (a i) (a' i), some fun i => op (b i) (b' i),
      some fun i => op (c i) (c' i)⟩ }
  | _, _ => none

/-- mean of the selected positions (geocenter.py:1082-1084) -/
noncomputable def meanOf {n : ℕ} (s : Ser n) (idx : List (Fin n)) : ℝ := (idx.map s).sum / idx.length

/-- `mean(apply=True)` (geocenter.py:1069-1099), the object afterwards -/
noncomputable def removeMean {n : ℕ} (g : Geo n) (idx : List (Fin n)) : Option (Geo n) :=
  match g.coef with
  | ⟨some a, some b, some c⟩ =>
    some { g with coef := ⟨some fun i => a i - meanOf a idx, some fun i => b i - meanOf b idx,
      some fun i => c i - meanOf c idx⟩ }
  | _ => none

/-! ## from_tellus -/

/-- a data line after the header: order, coefficients, errors and the date computed from it -/
structure TLine where
  m : ℤ
  c : ℝ
  s : ℝ
  ec : ℝ
  es : ℝ
  time : ℝ
  month : ℤ

/-- arrays being filled and the date counter -/
structure TState where
  c10 : ℕ → ℝ
  c11 : ℕ → ℝ
  s11 : ℕ → ℝ
  ec10 : ℕ → ℝ
  ec11 : ℕ → ℝ
  es11 : ℕ → ℝ
  time : ℕ → ℝ
  month : ℕ → ℤ
  t : ℕ

/-- errors of the reader -/
inductive TErr where
  | indexError
  | valueError
deriving DecidableEq, Repr

/-- the zero arrays (geocenter.py:667-679) -/
def tInit : TState :=
  ⟨fun _ => 0, fun _ => 0, fun _ => 0, fun _ => 0, fun _ => 0, fun _ => 0, fun _ => 0, fun _ => 0, 0⟩

/-- one line (geocenter.py:688-731): the counter advances by the order -/
def tStep (nMon : ℕ) (s : TState) (ln : TLine) : Except TErr TState :=
  if ln.m ≠ 0 ∧ ln.m ≠ 1 then .error .valueError
  else if nMon ≤ s.t then .error .indexError
  else
    let s := if ln.m = 0 then
        { s with c10 := Function.update s.c10 s.t ln.c, ec10 := Function.update s.ec10 s.t ln.ec }
      else { s with c11 := Function.update s.c11 s.t ln.c, s11 := Function.update s.s11 s.t ln.s
                    ec11 := Function.update s.ec11 s.t ln.ec, es11 := Function.update s.es11 s.t ln.es }
    .ok { s with time := Function.update s.time s.t ln.time
                 month := Function.update s.month s.t ln.month
                 t := s.t + ln.m.toNat }

/-- the data lines of `from_tellus` (geocenter.py:665-733) before `adjust_months` -/
def fromTellus (lines : List TLine) : Except TErr (ℕ × TState) :=
  let nMon := lines.length / 2
  (lines.foldlM (tStep nMon) tInit).map fun s => (nMon, s)

end Verif.Geocenter
