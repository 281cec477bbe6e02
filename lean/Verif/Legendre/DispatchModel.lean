import Verif.Legendre.Model

/-!
# Model of the dispatcher `associated_legendre`

One value of `x` at a time, exact real arithmetic; the routines called are those of
`Verif.Legendre.Model`.  Names are lists of characters; the lower-casing is that of ASCII letters.
-/
namespace Verif.Legendre

/-- what a call raises: the dispatcher's own `ValueError`, or an error inside a routine -/
inductive DErr where
  | value
  | inside
deriving DecidableEq

/-- the pair of arrays returned, one `x`: numbers of degrees, and of orders of each array -/
structure Tables where
  degrees : ℕ
  pOrders : ℕ
  dOrders : ℕ
  p : ℕ → ℕ → ℝ
  d : ℕ → ℕ → ℝ

/-- `plm[:,:MMAX+1,:], dplm[:,:MMAX+1,:]` of arrays with `LMAX+1` orders
(associated_legendre.py:145, 265) -/
def cutOrders (LMAX MMAX : ℕ) (s : PD) : Tables :=
  { degrees := LMAX + 1
    pOrders := min (MMAX + 1) (LMAX + 1)
    dOrders := min (MMAX + 1) (LMAX + 1)
    p := s.p
    d := s.d }

/-- `associated_legendre(LMAX, x, method=..., MMAX=...)` (associated_legendre.py:25-66): the default
of `method` is `'holmes'` and `MMAX` defaults to `LMAX` (lines 101-102, 183-184, 301-302).
`plm_mohlenkamp` allocates `MMAX+1` orders for the functions and `LMAX+1` for the derivatives (lines
310-311) and cuts neither. -/
noncomputable def associatedLegendre (eps scalef : ℝ) (method : List Char) (LMAX : ℕ) (MMAX : Option ℕ)
    (x : ℝ) : Except DErr Tables :=
  let name := method.map Char.toLower
  let M := MMAX.getD LMAX
  if name = "colombo".toList then
    match colombo eps LMAX x with
    | some s => .ok (cutOrders LMAX M s)
    | none => .error .inside
  else if name = "holmes".toList then
    match holmes eps scalef LMAX x with
    | some s => .ok (cutOrders LMAX M s)
    | none => .error .inside
  else if name = "mohlenkamp".toList then
    let s := mohlenkamp eps LMAX M x
    .ok { degrees := LMAX + 1
          pOrders := M + 1
          dOrders := LMAX + 1
          p := s.p
          d := s.d }
  else .error .value

end Verif.Legendre
