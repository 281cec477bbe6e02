import Mathlib.Analysis.Real.Sqrt
import Mathlib.Algebra.BigOperators.Group.List.Basic

/-!
# Model of `gravity_toolkit/associated_legendre.py` and `legendre_polynomials.py`

All operations of the code act elementwise on the vector `x`, so the model computes the arrays for
one element `x`.  Exact real arithmetic; `eps` is the machine epsilon used at the poles.
-/
namespace Verif.Legendre

/-- `u = np.sqrt(1.0 - x**2)`, replaced by `eps` where it is zero (associated_legendre.py:113-115,
212-214, 315-317; legendre_polynomials.py:87-90) -/
noncomputable def codeU (eps x : ℝ) : ℝ :=
  if Real.sqrt (1 - x ^ 2) = 0 then eps else Real.sqrt (1 - x ^ 2)

/-- `a[l,m] = v` -/
def set2 (a : ℕ → ℕ → ℝ) (l m : ℕ) (v : ℝ) : ℕ → ℕ → ℝ :=
  fun l' m' => if l' = l ∧ m' = m then v else a l' m'

/-- `a[k] = v` -/
def set1 (a : ℕ → ℝ) (k : ℕ) (v : ℝ) : ℕ → ℝ := fun k' => if k' = k then v else a k'

/-- functions and derivatives -/
structure PD where
  p : ℕ → ℕ → ℝ
  d : ℕ → ℕ → ℝ

/-- `flm` (associated_legendre.py:133, 260, 357) -/
noncomputable def flm (l m : ℕ) : ℝ :=
  Real.sqrt (((l : ℝ) ^ 2 - (m : ℝ) ^ 2) * (2 * l + 1) / (2 * l - 1))

/-! ## plm_colombo -/

/-- `alm` (associated_legendre.py:128) -/
noncomputable def alm (l m : ℕ) : ℝ :=
  Real.sqrt ((2 * (l : ℝ) - 1) * (2 * l + 1) / (((l : ℝ) - m) * (l + m)))
/-- `blm` (associated_legendre.py:129) -/
noncomputable def blm (l m : ℕ) : ℝ :=
  Real.sqrt ((2 * (l : ℝ) + 1) * (l + m - 1) * (l - m - 1) / (((l : ℝ) - m) * (l + m) * (2 * l - 3)))

/-- arrays after the initial values (associated_legendre.py:108-123) -/
noncomputable def colInit (x u : ℝ) : PD :=
  let z : ℕ → ℕ → ℝ := fun _ _ => 0
  let p := set2 (set2 (set2 z 0 0 1) 1 0 (Real.sqrt 3 * x)) 1 1 (Real.sqrt 3 * u)
  let d := set2 (set2 z 1 0 (1 / u * (x * p 1 0 - Real.sqrt 3 * p 0 0))) 1 1 (x / u * p 1 1)
  ⟨p, d⟩

/-- body of the loop over `m` (associated_legendre.py:125-134) -/
noncomputable def colInner (x u : ℝ) (l : ℕ) (s : PD) (m : ℕ) : PD :=
  let p := set2 s.p l m (alm l m * x * s.p (l - 1) m - blm l m * s.p (l - 2) m)
  ⟨p, set2 s.d l m (1 / u * (l * x * p l m - flm l m * p (l - 1) m))⟩

/-- body of the loop over `l` (associated_legendre.py:124-141) -/
noncomputable def colOuter (x u : ℝ) (s : PD) (l : ℕ) : PD :=
  let s := (List.range l).foldl (colInner x u l) s
  let p := set2 s.p l l (u * Real.sqrt ((2 * l + 1) / (2 * l)) * s.p (l - 1) (l - 1))
  ⟨p, set2 s.d l l (l * (x / u) * p l l)⟩

/-- `plm_colombo(LMAX, x, MMAX)` (associated_legendre.py:68-145): entries of the two arrays before
the orders are cut at `MMAX`; `none` for `LMAX = 0`, where `plm[1,0,:]` raises `IndexError` -/
noncomputable def colombo (eps : ℝ) (LMAX : ℕ) (x : ℝ) : Option PD :=
  if LMAX = 0 then none
  else some ((List.range' 2 (LMAX - 1)).foldl (colOuter x (codeU eps x)) (colInit x (codeU eps x)))

/-- `plm[:,:MMAX+1,:]`: the entry exists -/
def inOutput (LMAX MMAX l m : ℕ) : Prop := l ≤ LMAX ∧ m ≤ MMAX ∧ m ≤ LMAX

/-! ## plm_holmes -/

/-- prefactor 1 (associated_legendre.py:201, 205) -/
noncomputable def hf1 (l m : ℕ) : ℝ :=
  if m = 0 then Real.sqrt (2 * l - 1) * Real.sqrt (2 * l + 1) / l
  else Real.sqrt (2 * l + 1) * Real.sqrt (2 * l - 1) / (Real.sqrt (l + m) * Real.sqrt (l - m))
/-- prefactor 2 (associated_legendre.py:202, 206-207) -/
noncomputable def hf2 (l m : ℕ) : ℝ :=
  if m = 0 then ((l : ℝ) - 1) * Real.sqrt (2 * l + 1) / (Real.sqrt (2 * l - 3) * l)
  else Real.sqrt (2 * l + 1) * Real.sqrt (l - m - 1) * Real.sqrt (l + m - 1) /
    (Real.sqrt (2 * l - 3) * Real.sqrt (l + m) * Real.sqrt (l - m))

/-- prefactor arrays and their running index -/
structure FS where
  k : ℕ
  f1 : ℕ → ℝ
  f2 : ℕ → ℝ

/-- body over `m` (associated_legendre.py:204-207) -/
noncomputable def fInner (l : ℕ) (s : FS) (m : ℕ) : FS :=
  ⟨s.k + 1, set1 s.f1 (s.k + 1) (hf1 l m), set1 s.f2 (s.k + 1) (hf2 l m)⟩

/-- body over `l` (associated_legendre.py:199-208) -/
noncomputable def fOuter (s : FS) (l : ℕ) : FS :=
  let s := fInner l s 0
  let s := (List.range' 1 (l - 2)).foldl (fInner l) s
  { s with k := s.k + 2 }

/-- the precomputed prefactors (associated_legendre.py:195-208) -/
noncomputable def fLoop (LMAX : ℕ) : FS :=
  (List.range' 2 (LMAX - 1)).foldl fOuter ⟨2, fun _ => 0, fun _ => 0⟩

/-- flat array of functions and running index -/
structure HS where
  k : ℕ
  p : ℕ → ℝ

/-- body over `l` for order 0 (associated_legendre.py:220-222); `k+1-2l` is the code's `k-2*l+1`,
which is never negative -/
noncomputable def hZStep (F : FS) (x : ℝ) (s : HS) (l : ℕ) : HS :=
  let k := s.k + l
  ⟨k, set1 s.p k (F.f1 k * x * s.p (k - l) - F.f2 k * s.p (k + 1 - 2 * l))⟩

/-- zonal functions (associated_legendre.py:216-222) -/
noncomputable def hZonal (F : FS) (LMAX : ℕ) (x : ℝ) : HS :=
  (List.range' 2 (LMAX - 1)).foldl (hZStep F x)
    ⟨1, set1 (set1 (fun _ => 0) 0 1) 1 (Real.sqrt 3 * x)⟩

/-- body over `l` for an order (associated_legendre.py:239-242) -/
noncomputable def hInner (F : FS) (x rescalem : ℝ) (s : HS) (l : ℕ) : HS :=
  let k := s.k + l
  let p := set1 s.p k (x * F.f1 k * s.p (k - l) - F.f2 k * s.p (k + 1 - 2 * l))
  ⟨k, set1 p (k + 1 - 2 * l) (p (k + 1 - 2 * l) * rescalem)⟩

/-- state of the loop over orders -/
structure HM where
  p : ℕ → ℝ
  pmm : ℝ
  rescalem : ℝ
  kstart : ℕ

/-- body over `m` (associated_legendre.py:229-245) -/
noncomputable def hOuter (F : FS) (LMAX : ℕ) (x u : ℝ) (s : HM) (m : ℕ) : HM :=
  let rescalem := s.rescalem * u
  let kstart := s.kstart + (m + 1)
  let pmm := s.pmm * Real.sqrt (2 * m + 1) / Real.sqrt (2 * m)
  let p := set1 s.p kstart pmm
  let k := kstart + m + 1
  let p := set1 p k (x * Real.sqrt (2 * m + 3) * pmm)
  let h := (List.range' (m + 2) (LMAX - (m + 1))).foldl (hInner F x rescalem) ⟨k, p⟩
  let p := set1 h.p h.k (h.p h.k * rescalem)
  let p := set1 p (h.k - LMAX) (p (h.k - LMAX) * rescalem)
  ⟨p, pmm, rescalem, kstart⟩

/-- `plm_holmes` (associated_legendre.py:147-265) before the orders are cut at `MMAX`. `none`: for
`LMAX = 0` an `IndexError` is raised, for `LMAX = 1` the loop variable `m` is unbound. -/
noncomputable def holmes (eps scalef : ℝ) (LMAX : ℕ) (x : ℝ) : Option PD :=
  if LMAX < 2 then none
  else
    let u := codeU eps x
    let F := fLoop LMAX
    let z := hZonal F LMAX x
    let s := (List.range' 1 (LMAX - 1)).foldl (hOuter F LMAX x u)
      ⟨z.p, Real.sqrt 2 * scalef, 1 / scalef, 0⟩
    let rescalem := s.rescalem * u
    let kstart := s.kstart + ((LMAX - 1) + 2)
    let p := set1 s.p kstart (s.pmm * Real.sqrt (2 * LMAX + 1) / Real.sqrt (2 * LMAX) * rescalem)
    some
      { p := fun l m => if m ≤ l ∧ l ≤ LMAX then p (l * (l + 1) / 2 + m) else 0
        d := fun l m => if m ≤ l ∧ l ≤ LMAX then
            if l = m then m * (x / u) * p (l * (l + 1) / 2 + m)
            else 1 / u * (l * x * p (l * (l + 1) / 2 + m) - flm l m * p ((l - 1) * l / 2 + m))
          else 0 }

/-! ## plm_mohlenkamp -/

/-- body of the loop over `k` for one order (associated_legendre.py:331-345) -/
noncomputable def mStep (x : ℝ) (mm : ℕ) (j : ℕ → ℝ) (k : ℕ) : ℕ → ℝ :=
  if k = 1 then
    set1 j k (2 * x * j (k - 1) * Real.sqrt (1 + (mm - 0.5) / k) *
      Real.sqrt (1 - (mm - 0.5) / (k + 2 * mm)))
  else
    set1 j k (2 * x * j (k - 1) * Real.sqrt (1 + (mm - 0.5) / k) *
        Real.sqrt (1 - (mm - 0.5) / (k + 2 * mm)) -
      j (k - 2) * Real.sqrt (1 + 4 / (2 * k + 2 * mm - 3)) *
        Real.sqrt (1 - 1 / k) * Real.sqrt (1 - 1 / (k + 2 * mm)))

/-- column `mm` of `jlmm` (associated_legendre.py:320-345) -/
noncomputable def mColumn (x : ℝ) (LMAX mm : ℕ) : ℕ → ℝ :=
  let j0 : ℝ := if 0 < mm then
      ((List.range mm).map fun i : ℕ => Real.sqrt (1 + 1 / (2 * ((i : ℝ) + 1)))).prod / Real.sqrt 2
    else 1 / Real.sqrt 2
  (List.range' 1 LMAX).foldl (mStep x mm) (set1 (fun _ => 0) 0 j0)

/-- `plm_mohlenkamp` (associated_legendre.py:267-360): entries of `plm` (orders to `MMAX`) and of
`dplm` -/
noncomputable def mohlenkamp (eps : ℝ) (LMAX MMAX : ℕ) (x : ℝ) : PD :=
  let u := codeU eps x
  let p : ℕ → ℕ → ℝ := fun l m =>
    if m ≤ MMAX ∧ m ≤ l ∧ l ≤ LMAX then
      if m = 0 then Real.sqrt 2 * mColumn x LMAX m (l - m)
      else 2 * u ^ m * mColumn x LMAX m (l - m)
    else 0
  { p := p
    d := fun l m => if m ≤ MMAX ∧ m ≤ l ∧ l ≤ LMAX then
        if l = m then m * (x / u) * p l m else 1 / u * (l * x * p l m - flm l m * p (l - 1) m)
      else 0 }

/-! ## legendre_polynomials -/

/-- body of the recursion (legendre_polynomials.py:98-103): unnormalised values and output -/
noncomputable def lpStep (x : ℝ) (pole : Bool) (s : (ℕ → ℝ) × (ℕ → ℝ)) (l : ℕ) : (ℕ → ℝ) × (ℕ → ℝ) :=
  let t := set1 s.1 l ((2 * l - 1) / l * x * s.1 (l - 1) - (l - 1) / l * s.1 (l - 2))
  let pl := set1 s.2 l (Real.sqrt (2 * l + 1) * t l)
  (t, if pole then set1 pl l (Real.sqrt (2 * l + 1) * x ^ l) else pl)

/-- `legendre_polynomials(lmax, x)` (legendre_polynomials.py:49-111); `none` for `lmax = 0`
(`IndexError`) -/
noncomputable def legendrePolynomials (eps : ℝ) (lmax : ℕ) (x : ℝ) : Option ((ℕ → ℝ) × (ℕ → ℝ)) :=
  if lmax = 0 then none
  else
    let u := codeU eps x
    let init : (ℕ → ℝ) × (ℕ → ℝ) :=
      (set1 (set1 (fun _ => 0) 0 1) 1 x, set1 (set1 (fun _ => 0) 0 1) 1 (Real.sqrt 3 * x))
    let s := (List.range' 2 (lmax - 1)).foldl (lpStep x (Real.sqrt (1 - x ^ 2) = 0)) init
    some (s.2, fun l => if 1 ≤ l ∧ l ≤ lmax then
      1 / u * (l * x * s.2 l -
        Real.sqrt ((l : ℝ) ^ 2 * (2 * l + 1) / (2 * l - 1)) * s.2 (l - 1)) else 0)

end Verif.Legendre
