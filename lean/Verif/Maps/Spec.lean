import Verif.Maps.Model
import Verif.Legendre.Spec
import Mathlib.Algebra.BigOperators.Intervals

/-!
# Specification of the monthly maps

What the maps of `grace_spatial_maps` should contain, in terms of the coefficients of the inputs.
-/
namespace Verif.Maps
open Verif.Harmonics Verif.Legendre

/-- a stored coefficient at a date (`b`: the sine one), zero beyond the stored degrees and orders -/
noncomputable def coef (b : Bool) (h : Harm ℝ) (t l m : ℕ) : ℝ :=
  if l ≤ h.lmax ∧ m ≤ h.mmax then (if b then h.slm l m t else h.clm l m t) else 0

/-- the static field: the mean file, or the temporal mean of the `n` months -/
noncomputable def static (b : Bool) (grace : Harm ℝ) (n : ℕ) (meanFile : Option (Harm ℝ)) (l m : ℕ) : ℝ :=
  match meanFile with
  | some f => coef b f 0 l m
  | none => (∑ t ∈ Finset.range n, coef b grace t l m) / n

/-- the optional decorrelation filter (see Verif.Destripe for what it does) -/
noncomputable def filt (o : Opts) (c : ℕ → ℕ → ℝ) : ℕ → ℕ → ℝ :=
  if o.DESTRIPE then Destripe.destripeColumn true false o.LMAX o.order c else c

/-- a removed field at one of its dates; with an ocean function its mass is compensated by a uniform layer of water -/
noncomputable def compensated (b : Bool) (ocean : Option (Harm ℝ)) (h : Harm ℝ) (t l m : ℕ) : ℝ :=
  match ocean with
  | none => coef b h t l m
  | some oc => coef b h t l m - coef false h t 0 0 / coef false oc 0 0 0 * coef b oc 0 l m

/-- the coefficients of the map of month number `i`: anomaly of the data minus GIA minus the removed fields of that month -/
noncomputable def signal (b : Bool) (o : Opts) (grace : Harm ℝ) (n : ℕ) (meanFile : Option (Harm ℝ)) (gia : Harm ℝ)
    (removed : List (Harm ℝ)) (i l m : ℕ) : ℝ :=
  filt o (fun l m => coef b grace i l m - static b grace n meanFile l m) l m -
    coef b gia 0 l m * (((grace.time.getD i 0 : ℚ) : ℝ) - 2003.3) -
    (removed.map fun h =>
      filt o (fun l m => compensated b o.ocean h (h.month.idxOf (grace.month.getD i 0)) l m) l m).sum

/-- the truncated spherical harmonic series at a point: degrees `LMIN..LMAX`, orders up to the degree and up to `M`, with degree
dependent factors `f`; `x`, `u` are cosine and sine of the colatitude -/
noncomputable def series (LMIN LMAX M : ℕ) (f : ℕ → ℝ) (C S : ℕ → ℕ → ℝ) (x u phi : ℝ) : ℝ :=
  ∑ l ∈ Finset.Icc LMIN LMAX, ∑ m ∈ Finset.range (min l M + 1),
    f l * Plm l m x u * (C l m * Real.cos (m * phi) + S l m * Real.sin (m * phi))

/-- the degrees of the data agree with the options, every month has a date and a field -/
structure Data (o : Opts) (grace : Harm ℝ) (n : ℕ) : Prop where
  lmax : grace.lmax = o.LMAX
  mmax : grace.mmax = o.order
  nt : grace.nt = some n
  wf : grace.WF
  months : grace.month.Pairwise (· < ·)

/-- a series of fields to be removed which has all months of the data -/
structure Covers (grace h : Harm ℝ) : Prop where
  nt : ∃ k, h.nt = some k
  wf : h.WF
  months : h.month.Pairwise (· < ·)
  all : ∀ g ∈ grace.month, g ∈ h.month

end Verif.Maps
