import Verif.Analysis.Model
import Verif.Analysis.Trig
import Verif.Units.Props
import Verif.Synthesis.Summation
import Verif.Legendre.Single

/-!
# Properties C37 and C64: from grids and point masses to spherical harmonics
-/
namespace Verif.Analysis
open Verif.Legendre Verif.Synthesis Verif.Units

/-- Specification: numerical integral over the grid, one term per cell:
`sum_{i,j} f(m phi_i) p(l,m,theta_j) data(i,j) w_j` -/
noncomputable def cellSum (nlon nlat : ℕ) (f : ℝ → ℝ) (p : ℕ → ℝ) (w phi : ℕ → ℝ) (d : ℕ → ℕ → ℝ) (m : ℕ) : ℝ :=
  ∑ i ∈ Finset.range nlon, ∑ j ∈ Finset.range nlat, f (m * phi i) * p j * d i j * w j

theorem gridCoeff_eq (LMIN LMAX MMAX nlon nlat : ℕ) (f : ℝ → ℝ) (p : ℕ → ℕ → ℕ → ℝ) (w phi df : ℕ → ℝ)
    (d : ℕ → ℕ → ℝ) (l m : ℕ) :
    gridCoeff LMIN LMAX MMAX nlon nlat f p w phi df d l m =
      if LMIN ≤ l ∧ l ≤ LMAX ∧ m ≤ min MMAX l then df l * cellSum nlon nlat f (p l m) w phi d m else 0 := by
  unfold gridCoeff cellSum
  split_ifs
  · congr 1
    rw [sum_map_range, Finset.sum_comm]
    apply Finset.sum_congr rfl; intro j _
    rw [sum_map_range, Finset.mul_sum]
    apply Finset.sum_congr rfl; intro i _
    ring
  · rfl

/-- the data as the code sees them: longitude first -/
def lonLat (nlat : ℕ) (d : Mat) : ℕ → ℕ → ℝ := (orient nlat d).v

/-- the grid can be used: at least two longitudes and latitudes, data of matching shape -/
def GridOk (d : Mat) (nlon nlat : ℕ) : Prop :=
  2 ≤ nlon ∧ 2 ≤ nlat ∧ (orient nlat d).rows = nlon ∧ (orient nlat d).cols = nlat

theorem gridOk_latlon (nlon nlat : ℕ) (v : ℕ → ℕ → ℝ) (h1 : 2 ≤ nlon) (h2 : 2 ≤ nlat) :
    GridOk ⟨nlat, nlon, v⟩ nlon nlat ∧ lonLat nlat ⟨nlat, nlon, v⟩ = fun i j => v j i := by
  refine ⟨⟨h1, h2, ?_, ?_⟩, ?_⟩ <;> simp [orient, lonLat]

theorem gridOk_lonlat (nlon nlat : ℕ) (v : ℕ → ℕ → ℝ) (h1 : 2 ≤ nlon) (h2 : 2 ≤ nlat) (hne : nlon ≠ nlat) :
    GridOk ⟨nlon, nlat, v⟩ nlon nlat ∧ lonLat nlat ⟨nlon, nlat, v⟩ = v := by
  refine ⟨⟨h1, h2, ?_, ?_⟩, ?_⟩ <;> simp [orient, lonLat, hne]

/-- the true associated Legendre functions at latitude index `j` -/
noncomputable def trueP (lat : ℕ → ℝ) (l m j : ℕ) : ℝ :=
  Plm l m (Real.cos (colat (lat j))) (Real.sin (colat (lat j)))

theorem plmAll_interior (eps scalef : ℝ) (hs : scalef ≠ 0) (LMAX MMAX : ℕ) (hL : 2 ≤ LMAX) (hM : MMAX ≤ LMAX)
    (lat : ℕ → ℝ) :
    ∃ p, plmAll eps scalef LMAX MMAX lat none = some p ∧
      ∀ l m j, l ≤ LMAX → -90 < lat j → lat j < 90 → p l m j = trueP lat l m j := by
  refine ⟨_, by unfold plmAll; rw [if_neg (by omega)], ?_⟩
  intro l m j hl h1 h2
  obtain ⟨q, hq, hv⟩ := usePLM_interior eps scalef hs LMAX hL (lat j) h1 h2
  unfold usePLM at hq
  simp only at hq
  unfold trueP colat
  rw [← hv l hl m]
  rw [Option.map_eq_some_iff] at hq
  obtain ⟨s, hs, rfl⟩ := hq
  rw [hs]; rfl

/-- weights of the modelled units -/
noncomputable def areaWeight (lon lat : ℕ → ℝ) (j : ℕ) : ℝ := Real.sin (colat (lat j)) * stepRad lon * stepRad lat

/-- Specification of the units table of gen_stokes: degree factor and cell weight -/
def StokesSpec (E : Earth) (u : UnitArg) (kl : ℕ → ℝ) (lon lat : ℕ → ℝ) (df w : ℕ → ℝ) : Prop :=
  (∃ f, u = .custom f ∧ df = f ∧ w = areaWeight lon lat) ∨
  (u = .code 1 ∧ (spatial E true kl {}).cmwe = some df ∧ w = areaWeight lon lat) ∨
  (u = .code 2 ∧ (spatial E true kl {}).cmwe = some df ∧ w = fun _ => 1e15 / rad_e E ^ 2) ∨
  (u = .code 3 ∧ (spatial E true kl {}).mmwe = some df ∧ w = areaWeight lon lat)

theorem stokesFactors_spec (E : Earth) (u : UnitArg) (kl : ℕ → ℝ) (lon lat : ℕ → ℝ) (df w : ℕ → ℝ)
    (h : StokesSpec E u kl lon lat df w) :
    stokesFactors E u kl (stepRad lon) (stepRad lat) (fun j => colat (lat j)) = some (df, w) := by
  rcases h with ⟨f, rfl, rfl, rfl⟩ | ⟨rfl, h, rfl⟩ | ⟨rfl, h, rfl⟩ | ⟨rfl, h, rfl⟩
  · rfl
  · unfold stokesFactors; simp only [if_true]; rw [h]; rfl
  · unfold stokesFactors; dsimp only; rw [if_neg (by decide), if_pos rfl, h]; rfl
  · unfold stokesFactors; dsimp only; rw [if_neg (by decide), if_neg (by decide), if_pos rfl, h]; rfl

/-- C37: unknown unit codes are rejected -/
theorem genStokes_unknown (E : Earth) (eps scalef : ℝ) (d : Mat) (nlon nlat : ℕ) (lon lat : ℕ → ℝ)
    (LMIN LMAX : ℕ) (MMAX : Option ℕ) (n : ℤ) (h : n ≠ 1 ∧ n ≠ 2 ∧ n ≠ 3) (PLM : Option (ℕ → ℕ → ℕ → ℝ))
    (kl : ℕ → ℝ) : genStokes E eps scalef d nlon nlat lon lat LMIN LMAX MMAX (.code n) PLM kl = none := by
  unfold genStokes
  have : ∀ a b t, stokesFactors E (.code n) kl a b t = none := by
    intro a b t; unfold stokesFactors; dsimp only; rw [if_neg h.1, if_neg h.2.1, if_neg h.2.2]
  simp only [this]
  split_ifs <;> rfl

/-- what the result of `gen_stokes` is for given functions, whatever they are -/
theorem genStokes_closed (E : Earth) (eps scalef : ℝ) (d : Mat) (nlon nlat : ℕ) (lon lat : ℕ → ℝ)
    (LMIN LMAX : ℕ) (MMAX : Option ℕ) (u : UnitArg) (PLM : Option (ℕ → ℕ → ℕ → ℝ)) (kl df w : ℕ → ℝ)
    (p : ℕ → ℕ → ℕ → ℝ) (hg : GridOk d nlon nlat) (hu : StokesSpec E u kl lon lat df w)
    (hp : plmAll eps scalef LMAX (MMAX.getD LMAX) lat PLM = some p) :
    genStokes E eps scalef d nlon nlat lon lat LMIN LMAX MMAX u PLM kl = some
      ⟨gridCoeff LMIN LMAX (MMAX.getD LMAX) nlon nlat Real.cos p w (phiRad lon) df (lonLat nlat d),
       gridCoeff LMIN LMAX (MMAX.getD LMAX) nlon nlat Real.sin p w (phiRad lon) df (lonLat nlat d)⟩ := by
  obtain ⟨h1, h2, h3, h4⟩ := hg
  unfold genStokes
  simp only
  rw [if_neg (by omega), if_neg (by simp [h3, h4]), stokesFactors_spec E u kl lon lat df w hu, hp]
  rfl

/-- C37: `gen_stokes` is the cell-by-cell numerical integral against the true associated Legendre
functions, truncated to `LMIN <= l <= LMAX`, `m <= min(l, MMAX)`; latitudes at a pole are allowed when
their weight vanishes, as it does for all units but gigatonnes -/
theorem genStokes_correct (E : Earth) (eps scalef : ℝ) (hs : scalef ≠ 0) (d : Mat) (nlon nlat : ℕ)
    (lon lat : ℕ → ℝ) (LMIN LMAX : ℕ) (hL : 2 ≤ LMAX) (MMAX : Option ℕ) (hM : MMAX.getD LMAX ≤ LMAX)
    (u : UnitArg) (kl df w : ℕ → ℝ) (hg : GridOk d nlon nlat) (hu : StokesSpec E u kl lon lat df w)
    (hlat : ∀ j < nlat, (-90 < lat j ∧ lat j < 90) ∨ w j = 0) :
    ∃ r, genStokes E eps scalef d nlon nlat lon lat LMIN LMAX MMAX u none kl = some r ∧ ∀ l m,
      (LMIN ≤ l ∧ l ≤ LMAX ∧ m ≤ l ∧ m ≤ MMAX.getD LMAX →
        r.clm l m = df l * cellSum nlon nlat Real.cos (trueP lat l m) w (phiRad lon) (lonLat nlat d) m ∧
        r.slm l m = df l * cellSum nlon nlat Real.sin (trueP lat l m) w (phiRad lon) (lonLat nlat d) m) ∧
      (¬ (LMIN ≤ l ∧ l ≤ LMAX ∧ m ≤ l ∧ m ≤ MMAX.getD LMAX) → r.clm l m = 0 ∧ r.slm l m = 0) := by
  obtain ⟨p, hp, hv⟩ := plmAll_interior eps scalef hs LMAX _ hL hM lat
  refine ⟨_, genStokes_closed E eps scalef d nlon nlat lon lat LMIN LMAX MMAX u none kl df w p hg hu hp, ?_⟩
  intro l m
  have key : ∀ f : ℝ → ℝ, l ≤ LMAX → cellSum nlon nlat f (p l m) w (phiRad lon) (lonLat nlat d) m =
      cellSum nlon nlat f (trueP lat l m) w (phiRad lon) (lonLat nlat d) m := by
    intro f hl
    unfold cellSum
    apply Finset.sum_congr rfl; intro i _
    apply Finset.sum_congr rfl; intro j hj
    rcases hlat j (Finset.mem_range.1 hj) with h | h
    · rw [hv l m j hl h.1 h.2]
    · rw [h]; ring
  refine ⟨fun h => ?_, fun h => ?_⟩
  · have hc : LMIN ≤ l ∧ l ≤ LMAX ∧ m ≤ min (MMAX.getD LMAX) l := ⟨h.1, h.2.1, by omega⟩
    simp only [gridCoeff_eq]
    rw [if_pos hc, if_pos hc, key _ h.2.1, key _ h.2.1]
    exact ⟨rfl, rfl⟩
  · have hc : ¬ (LMIN ≤ l ∧ l ≤ LMAX ∧ m ≤ min (MMAX.getD LMAX) l) := fun hc => h ⟨hc.1, hc.2.1, by omega, by omega⟩
    simp only [gridCoeff_eq]
    rw [if_neg hc, if_neg hc]
    exact ⟨rfl, rfl⟩

/-- the hypotheses are met by a global 1-degree grid (latitudes -90..90) in cm water equivalent -/
example (v : ℕ → ℕ → ℝ) (kl : ℕ → ℝ) :
    GridOk ⟨181, 361, v⟩ 361 181 ∧
    ∃ df w, StokesSpec Earth.default (.code 1) kl (fun i => i) (fun j => (j : ℝ) - 90) df w ∧
      ∀ j : ℕ, j < 181 → (-90 < (j : ℝ) - 90 ∧ (j : ℝ) - 90 < 90) ∨ w j = 0 := by
  refine ⟨(gridOk_latlon 361 181 v (by norm_num) (by norm_num)).1, _, _, Or.inr (Or.inl ⟨rfl, rfl, rfl⟩), ?_⟩
  intro j hj
  rcases Nat.eq_zero_or_pos j with h0 | h0
  · right; subst h0; unfold areaWeight colat; norm_num
  · rcases Nat.lt_or_ge j 180 with h1 | h1
    · left
      have a : (0 : ℝ) < j := by exact_mod_cast h0
      have b : (j : ℝ) < 180 := by exact_mod_cast h1
      constructor <;> linarith
    · right
      have : j = 180 := by omega
      subst this; unfold areaWeight colat; norm_num

/-- a linear combination of two arrays of the same shape -/
def Mat.lin (a b : ℝ) (d e : Mat) : Mat := ⟨d.rows, d.cols, fun i j => a * d.v i j + b * e.v i j⟩

theorem lonLat_lin (nlat : ℕ) (a b : ℝ) (d e : Mat) (h : d.rows = e.rows) :
    lonLat nlat (Mat.lin a b d e) = fun i j => a * lonLat nlat d i j + b * lonLat nlat e i j := by
  unfold lonLat orient Mat.lin
  by_cases h1 : d.rows = nlat
  · simp [h1, ← h]
  · simp [h1, ← h]

theorem gridCoeff_lin (LMIN LMAX MMAX nlon nlat : ℕ) (f : ℝ → ℝ) (p : ℕ → ℕ → ℕ → ℝ) (w phi df : ℕ → ℝ)
    (a b : ℝ) (d e : ℕ → ℕ → ℝ) (l m : ℕ) :
    gridCoeff LMIN LMAX MMAX nlon nlat f p w phi df (fun i j => a * d i j + b * e i j) l m =
      a * gridCoeff LMIN LMAX MMAX nlon nlat f p w phi df d l m +
        b * gridCoeff LMIN LMAX MMAX nlon nlat f p w phi df e l m := by
  simp only [gridCoeff_eq]
  split_ifs
  · unfold cellSum
    simp only [Finset.mul_sum, ← Finset.sum_add_distrib]
    apply Finset.sum_congr rfl; intro i _
    apply Finset.sum_congr rfl; intro j _
    ring
  · ring

/-- C37: `gen_stokes` is linear in the data, for every unit and whatever Legendre functions are used -/
theorem genStokes_linear (E : Earth) (eps scalef : ℝ) (d e : Mat) (hr : d.rows = e.rows)
    (nlon nlat : ℕ) (lon lat : ℕ → ℝ) (LMIN LMAX : ℕ) (MMAX : Option ℕ) (u : UnitArg)
    (PLM : Option (ℕ → ℕ → ℕ → ℝ)) (kl : ℕ → ℝ) (a b : ℝ) (r s : CSlm)
    (h1 : genStokes E eps scalef d nlon nlat lon lat LMIN LMAX MMAX u PLM kl = some r)
    (h2 : genStokes E eps scalef e nlon nlat lon lat LMIN LMAX MMAX u PLM kl = some s) :
    ∃ t, genStokes E eps scalef (Mat.lin a b d e) nlon nlat lon lat LMIN LMAX MMAX u PLM kl = some t ∧
      ∀ l m, t.clm l m = a * r.clm l m + b * s.clm l m ∧ t.slm l m = a * r.slm l m + b * s.slm l m := by
  have ho := lonLat_lin nlat a b d e hr
  have hrr : (orient nlat (Mat.lin a b d e)).rows = (orient nlat d).rows ∧
      (orient nlat (Mat.lin a b d e)).cols = (orient nlat d).cols := by
    unfold orient Mat.lin
    by_cases h : d.rows = nlat <;> simp [h]
  unfold genStokes at *
  simp only [hrr.1, hrr.2] at *
  by_cases c1 : nlon < 2 ∨ nlat < 2
  · rw [if_pos c1] at h1; cases h1
  rw [if_neg c1] at h1 h2 ⊢
  by_cases c2 : (orient nlat d).rows ≠ nlon ∨ (orient nlat d).cols ≠ nlat
  · rw [if_pos c2] at h1; cases h1
  rw [if_neg c2] at h1 ⊢
  by_cases c3 : (orient nlat e).rows ≠ nlon ∨ (orient nlat e).cols ≠ nlat
  · rw [if_pos c3] at h2; cases h2
  rw [if_neg c3] at h2
  split at h1
  · rename_i df w p hw hp
    rw [hw, hp] at h2
    simp only [Option.some.injEq] at h1 h2
    subst h1; subst h2
    refine ⟨_, rfl, fun l m => ?_⟩
    unfold lonLat at ho
    simp only [ho, gridCoeff_lin]
    exact ⟨trivial, trivial⟩
  · cases h1

/-- C37: no data, no harmonics -/
theorem genStokes_zero (E : Earth) (eps scalef : ℝ) (d : Mat) (h0 : ∀ i j, d.v i j = 0) (nlon nlat : ℕ)
    (lon lat : ℕ → ℝ) (LMIN LMAX : ℕ) (MMAX : Option ℕ) (u : UnitArg) (PLM : Option (ℕ → ℕ → ℕ → ℝ))
    (kl : ℕ → ℝ) (r : CSlm)
    (h : genStokes E eps scalef d nlon nlat lon lat LMIN LMAX MMAX u PLM kl = some r) (l m : ℕ) :
    r.clm l m = 0 ∧ r.slm l m = 0 := by
  obtain ⟨t, ht, hv⟩ := genStokes_linear E eps scalef d d rfl nlon nlat lon lat LMIN LMAX MMAX u PLM kl 2 0 r r h h
  have : Mat.lin 2 0 d d = d := by
    unfold Mat.lin; cases d; simp only [Mat.mk.injEq, true_and]; funext i j; simp only at h0; rw [h0]; ring
  rw [this, h, Option.some.injEq] at ht
  subst ht
  have := hv l m
  constructor
  · linarith [this.1]
  · linarith [this.2]

theorem phiRad_shift (lon : ℕ → ℝ) (k : ℕ → ℤ) (i m : ℕ) (f : ℝ → ℝ) (hf : f = Real.cos ∨ f = Real.sin) :
    f (m * phiRad (fun i => lon i + 360 * k i) i) = f (m * phiRad lon i) := by
  have : ∃ n : ℤ, phiRad (fun i => lon i + 360 * k i) i = phiRad lon i + n * (2 * Real.pi) := by
    unfold phiRad
    by_cases h1 : lon i + 360 * k i < 0
    · by_cases h2 : lon i < 0
      · refine ⟨k i, ?_⟩; rw [if_pos h1, if_pos h2]; ring
      · refine ⟨k i + 1, ?_⟩; rw [if_pos h1, if_neg h2]; push_cast; ring
    · by_cases h2 : lon i < 0
      · refine ⟨k i - 1, ?_⟩; rw [if_neg h1, if_pos h2]; push_cast; ring
      · refine ⟨k i, ?_⟩; rw [if_neg h1, if_neg h2]; ring
  obtain ⟨n, hn⟩ := this
  rw [hn]
  rcases hf with rfl | rfl
  · exact cos_shift m _ n
  · exact sin_shift m _ n

theorem gridCoeff_phi (LMIN LMAX MMAX nlon nlat : ℕ) (f : ℝ → ℝ) (p : ℕ → ℕ → ℕ → ℝ) (w phi phi' df : ℕ → ℝ)
    (d : ℕ → ℕ → ℝ) (h : ∀ i m : ℕ, f (m * phi' i) = f (m * phi i)) :
    gridCoeff LMIN LMAX MMAX nlon nlat f p w phi' df d = gridCoeff LMIN LMAX MMAX nlon nlat f p w phi df d := by
  funext l m; unfold gridCoeff; simp only [h]

/-- C37: adding multiples of 360 degrees to longitudes changes nothing, provided the first two get the
same multiple (the code takes the step from them); so -180..180 and 0..360 conventions agree when the
seam is not between the first two longitudes -/
theorem genStokes_periodic (E : Earth) (eps scalef : ℝ) (d : Mat) (nlon nlat : ℕ) (lon lat : ℕ → ℝ) (k : ℕ → ℤ)
    (hk : k 0 = k 1) (LMIN LMAX : ℕ) (MMAX : Option ℕ) (u : UnitArg) (PLM : Option (ℕ → ℕ → ℕ → ℝ)) (kl : ℕ → ℝ) :
    genStokes E eps scalef d nlon nlat (fun i => lon i + 360 * k i) lat LMIN LMAX MMAX u PLM kl =
      genStokes E eps scalef d nlon nlat lon lat LMIN LMAX MMAX u PLM kl := by
  have hstep : stepRad (fun i => lon i + 360 * k i) = stepRad lon := by
    unfold stepRad; dsimp only; rw [hk]; congr 3; ring
  unfold genStokes
  simp only [hstep]
  have hc := fun LMIN LMAX M p w df => gridCoeff_phi LMIN LMAX M nlon nlat Real.cos p w (phiRad lon)
    (phiRad fun i => lon i + 360 * k i) df (orient nlat d).v (fun i m => phiRad_shift lon k i m _ (Or.inl rfl))
  have hs := fun LMIN LMAX M p w df => gridCoeff_phi LMIN LMAX M nlon nlat Real.sin p w (phiRad lon)
    (phiRad fun i => lon i + 360 * k i) df (orient nlat d).v (fun i m => phiRad_shift lon k i m _ (Or.inr rfl))
  simp only [hc, hs]

theorem gridCoeff_weight (LMIN LMAX MMAX nlon nlat : ℕ) (f : ℝ → ℝ) (p : ℕ → ℕ → ℕ → ℝ) (w phi df : ℕ → ℝ)
    (d : ℕ → ℕ → ℝ) (a : ℝ) (l m : ℕ) :
    gridCoeff LMIN LMAX MMAX nlon nlat f p (fun j => a * w j) phi df d l m =
      a * gridCoeff LMIN LMAX MMAX nlon nlat f p w phi df d l m := by
  simp only [gridCoeff_eq]
  split_ifs
  · unfold cellSum
    simp only [Finset.mul_sum]
    apply Finset.sum_congr rfl; intro i _
    apply Finset.sum_congr rfl; intro j _
    ring
  · ring

/-- C37, the limit of the previous statement: when the seam lies between the first two longitudes the
integral is scaled by the ratio of the apparent steps, e.g. 359 instead of 1 for longitudes 359, 0, 1, ... -/
theorem genStokes_seam (E : Earth) (eps scalef : ℝ) (d : Mat) (nlon nlat : ℕ) (lon lat : ℕ → ℝ) (k : ℕ → ℤ)
    (hstep : lon 1 - lon 0 = 1) (h0 : k 0 = 0) (h1 : k 1 = -1) (LMIN LMAX : ℕ) (MMAX : Option ℕ)
    (f : ℕ → ℝ) (PLM : Option (ℕ → ℕ → ℕ → ℝ)) (kl : ℕ → ℝ) (r : CSlm)
    (h : genStokes E eps scalef d nlon nlat lon lat LMIN LMAX MMAX (.custom f) PLM kl = some r) :
    ∃ t, genStokes E eps scalef d nlon nlat (fun i => lon i + 360 * k i) lat LMIN LMAX MMAX (.custom f) PLM kl = some t ∧
      ∀ l m, t.clm l m = 359 * r.clm l m ∧ t.slm l m = 359 * r.slm l m := by
  have hs : stepRad (fun i => lon i + 360 * k i) = 359 * stepRad lon := by
    unfold stepRad
    dsimp only
    rw [h0, h1]
    rw [show lon 1 + 360 * ((-1 : ℤ) : ℝ) - (lon 0 + 360 * ((0 : ℤ) : ℝ)) = (lon 1 - lon 0) - 360 by push_cast; ring,
      hstep]
    norm_num
    ring
  unfold genStokes stokesFactors at *
  by_cases c1 : nlon < 2 ∨ nlat < 2
  · simp only at h; rw [if_pos c1] at h; cases h
  simp only at h ⊢
  rw [if_neg c1] at h ⊢
  by_cases c2 : (orient nlat d).rows ≠ nlon ∨ (orient nlat d).cols ≠ nlat
  · rw [if_pos c2] at h; cases h
  rw [if_neg c2] at h ⊢
  cases hp : plmAll eps scalef LMAX (MMAX.getD LMAX) lat PLM with
  | none => rw [hp] at h; cases h
  | some p =>
    rw [hp] at h
    simp only [Option.some.injEq] at h
    subst h
    refine ⟨_, rfl, fun l m => ?_⟩
    have hc := gridCoeff_phi LMIN LMAX (MMAX.getD LMAX) nlon nlat Real.cos p
      (fun j => Real.sin (colat (lat j)) * stepRad lon * stepRad lat) (phiRad lon)
      (phiRad fun i => lon i + 360 * k i) f (orient nlat d).v (fun i m => phiRad_shift lon k i m _ (Or.inl rfl))
    have hsn := gridCoeff_phi LMIN LMAX (MMAX.getD LMAX) nlon nlat Real.sin p
      (fun j => Real.sin (colat (lat j)) * stepRad lon * stepRad lat) (phiRad lon)
      (phiRad fun i => lon i + 360 * k i) f (orient nlat d).v (fun i m => phiRad_shift lon k i m _ (Or.inr rfl))
    have hw : (fun j => Real.sin (colat (lat j)) * stepRad (fun i => lon i + 360 * k i) * stepRad lat) =
        fun j => 359 * (Real.sin (colat (lat j)) * stepRad lon * stepRad lat) := by
      funext j; rw [hs]; ring
    simp only [hw, gridCoeff_weight, hc, hsn]
    exact ⟨trivial, trivial⟩

/-- C37: a latitude by longitude array and its transpose give the same result unless the grid is
square -/
theorem genStokes_transpose (E : Earth) (eps scalef : ℝ) (v : ℕ → ℕ → ℝ) (nlon nlat : ℕ) (hne : nlon ≠ nlat)
    (lon lat : ℕ → ℝ) (LMIN LMAX : ℕ) (MMAX : Option ℕ) (u : UnitArg) (PLM : Option (ℕ → ℕ → ℕ → ℝ)) (kl : ℕ → ℝ) :
    genStokes E eps scalef ⟨nlat, nlon, v⟩ nlon nlat lon lat LMIN LMAX MMAX u PLM kl =
      genStokes E eps scalef ⟨nlon, nlat, fun i j => v j i⟩ nlon nlat lon lat LMIN LMAX MMAX u PLM kl := by
  have h1 : orient nlat ⟨nlat, nlon, v⟩ = ⟨nlon, nlat, fun i j => v j i⟩ := by simp [orient]
  have h2 : orient nlat ⟨nlon, nlat, fun i j => v j i⟩ = ⟨nlon, nlat, fun i j => v j i⟩ := by simp [orient, hne]
  unfold genStokes
  simp only [h1, h2]

/-- C37: a square grid is always read as latitude by longitude -/
theorem genStokes_square (n : ℕ) (v : ℕ → ℕ → ℝ) : lonLat n ⟨n, n, v⟩ = fun i j => v j i := by
  simp [lonLat, orient]

/-- C37: truncation. Coefficients computed to a smaller `LMAX` are those of the larger computation, for
degrees and orders both contain -/
theorem genStokes_truncate (E : Earth) (eps scalef : ℝ) (hs : scalef ≠ 0) (d : Mat) (nlon nlat : ℕ)
    (lon lat : ℕ → ℝ) (LMIN L L' : ℕ) (hL : 2 ≤ L) (hLL : L ≤ L') (u : UnitArg) (kl df w : ℕ → ℝ)
    (hg : GridOk d nlon nlat) (hu : StokesSpec E u kl lon lat df w)
    (hlat : ∀ j < nlat, (-90 < lat j ∧ lat j < 90) ∨ w j = 0) :
    ∃ r r', genStokes E eps scalef d nlon nlat lon lat LMIN L none u none kl = some r ∧
      genStokes E eps scalef d nlon nlat lon lat LMIN L' none u none kl = some r' ∧
      ∀ l m, l ≤ L → r.clm l m = r'.clm l m ∧ r.slm l m = r'.slm l m := by
  obtain ⟨r, h, hv⟩ := genStokes_correct E eps scalef hs d nlon nlat lon lat LMIN L hL none le_rfl u kl df w hg hu hlat
  obtain ⟨r', h', hv'⟩ := genStokes_correct E eps scalef hs d nlon nlat lon lat LMIN L' (by omega) none le_rfl u kl df w
    hg hu hlat
  refine ⟨r, r', h, h', fun l m hl => ?_⟩
  simp only [Option.getD_none] at hv hv'
  by_cases c : LMIN ≤ l ∧ m ≤ l
  · have a := (hv l m).1 ⟨c.1, hl, c.2, by omega⟩
    have b := (hv' l m).1 ⟨c.1, by omega, c.2, by omega⟩
    exact ⟨a.1.trans b.1.symm, a.2.trans b.2.symm⟩
  · have a := (hv l m).2 (fun h => c ⟨h.1, h.2.2.1⟩)
    have b := (hv' l m).2 (fun h => c ⟨h.1, h.2.2.1⟩)
    exact ⟨a.1.trans b.1.symm, a.2.trans b.2.symm⟩

/-- C37: `gen_harmonics` is `gen_stokes` from degree 0 with the 4-pi normalisation as custom unit -/
theorem genHarmonics_eq (E : Earth) (eps scalef : ℝ) (d : Mat) (nlon nlat : ℕ) (lon lat : ℕ → ℝ) (LMAX : ℕ)
    (MMAX : Option ℕ) (PLM : Option (ℕ → ℕ → ℕ → ℝ)) (kl : ℕ → ℝ) :
    genHarmonics eps scalef d nlon nlat lon lat LMAX MMAX PLM =
      genStokes E eps scalef d nlon nlat lon lat 0 LMAX MMAX (.custom fun _ => 1 / (4 * Real.pi)) PLM kl := by
  unfold genHarmonics genStokes stokesFactors
  simp only
  split_ifs
  · rfl
  · rfl
  · cases plmAll eps scalef LMAX (MMAX.getD LMAX) lat PLM <;> rfl

/-- C37: without supplied Legendre functions degree bounds below 2, and more orders than degrees, raise -/
theorem genStokes_bounds_raise (E : Earth) (eps scalef : ℝ) (d : Mat) (nlon nlat : ℕ) (lon lat : ℕ → ℝ)
    (LMIN LMAX : ℕ) (MMAX : Option ℕ) (u : UnitArg) (kl : ℕ → ℝ) (h : LMAX < 2 ∨ LMAX < MMAX.getD LMAX) :
    genStokes E eps scalef d nlon nlat lon lat LMIN LMAX MMAX u none kl = none ∧
    genHarmonics eps scalef d nlon nlat lon lat LMAX MMAX none = none := by
  have hp : plmAll eps scalef LMAX (MMAX.getD LMAX) lat none = none := if_pos h
  constructor
  · unfold genStokes
    dsimp only
    rw [hp]
    split_ifs
    · rfl
    · rfl
    · cases stokesFactors E u kl (stepRad lon) (stepRad lat) (fun j => colat (lat j)) <;> rfl
  · unfold genHarmonics
    dsimp only
    rw [hp]
    split_ifs <;> rfl

end Verif.Analysis
