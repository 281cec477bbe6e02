import Verif.DegreeOne.Examples

/-!
# C74: the geocenter inversion with sea level fingerprints
-/
namespace Verif.DegreeOne
open Verif.Legendre Verif.Synthesis Verif.Units Verif.Analysis Finset

/-- Specification: the mass on land of a month with degree one coefficients `x` -/
noncomputable def landMass (s : Setup) (d : Month) (x : V3) (k i : ℕ) : ℝ :=
  open Classical in
  if 1 ≤ s.g.mask i k ∧ s.g.mask i k ≤ 3 then massField s.g s.E s.kl s.wt 1 s.LMAX s.MMAX (monthField d x) k i else 0

/-- Specification: a map of fields on the grid that does not look at the poles (which have no area) nor outside the grid -/
def OnGrid (g : Grid) (f : (ℕ → ℕ → ℝ) → Option (ℕ → ℕ → ℝ)) : Prop :=
  ∀ F H : ℕ → ℕ → ℝ, (∀ k < g.nlon, ∀ i < g.nlat, -90 < g.lat i → g.lat i < 90 → F k i = H k i) → f F = f H

/-- Specification: `D` are the degree one coefficients of mass for which the mass over the ocean has the degree one
coefficients of the sea level field `H` -/
def SeaLevelBalance (s : Setup) (d : Month) (obp x D : V3) (H : ℕ → ℕ → ℝ) : Prop :=
  ∀ r, oceanCoef s.g r (fun k i => degOneField s.g D k i +
      massField s.g s.E s.kl s.wt 2 s.LMAX s.MMAX (monthField d x) k i) =
    oceanCoef s.g r H + obp r

theorem system_iff {s : Setup} (h : Facts s) (ho : OceanSpans s.g) (d : Month) (x D b : V3) :
    (∀ r, oceanCoef s.g r (fun k i => degOneField s.g D k i +
        massField s.g s.E s.kl s.wt 2 s.LMAX s.MMAX (monthField d x) k i) = b r) ↔
      D = (imat s)⁻¹.mulVec fun j => b j - gmat s d j := by
  have hu : IsUnit (imat s).det := isUnit_iff_ne_zero.2 (det_ne h ho)
  have key : (∀ r, oceanCoef s.g r (fun k i => degOneField s.g D k i +
        massField s.g s.E s.kl s.wt 2 s.LMAX s.MMAX (monthField d x) k i) = b r) ↔
      (imat s).mulVec D = fun j => b j - gmat s d j := by
    rw [funext_iff]
    apply forall_congr'; intro r
    rw [oceanCoef_eq h r _ (fun k i => Alg.comb (Yc s) D (k, i) + gridMass s 2 (total d x) k i)
      (fun k i h1 h2 => by rw [comb_Y h D k i h1 h2, gridMass_eq h 2 (by omega) _ k i h1 h2]; rfl)]
    have e1 : Alg.Q (cells s.g) (wgt s.g) (Yc s r) (fun p => Alg.comb (Yc s) D (p.1, p.2) + gridMass s 2 (total d x) p.1 p.2) =
        (imat s).mulVec D r + gmat s d r := by
      rw [imat_eq, Alg.gram_mulVec]
      unfold gmat
      rw [project_eq, gridMass_two d x]
      unfold Alg.Q
      rw [← sum_add_distrib]
      apply sum_congr rfl; intro p _
      ring
    rw [e1]
    constructor <;> intro e <;> linarith
  rw [key]
  constructor
  · intro e
    rw [← e, Matrix.mulVec_mulVec, Matrix.nonsing_inv_mul _ hu, Matrix.one_mulVec]
  · intro e
    rw [e, Matrix.mulVec_mulVec, Matrix.mul_nonsing_inv _ hu, Matrix.one_mulVec]

/-- **C74.** One pass with sea level fingerprints solves, for every month and uniquely, the balance between the degree one
mass over the ocean and the sea level that the fingerprint gives for the mass on land -/
theorem pass_fingerprint (s : Setup) (h : Prepared s) (ho : OceanSpans s.g) (f : (ℕ → ℕ → ℝ) → Option (ℕ → ℕ → ℝ))
    (hf : OnGrid s.g f) (useObp : Bool) (n : ℕ) (d : ℕ → Month) (x : ℕ → V3) (H : ℕ → ℕ → ℕ → ℝ)
    (hH : ∀ t < n, f (landMass s (d t) (x t)) = some (H t))
    (hland : ∀ t < n, ∀ k i, 1 ≤ s.g.mask i k ∧ s.g.mask i k ≤ 3 → H t k i = 0) :
    ∃ D y, onePass s (.fingerprint f) .inv useObp n d x = some (D, y) ∧
      (∀ t < n, ∀ v, SeaLevelBalance s (d t) (obpTerm useObp (d t)) (x t) v (H t) ↔ v = D t) ∧
      (∀ t j, t < n → y t j = D t j / massFactor s.E s.kl 1 + deg1 (d t).gia j + deg1 (d t).atm j -
        (∑ u ∈ range n, (D u j / massFactor s.E s.kl 1 + deg1 (d u).gia j + deg1 (d u).atm j)) / n) := by
  have fc := h.facts
  have hd := det_ne fc ho
  have hdm : ∀ t < n, dmat s (.fingerprint f) .inv useObp (d t) (x t) = some ((imat s)⁻¹.mulVec fun j =>
      (oceanCoef s.g j (H t) + obpTerm useObp (d t) j) - gmat s (d t) j) := by
    intro t ht
    have e : f (fun k i => gridMass s 1 (subC (subC (setDeg1 (d t).gsm (x t)) (d t).gia) (d t).atm) k i * land s.g k i) =
        some (H t) := by
      rw [← hH t ht]
      apply hf
      intro k _ i _ h1 h2
      unfold landMass
      rw [gridMass_eq fc 1 le_rfl _ k i h1 h2]
      unfold land
      by_cases hm : 1 ≤ s.g.mask i k ∧ s.g.mask i k ≤ 3
      · rw [if_pos hm, if_pos hm, mul_one]; rfl
      · rw [if_neg hm, if_neg hm, mul_zero]
    obtain ⟨r, c0, hr, -, -, -, h1⟩ := stokes1_eq fc (H t)
    unfold dmat eustatic
    simp only [e, hr, Option.bind_eq_bind, Option.bind_some]
    unfold solve
    dsimp only
    rw [if_neg hd]
    congr 2
    funext j
    have e2 : deg1 r j * dfac s 1 = oceanCoef s.g j (H t) := by
      rw [h1]
      unfold oceanCoef
      rw [oceanInt_eq]
      apply gridInt_interior fc
      intro k i h1 h2
      rw [Y_eq fc j k i h1 h2]
      unfold ocean land
      by_cases hm : 1 ≤ s.g.mask i k ∧ s.g.mask i k ≤ 3
      · rw [if_pos hm, hland t ht k i hm]; ring
      · rw [if_neg hm]; ring
    unfold obpTerm
    cases useObp <;> simp [e2]
  have hall : ∀ t < n, (dmat s (.fingerprint f) .inv useObp (d t) (x t)).isSome := fun t ht => by rw [hdm t ht]; rfl
  refine ⟨fun t => (dmat s (.fingerprint f) .inv useObp (d t) (x t)).getD default, _, by
    unfold onePass allMonths; rw [if_pos hall]; rfl, fun t ht v => ?_, fun t j ht => ?_⟩
  · dsimp only
    rw [hdm t ht, Option.getD_some]
    exact system_iff fc ho (d t) (x t) v fun j => oceanCoef s.g j (H t) + obpTerm useObp (d t) j
  · unfold centre restore
    rw [dfac_eq]

/-- the uniform layer is the fingerprint that is constant over the ocean -/
theorem uniform_is_fingerprint (s : Setup) (d : Month) (obp x D : V3) (w : ℝ)
    (hw : w * oceanInt s.g (fun _ _ => 1) + landInt s.g (massField s.g s.E s.kl s.wt 1 s.LMAX s.MMAX (monthField d x)) = 0)
    (h : SeaLevelBalance s d obp x D fun _ _ => w) : OceanBalance s d obp x D := ⟨w, hw, h⟩

/-- the hypotheses are met: a usable grid, and a sea level field over its ocean that depends on the mass on land -/
example (d : ℕ → Month) (x : ℕ → V3) : ∃ (s : Setup) (f : (ℕ → ℕ → ℝ) → Option (ℕ → ℕ → ℝ)) (H : ℕ → ℕ → ℕ → ℝ),
    Prepared s ∧ OceanSpans s.g ∧ OnGrid s.g f ∧ (∀ t, f (landMass s (d t) (x t)) = some (H t)) ∧
    (∀ t k i, 1 ≤ s.g.mask i k ∧ s.g.mask i k ≤ 3 → H t k i = 0) ∧ ∀ t, H t 0 0 = landMass s (d t) (x t) 0 2 := by
  classical
  obtain ⟨s, -, hp, hg, -⟩ := setup_succeeds coarse Earth.default 0 1 one_ne_zero (fun _ => 0) (fun _ => 0)
    (fun _ => 0) 60 (by norm_num) none 60 le_rfl 300 (by norm_num) (by norm_num) coarse_usable
  have h2 : OceanFull s.g := by rw [hg]; exact coarse_full
  refine ⟨s, fun F => some fun k i => if 1 ≤ s.g.mask i k ∧ s.g.mask i k ≤ 3 then 0 else F 0 2,
    fun t k i => if 1 ≤ s.g.mask i k ∧ s.g.mask i k ≤ 3 then 0 else landMass s (d t) (x t) 0 2, hp,
    fun x hx => (h2 x 0 hx).1, ?_, fun t => rfl, fun t k i hm => if_pos hm, fun t => ?_⟩
  · intro F H e
    have : F 0 2 = H 0 2 := by
      apply e <;> rw [hg] <;> unfold coarse <;> norm_num
    dsimp only
    rw [this]
  · dsimp only
    rw [if_neg]
    rw [hg]; unfold coarse; norm_num

end Verif.DegreeOne
