import Verif.DegreeOne.Bridge
import Verif.Synthesis.Gauss

/-!
# One pass of the geocenter iteration (helper lemmas for C74)
-/
namespace Verif.DegreeOne
open Verif.Legendre Verif.Synthesis Verif.Units Verif.Analysis Finset

variable {s : Setup}

/-- moments of the ocean -/
noncomputable abbrev mo (s : Setup) : V3 := Alg.mom (cells s.g) (wgt s.g) (Yc s)
/-- projection of the constant -/
noncomputable abbrev pj (s : Setup) : V3 := Alg.pr (cells s.g) (wgt s.g) (Yc s)
/-- area of the ocean -/
noncomputable abbrev oarea (s : Setup) : ℝ := oceanInt s.g fun _ _ => 1

/-- the fields of a month with degree one coefficients `x` -/
def total (d : Month) (x : V3) : CSlm := subC (subC (setDeg1 d.gsm x) d.gia) d.atm

theorem deg1_total (d : Month) (x : V3) (j : Fin 3) : deg1 (total d x) j = x j - deg1 d.gia j - deg1 d.atm j := by
  fin_cases j <;> simp [deg1, total, subC, setDeg1]

theorem gridMass_two (d : Month) (x : V3) :
    gridMass s 2 (subC (subC d.gsm d.gia) d.atm) = gridMass s 2 (total d x) := by
  funext k i
  unfold gridMass total subC setDeg1
  congr 1 <;>
  · apply sum_congr rfl; intro m _
    congr 1
    apply sum_congr rfl; intro l hl
    rw [mem_Ico] at hl
    have : ¬ (l = 1) := by omega
    simp [this]

/-- the layer that compensates the mass on land -/
noncomputable def layer (s : Setup) (d : Month) (x : V3) : ℝ :=
  -landInt s.g (gridMass s 1 (total d x)) / oarea s

theorem eustatic_eq (h : Facts s) (d : Month) (x : V3) :
    eustatic s .uniform d x = some fun c => mo s c * layer s d x := by
  obtain ⟨r, c0, hr, hc0, h00, hc, h1⟩ := stokes1_eq h (ocean s.g)
  obtain ⟨r', c0', hr', hc0', h00', hc', -⟩ := stokes1_eq h
    (fun k i => gridMass s 1 (subC (subC (setDeg1 d.gsm x) d.gia) d.atm) k i * land s.g k i)
  unfold eustatic
  simp only [hr, hr', Option.bind_eq_bind, Option.bind_some, Option.some.injEq]
  funext c
  have e : c0' = c0 := by rw [hc, hc']
  rw [h00, h00', e, ← landInt_eq]
  have ho : gridInt s.g (ocean s.g) = oarea s := by
    unfold oarea
    rw [oceanInt_eq]; simp
  have hm : deg1 r c * dfac s 1 = mo s c := by
    rw [h1]
    unfold mo Alg.mom
    rw [show Yc s c = (fun p : ℕ × ℕ => Y s c p.1 p.2) from rfl, Q_eq s.g (Y s c) (fun _ _ => 1), oceanInt_eq]
    simp
  rw [ho, ← hm]
  unfold layer total
  rw [← mul_neg, mul_div_mul_left _ _ hc0]
  ring

/-- right-hand side of a month's system -/
noncomputable def rhs (s : Setup) (useObp : Bool) (d : Month) (x : V3) : V3 := fun j =>
  mo s j * layer s d x + (if useObp then d.obp j else 0) - gmat s d j

theorem dmat_eq (h : Facts s) (hd : (imat s).det ≠ 0) (useObp : Bool) (d : Month) (x : V3) :
    dmat s .uniform .inv useObp d x = some ((imat s)⁻¹.mulVec (rhs s useObp d x)) := by
  unfold dmat
  rw [eustatic_eq h]
  simp only [Option.bind_eq_bind, Option.bind_some]
  unfold solve
  dsimp only
  rw [if_neg hd]
  congr 2
  funext j
  unfold rhs
  cases useObp <;> simp

theorem dmat_singular (h : Facts s) (hd : (imat s).det = 0) (useObp : Bool) (d : Month) (x : V3) :
    dmat s .uniform .inv useObp d x = none := by
  unfold dmat
  rw [eustatic_eq h]
  simp only [Option.bind_eq_bind, Option.bind_some]
  unfold solve
  dsimp only
  rw [if_pos hd]

theorem det_ne (h : Facts s) (ho : OceanSpans s.g) : (imat s).det ≠ 0 := by
  rw [imat_eq]; exact Alg.gram_det _ _ _ (wgt_nonneg h.u.lats) (spans_of h ho)

theorem det_zero (h : Facts s) (ho : ¬ OceanSpans s.g) : (imat s).det = 0 := by
  unfold OceanSpans at ho
  push Not at ho
  obtain ⟨x, hx, hne⟩ := ho
  rw [imat_eq]
  apply Matrix.exists_mulVec_eq_zero_iff.1
  refine ⟨x, hne, ?_⟩
  funext r
  rw [Alg.gram_mulVec]
  unfold Alg.Q
  apply sum_eq_zero
  rintro ⟨k, i⟩ hp
  unfold cells at hp
  rw [mem_product, mem_range, mem_range] at hp
  rcases area_pole h.u.lats i hp.2 with ⟨h1, h2⟩ | h0
  · by_cases hm : 1 ≤ s.g.mask i k ∧ s.g.mask i k ≤ 3
    · unfold wgt ocean land; rw [if_pos hm]; simp
    · rw [comb_field h x k i h1 h2, hx k hp.1 i hp.2 (fun a => not_le.1 fun b => hm ⟨a, b⟩) h1 h2]; simp
  · unfold wgt; rw [h0]; simp

/-- mean-removed update of a pass -/
theorem onePass_eq (h : Facts s) (hd : (imat s).det ≠ 0) (useObp : Bool) (n : ℕ) (d : ℕ → Month) (x : ℕ → V3) :
    onePass s .uniform .inv useObp n d x = some
      (fun t => (imat s)⁻¹.mulVec (rhs s useObp (d t) (x t)),
        centre n fun t => restore s (d t) ((imat s)⁻¹.mulVec (rhs s useObp (d t) (x t)))) := by
  unfold onePass allMonths
  simp only [dmat_eq h hd]
  simp

/-- land mass of degree one on a global grid -/
theorem land_deg1 (h : Facts s) (hg : GlobalGrid s.g) (x : V3) :
    landInt s.g (fun k i => Alg.comb (Yc s) x (k, i)) = -∑ c, mo s c * x c := by
  have h1 := land_add_ocean s.g (fun k i => Alg.comb (Yc s) x (k, i))
  have h2 : gridInt s.g (fun k i => Alg.comb (Yc s) x (k, i)) = 0 := by
    rw [gridInt_interior h _ (fun k i => Real.sqrt 3 * ∑ j, x j * unitVec s.g j k i)
      (fun k i a b => comb_field h x k i a b)]
    have e : gridInt s.g (fun k i => Real.sqrt 3 * ∑ j, x j * unitVec s.g j k i) =
        Real.sqrt 3 * ∑ j, x j * gridInt s.g (unitVec s.g j) := by
      simp only [gridInt_cells, mul_sum]
      rw [sum_comm]
      apply sum_congr rfl; intro p _
      rw [sum_div]
      apply sum_congr rfl; intro j _
      ring
    rw [e, sum_eq_zero (fun j _ => by rw [hg j, mul_zero]), mul_zero]
  have h3 : oceanInt s.g (fun k i => Alg.comb (Yc s) x (k, i)) = ∑ c, mo s c * x c := by
    unfold mo
    rw [Alg.mom_dot, oceanInt_cells]; unfold Alg.Q
    apply sum_congr rfl; intros; ring
  rw [h3, h2] at h1
  linarith

theorem landInt_lin (g : Grid) (a : ℝ) (F H : ℕ → ℕ → ℝ) :
    landInt g (fun k i => a * F k i + H k i) = a * landInt g F + landInt g H := by
  simp only [landInt_eq, gridInt_cells]
  rw [mul_sum, ← sum_add_distrib]
  apply sum_congr rfl; intros; ring

theorem layer_diff (h : Facts s) (hg : GlobalGrid s.g) (d : Month) (x y : V3) :
    layer s d x - layer s d y = dfac s 1 * s.wt 1 / oarea s * ∑ c, mo s c * (x c - y c) := by
  have e : ∀ z, gridMass s 1 (total d z) = fun k i =>
      dfac s 1 * s.wt 1 * Alg.comb (Yc s) (deg1 (total d z)) (k, i) +
        gridMass s 2 (subC (subC d.gsm d.gia) d.atm) k i := by
    intro z; funext k i; rw [gridMass_split h, gridMass_two d z]
  unfold layer
  rw [e x, e y, landInt_lin, landInt_lin, land_deg1 h hg, land_deg1 h hg]
  have : ∑ c, mo s c * (x c - y c) = ∑ c, mo s c * deg1 (total d x) c - ∑ c, mo s c * deg1 (total d y) c := by
    rw [← sum_sub_distrib]; apply sum_congr rfl; intro c _; rw [deg1_total, deg1_total]; ring
  rw [this]; ring

/-- the update before mean removal -/
noncomputable def upd (s : Setup) (useObp : Bool) (d : Month) (x : V3) : V3 :=
  restore s d ((imat s)⁻¹.mulVec (rhs s useObp d x))

theorem upd_diff (h : Facts s) (hg : GlobalGrid s.g) (useObp : Bool) (d : Month) (x y : V3) (j : Fin 3) :
    upd s useObp d x j - upd s useObp d y j = s.wt 1 / oarea s * (∑ c, mo s c * (x c - y c)) * pj s j := by
  have hdf := dfac_ne h
  have e : ∀ z, rhs s useObp d z = rhs s useObp d y + (layer s d z - layer s d y) • mo s := by
    intro z; funext c; simp only [rhs, Pi.add_apply, Pi.smul_apply, smul_eq_mul]; ring
  unfold upd restore
  rw [e x, Matrix.mulVec_add, Matrix.mulVec_smul]
  have hp : (imat s)⁻¹.mulVec (mo s) = pj s := by rw [imat_eq]; rfl
  rw [hp, layer_diff h hg]
  simp only [Pi.add_apply, Pi.smul_apply, smul_eq_mul]
  field_simp
  ring

end Verif.DegreeOne
