import Verif.SeaLevel.Model
import Verif.Analysis.Grid
import Verif.Synthesis.Clenshaw

/-!
# Helper lemmas for the sea level equation
-/
namespace Verif.SeaLevel
open Verif.Legendre Verif.Synthesis Verif.Units Verif.Analysis

variable (c : Conf)

/-- the array handed to the integration, longitude by latitude -/
def seen (f : ℕ → ℕ → ℝ) : ℕ → ℕ → ℝ := lonLat c.nth ⟨c.nphi, c.nth, f⟩

theorem seen_lin (a b : ℝ) (f g : ℕ → ℕ → ℝ) :
    seen c (fun i j => a * f i j + b * g i j) = fun i j => a * seen c f i j + b * seen c g i j :=
  lonLat_lin c.nth a b ⟨c.nphi, c.nth, f⟩ ⟨c.nphi, c.nth, g⟩ rfl

theorem seen_eq (h : c.nphi ≠ c.nth) (f : ℕ → ℕ → ℝ) : seen c f = f := by
  unfold seen lonLat orient; simp [h]

/-- closed form of the transform -/
noncomputable def coeffs (f : ℕ → ℕ → ℝ) : CSlm :=
  let w : ℕ → ℝ := fun j => Real.sin (colat (c.glat j)) * stepRad c.glon * stepRad c.glat
  ⟨gridCoeff 0 c.LMAX c.LMAX c.nphi c.nth Real.cos c.PLM w (phiRad c.glon) (fun _ => 1 / (4 * Real.pi)) (seen c f),
   gridCoeff 0 c.LMAX c.LMAX c.nphi c.nth Real.sin c.PLM w (phiRad c.glon) (fun _ => 1 / (4 * Real.pi)) (seen c f)⟩

theorem transform_eq (f : ℕ → ℕ → ℝ) :
    transform c f = if 2 ≤ c.nphi ∧ 2 ≤ c.nth then some (coeffs c f) else none := by
  unfold transform genHarmonics plmAll
  by_cases h : 2 ≤ c.nphi ∧ 2 ≤ c.nth
  · rw [if_pos h]
    simp only
    rw [if_neg (by omega), if_neg]
    · rfl
    · unfold orient; by_cases e : c.nphi = c.nth <;> simp [e]
  · rw [if_neg h]; simp only; rw [if_pos (by omega)]

@[ext] theorem CSlm.ext' {x y : CSlm} (h1 : ∀ l m, x.clm l m = y.clm l m) (h2 : ∀ l m, x.slm l m = y.slm l m) :
    x = y := by
  cases x; cases y; simp only [CSlm.mk.injEq]; exact ⟨funext fun l => funext (h1 l), funext fun l => funext (h2 l)⟩

/-- linear combination of coefficient sets -/
noncomputable def linY (a : ℝ) (x : CSlm) (b : ℝ) (y : CSlm) : CSlm :=
  ⟨fun l m => a * x.clm l m + b * y.clm l m, fun l m => a * x.slm l m + b * y.slm l m⟩

theorem coeffs_lin (a b : ℝ) (f g : ℕ → ℕ → ℝ) :
    coeffs c (fun i j => a * f i j + b * g i j) = linY a (coeffs c f) b (coeffs c g) := by
  apply CSlm.ext' <;> intro l m <;> unfold coeffs linY <;> simp only [seen_lin, gridCoeff_lin]

theorem clenshaw_lin (scale : ℝ) (hs : scale ≠ 0) (clm slm clm' slm' : ℕ → ℕ → ℝ) (a b : ℝ) (L : ℕ) (lon lat : ℝ) :
    clenshaw scale (fun _ => 1) (fun l m => a * clm l m + b * clm' l m) (fun l m => a * slm l m + b * slm' l m) L lon lat =
      a * clenshaw scale (fun _ => 1) clm slm L lon lat + b * clenshaw scale (fun _ => 1) clm' slm' L lon lat := by
  rcases Nat.eq_zero_or_pos L with rfl | hL
  · simp only [clenshaw_degree_zero scale hs]; ring
  · simp only [clenshaw_correct scale hs _ _ _ L hL]
    unfold synth
    simp only [Finset.mul_sum, ← Finset.sum_add_distrib]
    apply Finset.sum_congr rfl; intro l _
    apply Finset.sum_congr rfl; intro m _
    ring

theorem rawField_lin (hs : c.SCALE ≠ 0) (a b : ℝ) (l1 l2 h1 h2 : CSlm) :
    rawField c (linY a l1 b l2) (linY a h1 b h2) =
      fun i j => a * rawField c l1 h1 i j + b * rawField c l2 h2 i j := by
  funext i j
  unfold rawField
  split_ifs
  · rw [← clenshaw_lin c.SCALE hs]
    congr 1 <;> funext l m <;> unfold linY <;> ring
  · ring

/-- the uniform shift of a pass -/
noncomputable def shift (oceanY load height : CSlm) : ℝ :=
  (-tmass c load / 1 / rad_e c.E ^ 2 - 4 * Real.pi * (coeffs c (rawField c load height)).clm 0 0) /
    (4 * Real.pi * oceanY.clm 0 0)

theorem pass_eq (hd : 2 ≤ c.nphi ∧ 2 ≤ c.nth) (oceanY load height : CSlm) :
    pass c oceanY load height = some
      { sea := fun i j => rawField c load height i j + shift c oceanY load height * ocean c i j
        height := addY (coeffs c (rawField c load height)) (scaleY (shift c oceanY load height) oceanY)
        more := notConverged c height
          (addY (coeffs c (rawField c load height)) (scaleY (shift c oceanY load height) oceanY)) } := by
  unfold pass
  simp only [transform_eq, if_pos hd]
  rfl

/-- harmonics after a pass from the harmonics before it -/
noncomputable def nextH (oceanY load height : CSlm) : CSlm :=
  addY (coeffs c (rawField c load height)) (scaleY (shift c oceanY load height) oceanY)

/-- the harmonics of the field of a pass are the harmonics kept -/
theorem nextH_coeffs (load height : CSlm) :
    nextH c (coeffs c (ocean c)) load height =
      coeffs c (fun i j => rawField c load height i j + shift c (coeffs c (ocean c)) load height * ocean c i j) := by
  have := coeffs_lin c 1 (shift c (coeffs c (ocean c)) load height) (rawField c load height) (ocean c)
  simp only [one_mul] at this
  rw [this]
  apply CSlm.ext' <;> intro l m <;> simp [nextH, addY, scaleY, linY]

theorem tmass_lin (a b : ℝ) (x y : CSlm) : tmass c (linY a x b y) = a * tmass c x + b * tmass c y := by
  unfold tmass linY; ring

theorem shift_lin (hs : c.SCALE ≠ 0) (oceanY : CSlm) (a b : ℝ) (l1 l2 h1 h2 : CSlm) :
    shift c oceanY (linY a l1 b l2) (linY a h1 b h2) = a * shift c oceanY l1 h1 + b * shift c oceanY l2 h2 := by
  unfold shift
  rw [rawField_lin c hs, coeffs_lin, tmass_lin]
  unfold linY; ring

theorem nextH_lin (hs : c.SCALE ≠ 0) (oceanY : CSlm) (a b : ℝ) (l1 l2 h1 h2 : CSlm) :
    nextH c oceanY (linY a l1 b l2) (linY a h1 b h2) =
      linY a (nextH c oceanY l1 h1) b (nextH c oceanY l2 h2) := by
  unfold nextH
  rw [rawField_lin c hs, coeffs_lin, shift_lin c hs]
  apply CSlm.ext' <;> intro l m <;> simp only [addY, scaleY, linY] <;> ring

/-- degree zero after a pass -/
theorem nextH_zero (oceanY load height : CSlm) (h : oceanY.clm 0 0 ≠ 0) :
    (nextH c oceanY load height).clm 0 0 = -tmass c load / rad_e c.E ^ 2 / (4 * Real.pi) := by
  unfold nextH shift addY scaleY
  have := Real.pi_pos
  simp only [div_one]
  generalize (coeffs c (rawField c load height)).clm 0 0 = y
  generalize -tmass c load / rad_e c.E ^ 2 = t
  field_simp
  ring

/-- harmonics after `k` passes -/
noncomputable def hSeq (oceanY load h0 : CSlm) : ℕ → CSlm
  | 0 => h0
  | k + 1 => nextH c oceanY load (hSeq oceanY load h0 k)

/-- field made by pass `k + 1` -/
noncomputable def sSeq (oceanY load h0 : CSlm) (k : ℕ) (i j : ℕ) : ℝ :=
  rawField c load (hSeq c oceanY load h0 k) i j + shift c oceanY load (hSeq c oceanY load h0 k) * ocean c i j

/-- not converged at pass `k + 1` -/
def moreSeq (oceanY load h0 : CSlm) (k : ℕ) : Prop :=
  notConverged c (hSeq c oceanY load h0 k) (hSeq c oceanY load h0 (k + 1))

/-- state after `k` passes -/
noncomputable def stSeq (oceanY load h0 : CSlm) : ℕ → Pass
  | 0 => ⟨fun _ _ => 0, h0, True⟩
  | k + 1 => ⟨sSeq c oceanY load h0 k, hSeq c oceanY load h0 (k + 1), moreSeq c oceanY load h0 k⟩

theorem stSeq_height (oceanY load h0 : CSlm) (k : ℕ) : (stSeq c oceanY load h0 k).height = hSeq c oceanY load h0 k := by
  cases k <;> rfl

theorem stSeq_pass (hd : 2 ≤ c.nphi ∧ 2 ≤ c.nth) (oceanY load h0 : CSlm) (k : ℕ) :
    pass c oceanY load (stSeq c oceanY load h0 k).height = some (stSeq c oceanY load h0 (k + 1)) := by
  rw [stSeq_height, pass_eq c hd]; rfl

/-- the loop stops at the first pass that has converged, or at the last allowed one -/
theorem loop_spec (hd : 2 ≤ c.nphi ∧ 2 ≤ c.nth) (oceanY load h0 : CSlm) (n k : ℕ) (r : Pass × ℕ) :
    loop c oceanY load n (stSeq c oceanY load h0 k) k = some r ↔
      r.1 = stSeq c oceanY load h0 r.2 ∧ k ≤ r.2 ∧ r.2 ≤ k + n ∧
        (∀ i, k ≤ i → i < r.2 → (stSeq c oceanY load h0 i).more) ∧
        (r.2 = k + n ∨ ¬ (stSeq c oceanY load h0 r.2).more) := by
  induction n generalizing k with
  | zero =>
    unfold loop
    constructor
    · rintro h; rw [Option.some.injEq] at h; subst h; refine ⟨rfl, le_rfl, le_rfl, ?_, Or.inl rfl⟩
      intro i h1 h2; simp only at h2; omega
    · rintro ⟨h1, h2, h3, _, _⟩
      have : r.2 = k := by omega
      rw [Option.some.injEq]; obtain ⟨a, b⟩ := r; simp only at *; subst this; rw [h1]
  | succ n ih =>
    unfold loop
    by_cases hm : (stSeq c oceanY load h0 k).more
    · rw [if_pos hm, stSeq_pass c hd]
      dsimp only
      rw [ih]
      constructor
      · rintro ⟨h1, h2, h3, h4, h5⟩
        refine ⟨h1, by omega, by omega, ?_, ?_⟩
        · intro i g1 g2
          rcases Nat.eq_or_lt_of_le g1 with rfl | g
          · exact hm
          · exact h4 i g g2
        · rcases h5 with h5 | h5
          · left; omega
          · right; exact h5
      · rintro ⟨h1, h2, h3, h4, h5⟩
        have hk : k + 1 ≤ r.2 := by
          rcases Nat.eq_or_lt_of_le h2 with e | g
          · exfalso; rw [← e] at h5
            rcases h5 with h5 | h5
            · omega
            · exact h5 hm
          · exact g
        refine ⟨h1, hk, by omega, fun i g1 g2 => h4 i (by omega) g2, ?_⟩
        rcases h5 with h5 | h5
        · left; omega
        · right; exact h5
    · rw [if_neg hm]
      constructor
      · rintro h; rw [Option.some.injEq] at h; subst h
        refine ⟨rfl, le_rfl, by simp, ?_, Or.inr hm⟩
        intro i h1 h2; simp only at h2; omega
      · rintro ⟨h1, h2, h3, h4, h5⟩
        have : r.2 = k := by
          by_contra hne
          exact hm (h4 k le_rfl (by omega))
        rw [Option.some.injEq]; obtain ⟨a, b⟩ := r; simp only at *; subst this; rw [h1]

/-- first guess: uniform layer balancing the load -/
noncomputable def h0 (load : CSlm) : CSlm :=
  scaleY (-tmass c load / 1 / rad_e c.E ^ 2 / (4 * Real.pi * (coeffs c (ocean c)).clm 0 0)) (coeffs c (ocean c))

theorem solve_spec (hd : 2 ≤ c.nphi ∧ 2 ≤ c.nth) (load : CSlm) (N : ℤ) (r : Pass × ℕ) :
    solve c load N = some r ↔
      r.1 = stSeq c (coeffs c (ocean c)) load (h0 c load) r.2 ∧ r.2 ≤ N.toNat ∧
        (∀ i < r.2, (stSeq c (coeffs c (ocean c)) load (h0 c load) i).more) ∧
        (r.2 = N.toNat ∨ ¬ (stSeq c (coeffs c (ocean c)) load (h0 c load) r.2).more) := by
  unfold solve
  rw [transform_eq, if_pos hd]
  dsimp only
  have := loop_spec c hd (coeffs c (ocean c)) load (h0 c load) N.toNat 0 r
  simp only [Nat.zero_le, true_and, Nat.zero_add, forall_const] at this
  exact this

theorem hSeq_lin (hs : c.SCALE ≠ 0) (oceanY : CSlm) (a b : ℝ) (l1 l2 h1 h2 : CSlm) (k : ℕ) :
    hSeq c oceanY (linY a l1 b l2) (linY a h1 b h2) k =
      linY a (hSeq c oceanY l1 h1 k) b (hSeq c oceanY l2 h2 k) := by
  induction k with
  | zero => rfl
  | succ k ih => unfold hSeq; rw [ih, nextH_lin c hs]

theorem sSeq_lin (hs : c.SCALE ≠ 0) (oceanY : CSlm) (a b : ℝ) (l1 l2 h1 h2 : CSlm) (k i j : ℕ) :
    sSeq c oceanY (linY a l1 b l2) (linY a h1 b h2) k i j =
      a * sSeq c oceanY l1 h1 k i j + b * sSeq c oceanY l2 h2 k i j := by
  unfold sSeq
  rw [hSeq_lin c hs, rawField_lin c hs, shift_lin c hs]
  ring

theorem h0_lin (a b : ℝ) (x y : CSlm) : h0 c (linY a x b y) = linY a (h0 c x) b (h0 c y) := by
  unfold h0
  rw [tmass_lin]
  apply CSlm.ext' <;> intro l m <;> simp only [scaleY, linY] <;> ring

theorem modSum_smul (a : ℝ) (x : CSlm) : modSum c (linY a x 0 x) = |a| * modSum c x := by
  unfold modSum
  rw [← List.sum_map_mul_left]
  congr 2; funext l
  rw [← List.sum_map_mul_left]
  congr 2; funext m
  unfold linY
  rw [← Real.sqrt_sq_eq_abs, ← Real.sqrt_mul (sq_nonneg a)]
  congr 1; ring

theorem notConverged_smul (a : ℝ) (ha : a ≠ 0) (x y : CSlm) :
    notConverged c (linY a x 0 x) (linY a y 0 y) ↔ notConverged c x y := by
  unfold notConverged
  rw [modSum_smul, modSum_smul]
  have h : |a| ≠ 0 := abs_ne_zero.mpr ha
  by_cases e : modSum c x = 0
  · rw [e]; simp [h]
  · rw [if_neg (mul_ne_zero h e), if_neg e, ← mul_sub, mul_div_mul_left _ _ h]

theorem stSeq_smul (hs : c.SCALE ≠ 0) (oceanY : CSlm) (a : ℝ) (ha : a ≠ 0) (l h : CSlm) (k : ℕ) :
    ((stSeq c oceanY (linY a l 0 l) (linY a h 0 h) k).more ↔ (stSeq c oceanY l h k).more) ∧
    ∀ i j, (stSeq c oceanY (linY a l 0 l) (linY a h 0 h) k).sea i j = a * (stSeq c oceanY l h k).sea i j := by
  cases k with
  | zero => simp [stSeq]
  | succ k =>
    constructor
    · change notConverged c (hSeq c _ _ _ k) (hSeq c _ _ _ (k + 1)) ↔ notConverged c (hSeq c _ _ _ k) (hSeq c _ _ _ (k + 1))
      rw [hSeq_lin c hs, hSeq_lin c hs]; exact notConverged_smul c a ha _ _
    · intro i j
      change sSeq c _ _ _ k i j = a * sSeq c _ _ _ k i j
      rw [sSeq_lin c hs]; ring

end Verif.SeaLevel
