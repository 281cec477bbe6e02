import Verif.MonteCarlo.Model
import Verif.DegreeOne.Examples

/-!
# C103: Monte Carlo uncertainties of the geocenter
-/
namespace Verif.MonteCarlo
open Verif.Analysis Verif.DegreeOne Verif.Units Finset

variable {s : Setup}

/-! ## A run is a pass of `calc_degree_one` on noisy data -/

/-- a month with noise -/
noncomputable def noisy (d : Month) (p : CSlm) : Month := ⟨addC d.gsm p, d.gia, d.atm, d.obp⟩

theorem CSlm.ext2 {a b : CSlm} (h1 : ∀ l m, a.clm l m = b.clm l m) (h2 : ∀ l m, a.slm l m = b.slm l m) : a = b := by
  cases a; cases b
  simp only at h1 h2
  congr
  · funext l m; exact h1 l m
  · funext l m; exact h2 l m

theorem reduced_noisy (d : Month) (p : CSlm) :
    reduced d.gsm d p = subC (subC (noisy d p).gsm (noisy d p).gia) (noisy d p).atm := by
  apply CSlm.ext2 <;> intro l m <;> simp only [reduced, addC, subC, noisy] <;> ring

theorem reduced_seasonal (d : Month) (x : V3) (p : CSlm) :
    reduced (setDeg1 d.gsm x) d p =
      subC (subC (setDeg1 (noisy d p).gsm (fun j => x j + deg1 p j)) (noisy d p).gia) (noisy d p).atm := by
  apply CSlm.ext2 <;> intro l m <;> simp only [reduced, addC, subC, noisy, setDeg1, deg1]
  · split_ifs with h1 h2
    · obtain ⟨rfl, rfl⟩ := h1; simp; ring
    · obtain ⟨rfl, rfl⟩ := h2; simp; ring
    · ring
  · split_ifs with h1
    · obtain ⟨rfl, rfl⟩ := h1; simp; ring
    · ring

theorem gmatN_eq (first : Bool) (d : Month) (x : V3) (p : CSlm) : gmatN s first d x p = gmat s (noisy d p) := by
  funext c
  unfold gmatN gmat
  cases first with
  | true => rw [if_pos rfl, reduced_noisy]
  | false =>
    rw [if_neg (by simp), reduced_seasonal]
    rw [gridMass_two (noisy d p) (fun j => x j + deg1 p j)]
    rfl

theorem eustaticN_eq (e : Eustatic) (d : Month) (x : V3) (p : CSlm) :
    eustaticN s e d x p = eustatic s e (noisy d p) fun j => x j + deg1 p j := by
  unfold eustaticN eustatic
  rw [reduced_seasonal]
  cases e <;> rfl

/-- a solver the script knows -/
def Known : Solver → Prop
  | .other => False
  | _ => True

theorem solveN_eq (v : Solver) (hv : Known v) : solveN v = solve v := by
  cases v with
  | inv => rfl
  | lsq f => rfl
  | other => exact absurd hv id

/-- the solution of a month of a run is that of `calc_degree_one` on the noisy month -/
theorem dmatN_eq (e : Eustatic) (v : Solver) (hv : Known v) (first : Bool) (d : Month) (x : V3) (p : CSlm) :
    dmatN s e v first d x p = dmat s e v false (noisy d p) fun j => x j + deg1 p j := by
  unfold dmatN dmat
  rw [eustaticN_eq, solveN_eq v hv, gmatN_eq]
  simp

theorem centre_congr (n : ℕ) (a b : ℕ → V3) (h : ∀ t < n, a t = b t) : ∀ t < n, centre n a t = centre n b t := by
  intro t ht
  funext j
  unfold centre
  rw [h t ht, sum_congr rfl fun u hu => by rw [h u (mem_range.1 hu)]]

theorem sum_centre (n : ℕ) (a : ℕ → V3) (j : Fin 3) : ∑ t ∈ range n, centre n a t j = 0 := by
  unfold centre
  rw [sum_sub_distrib, sum_const, card_range, nsmul_eq_mul]
  rcases Nat.eq_zero_or_pos n with rfl | hn
  · simp
  · have : (n : ℝ) ≠ 0 := by exact_mod_cast hn.ne'
    field_simp
    ring

theorem allMonths_some {A : Type} [Inhabited A] (n : ℕ) (f : ℕ → Option A) (g : ℕ → A) (h : allMonths n f = some g) :
    ∀ t < n, f t = some (g t) := by
  unfold allMonths at h
  split_ifs at h with hs
  intro t ht
  obtain ⟨a, ha⟩ := Option.isSome_iff_exists.1 (hs t ht)
  simp only [Option.some.injEq] at h
  rw [← h]
  dsimp only
  rw [ha]; rfl

theorem allMonths_of {A : Type} [Inhabited A] (n : ℕ) (f : ℕ → Option A) (g : ℕ → A) (h : ∀ t < n, f t = some (g t)) :
    ∃ g', allMonths n f = some g' ∧ ∀ t < n, g' t = g t := by
  unfold allMonths
  rw [if_pos fun t ht => by rw [h t ht]; rfl]
  exact ⟨_, rfl, fun t ht => by show (f t).getD default = g t; rw [h t ht]; rfl⟩

/-! ## Means -/

/-- **Every run, and the estimate, has mean zero** over the months, whatever the noise. -/
theorem monteCarlo_mean_zero (e : Eustatic) (v : Solver) (RUNS n : ℕ) (d : ℕ → Month) (x : ℕ → V3) (errs : List CSlm)
    (u : ℕ → ℕ → List CSlm) (o : Output) (h : monteCarlo s e v RUNS n d x errs u = some o) (j : Fin 3) :
    (∀ r < RUNS, ∑ t ∈ range n, o.runs r t j = 0) ∧ ∑ t ∈ range n, o.deg1 t j = 0 := by
  unfold monteCarlo at h
  obtain ⟨it, hit, rfl⟩ := Option.map_eq_some_iff.1 h
  have hr : ∀ r < RUNS, ∑ t ∈ range n, it r t j = 0 := by
    intro r hr
    have := allMonths_some RUNS _ it hit r hr
    unfold run at this
    obtain ⟨D, -, hD⟩ := Option.map_eq_some_iff.1 this
    rw [← hD]
    exact sum_centre n _ j
  refine ⟨fun r h => ?_, ?_⟩
  · dsimp only
    rw [← Finset.sum_div, hr r h, zero_div]
  · dsimp only
    unfold mean
    rw [← mul_sum, ← Finset.sum_div, sum_comm, sum_eq_zero fun r h => hr r (mem_range.1 h)]
    simp

/-! ## Spread -/

/-- **The estimate is the mean of the runs, the error their root mean square spread**, in the same units. -/
theorem monteCarlo_spread (hd : 0 < dfac s 1) (e : Eustatic) (v : Solver) (RUNS n : ℕ) (d : ℕ → Month) (x : ℕ → V3)
    (errs : List CSlm) (u : ℕ → ℕ → List CSlm) (o : Output) (h : monteCarlo s e v RUNS n d x errs u = some o)
    (t : ℕ) (j : Fin 3) :
    o.deg1 t j = (∑ r ∈ range RUNS, o.runs r t j) / RUNS ∧
    o.error t j = Real.sqrt ((∑ r ∈ range RUNS, (o.runs r t j - o.deg1 t j) ^ 2) / RUNS) := by
  unfold monteCarlo at h
  obtain ⟨it, -, rfl⟩ := Option.map_eq_some_iff.1 h
  have h1 : (1 / dfac s 1) * mean RUNS it t j = (∑ r ∈ range RUNS, it r t j / dfac s 1) / RUNS := by
    unfold mean
    rw [← Finset.sum_div]
    ring
  refine ⟨h1, ?_⟩
  dsimp only
  unfold rms
  have h2 : ∀ r, (it r t j / dfac s 1 - 1 / dfac s 1 * mean RUNS it t j) ^ 2 =
      (1 / dfac s 1) ^ 2 * (it r t j - mean RUNS it t j) ^ 2 := by intro r; ring
  simp only [h2]
  rw [← mul_sum, mul_div_assoc, Real.sqrt_mul (sq_nonneg _), Real.sqrt_sq (by positivity)]

/-- **The error is at most half the range** of the runs. -/
theorem monteCarlo_error_range (hd : 0 < dfac s 1) (e : Eustatic) (v : Solver) (RUNS n : ℕ) (hR : 0 < RUNS) (d : ℕ → Month)
    (x : ℕ → V3) (errs : List CSlm) (u : ℕ → ℕ → List CSlm) (o : Output) (h : monteCarlo s e v RUNS n d x errs u = some o)
    (t : ℕ) (j : Fin 3) (a b : ℝ) (hab : ∀ r < RUNS, a ≤ o.runs r t j ∧ o.runs r t j ≤ b) : o.error t j ≤ (b - a) / 2 := by
  obtain ⟨h1, h2⟩ := monteCarlo_spread hd e v RUNS n d x errs u o h t j
  have hRr : (0 : ℝ) < RUNS := by exact_mod_cast hR
  have hab0 : a ≤ b := le_trans (hab 0 hR).1 (hab 0 hR).2
  rw [h2]
  rw [show (b - a) / 2 = Real.sqrt (((b - a) / 2) ^ 2) from (Real.sqrt_sq (by linarith)).symm]
  apply Real.sqrt_le_sqrt
  rw [div_le_iff₀ hRr]
  have hs : ∑ r ∈ range RUNS, o.runs r t j = RUNS * o.deg1 t j := by rw [h1]; field_simp
  have e1 : ∑ r ∈ range RUNS, (o.runs r t j - o.deg1 t j) ^ 2 =
      ∑ r ∈ range RUNS, (o.runs r t j - (a + b) / 2) ^ 2 - RUNS * (o.deg1 t j - (a + b) / 2) ^ 2 := by
    have : ∀ r, (o.runs r t j - o.deg1 t j) ^ 2 = (o.runs r t j - (a + b) / 2) ^ 2 -
        2 * (o.deg1 t j - (a + b) / 2) * o.runs r t j + (o.deg1 t j ^ 2 - ((a + b) / 2) ^ 2) := by intro r; ring
    simp only [this]
    rw [sum_add_distrib, sum_sub_distrib, ← mul_sum, hs, sum_const, card_range, nsmul_eq_mul]
    ring
  have e2 : ∑ r ∈ range RUNS, (o.runs r t j - (a + b) / 2) ^ 2 ≤ ∑ r ∈ range RUNS, ((b - a) / 2) ^ 2 := by
    apply sum_le_sum
    intro r hr
    obtain ⟨h3, h4⟩ := hab r (mem_range.1 hr)
    nlinarith
  rw [sum_const, card_range, nsmul_eq_mul] at e2
  have : 0 ≤ (RUNS : ℝ) * (o.deg1 t j - (a + b) / 2) ^ 2 := by positivity
  linarith

/-! ## Without noise -/

theorem noise_zero (errs : List CSlm) (h : ∀ e ∈ errs, e = zeroC) : ∀ us, noise errs us = zeroC := by
  induction errs with
  | nil => intro us; rfl
  | cons e es ih =>
    intro us
    cases us with
    | nil => rfl
    | cons u us =>
      rw [noise, ih (fun a ha => h a (List.mem_cons_of_mem _ ha)), h e List.mem_cons_self]
      apply CSlm.ext2 <;> intro l m <;> simp [addC, drawn, zeroC]

theorem noisy_zero (d : Month) (x : V3) : noisy d zeroC = d ∧ (fun j => x j + deg1 zeroC j) = x := by
  refine ⟨?_, ?_⟩
  · have : addC d.gsm zeroC = d.gsm := by apply CSlm.ext2 <;> intro l m <;> simp [addC, zeroC]
    unfold noisy
    rw [this]
  · funext j; fin_cases j <;> simp [deg1, zeroC]

/-- Specification: degree one coefficients of GIA and atmospheric correction without their mean over the months -/
noncomputable def background (n : ℕ) (d : ℕ → Month) (t : ℕ) (j : Fin 3) : ℝ :=
  (deg1 (d t).gia j + deg1 (d t).atm j) - (∑ w ∈ range n, (deg1 (d w).gia j + deg1 (d w).atm j)) / n

/-- **Deviation: the geocenter of GIA and atmosphere is not restored.** Without noise all runs agree and the error is zero,
but the estimate differs from that of `calc_degree_one` (without iteration) by what is removed before the inversion: it is
added back before, and not after, the conversion from mass to coefficients, so that it is divided by the mass factor of
degree one (about 3.5e9). -/
theorem monteCarlo_noise_free (hd : dfac s 1 ≠ 0) (e : Eustatic) (v : Solver) (hv : Known v) (RUNS n : ℕ) (hR : 0 < RUNS) (d : ℕ → Month)
    (x : ℕ → V3) (errs : List CSlm) (he : ∀ c ∈ errs, c = zeroC) (u : ℕ → ℕ → List CSlm) (y : ℕ → V3)
    (hy : calcDegreeOne s e v false false n d x = some y) :
    ∃ o, monteCarlo s e v RUNS n d x errs u = some o ∧
      ∀ t < n, ∀ j, o.deg1 t j = y t j - (1 - 1 / dfac s 1) * background n d t j ∧ o.error t j = 0 ∧
        ∀ r < RUNS, o.runs r t j = o.deg1 t j := by
  -- the pass of `calc_degree_one`
  have hp : ∃ D, (allMonths n fun t => dmat s e v false (d t) (x t)) = some D ∧ y = centre n fun t => restore s (d t) (D t) := by
    unfold calcDegreeOne at hy
    obtain ⟨r, hr, rfl⟩ := Option.map_eq_some_iff.1 hy
    unfold maxIter at hr
    simp only [Bool.false_eq_true, if_false] at hr
    unfold passes at hr
    simp only [Option.bind_eq_bind, Option.bind_eq_some_iff] at hr
    obtain ⟨⟨D, z⟩, h1, h2⟩ := hr
    simp only [lt_self_iff_false, and_false, if_false, Option.some.injEq] at h2
    unfold onePass at h1
    obtain ⟨D', h3, h4⟩ := Option.map_eq_some_iff.1 h1
    simp only [Prod.mk.injEq] at h4
    refine ⟨D', h3, ?_⟩
    rw [← h2, ← h4.1]
  obtain ⟨D, hD, rfl⟩ := hp
  -- every run
  have hrun : ∀ r, run s e v (r == 0) n d x (fun t => noise errs (u r t)) =
      some (centre n fun t j => D t j + deg1 (d t).gia j + deg1 (d t).atm j) := by
    intro r
    unfold run
    have : (fun t => dmatN s e v (r == 0) (d t) (x t) (noise errs (u r t))) = fun t => dmat s e v false (d t) (x t) := by
      funext t
      rw [dmatN_eq e v hv, noise_zero errs he, (noisy_zero (d t) (x t)).1, (noisy_zero (d t) (x t)).2]
    rw [this, hD]
    rfl
  obtain ⟨it, hit, hitv⟩ := allMonths_of RUNS (fun r => run s e v (r == 0) n d x fun t => noise errs (u r t))
    (fun _ => centre n fun t j => D t j + deg1 (d t).gia j + deg1 (d t).atm j) (fun r _ => hrun r)
  have hRr : (RUNS : ℝ) ≠ 0 := by exact_mod_cast hR.ne'
  have hmean : ∀ t j, mean RUNS it t j = centre n (fun t j => D t j + deg1 (d t).gia j + deg1 (d t).atm j) t j := by
    intro t j
    unfold mean
    rw [sum_congr rfl fun r hr => by rw [hitv r (mem_range.1 hr)], sum_const, card_range, nsmul_eq_mul]
    field_simp
  refine ⟨_, by unfold monteCarlo runs; rw [hit]; rfl, ?_⟩
  intro t ht j
  refine ⟨?_, ?_, ?_⟩
  · dsimp only
    rw [hmean]
    unfold centre restore background
    simp only [sum_add_distrib, ← Finset.sum_div]
    field_simp
    ring
  · dsimp only
    unfold rms
    rw [sum_eq_zero fun r hr => by rw [hitv r (mem_range.1 hr), hmean]; ring]
    simp
  · intro r hr
    dsimp only
    rw [hitv r hr, hmean]
    ring

/-- If GIA and atmospheric correction have no degree one coefficients the estimate without noise is that of
`calc_degree_one`. -/
theorem monteCarlo_agrees (hd : dfac s 1 ≠ 0) (e : Eustatic) (v : Solver) (hv : Known v) (RUNS n : ℕ) (hR : 0 < RUNS) (d : ℕ → Month)
    (x : ℕ → V3) (errs : List CSlm) (he : ∀ c ∈ errs, c = zeroC) (u : ℕ → ℕ → List CSlm) (y : ℕ → V3)
    (hy : calcDegreeOne s e v false false n d x = some y)
    (hb : ∀ t < n, ∀ j, deg1 (d t).gia j = 0 ∧ deg1 (d t).atm j = 0) :
    ∃ o, monteCarlo s e v RUNS n d x errs u = some o ∧ ∀ t < n, ∀ j, o.deg1 t j = y t j := by
  obtain ⟨o, ho, h⟩ := monteCarlo_noise_free hd e v hv RUNS n hR d x errs he u y hy
  refine ⟨o, ho, fun t ht j => ?_⟩
  rw [(h t ht j).1]
  have : background n d t j = 0 := by
    unfold background
    rw [(hb t ht j).1, (hb t ht j).2, sum_eq_zero fun w hw => by rw [(hb w (mem_range.1 hw) j).1, (hb w (mem_range.1 hw) j).2, add_zero]]
    simp
  rw [this]
  ring

/-! ## Noise -/

/-- Specification: response to noise `p` of a month: the solution for a month that is nothing but noise -/
noncomputable def response (s : Setup) (p : CSlm) : V3 :=
  (imat s)⁻¹.mulVec (rhs s false ⟨p, zeroC, zeroC, fun _ => 0⟩ (deg1 p))

theorem gridMass_addC (l0 : ℕ) (a b : CSlm) (k i : ℕ) : gridMass s l0 (addC a b) k i = gridMass s l0 a k i + gridMass s l0 b k i := by
  unfold gridMass addC
  simp only [mul_add, sum_add_distrib]
  ring

theorem gridMass_scale (l0 : ℕ) (c : ℝ) (a : CSlm) (k i : ℕ) :
    gridMass s l0 ⟨fun l m => c * a.clm l m, fun l m => c * a.slm l m⟩ k i = c * gridMass s l0 a k i := by
  unfold gridMass
  simp only [mul_add, mul_sum]
  congr 1 <;>
  · apply sum_congr rfl; intro m _
    apply sum_congr rfl; intro l _
    ring

theorem landInt_add (g : Grid) (F H : ℕ → ℕ → ℝ) : landInt g (fun k i => F k i + H k i) = landInt g F + landInt g H := by
  rw [landInt_eq, landInt_eq, landInt_eq]
  simp only [gridInt_cells]
  rw [← sum_add_distrib]
  apply sum_congr rfl; intros; ring

theorem landInt_mul (g : Grid) (c : ℝ) (F : ℕ → ℕ → ℝ) : landInt g (fun k i => c * F k i) = c * landInt g F := by
  rw [landInt_eq, landInt_eq]
  simp only [gridInt_cells]
  rw [mul_sum]
  apply sum_congr rfl; intros; ring

theorem project_add (c : Fin 3) (F H : ℕ → ℕ → ℝ) : project s c (fun k i => F k i + H k i) = project s c F + project s c H := by
  rw [project_eq, project_eq, project_eq]
  unfold Alg.Q
  rw [← sum_add_distrib]
  apply sum_congr rfl; intros; ring

theorem project_mul (c : Fin 3) (a : ℝ) (F : ℕ → ℕ → ℝ) : project s c (fun k i => a * F k i) = a * project s c F := by
  rw [project_eq, project_eq]
  unfold Alg.Q
  rw [mul_sum]
  apply sum_congr rfl; intros; ring

/-- the field of noise alone -/
theorem total_noise (p : CSlm) : total ⟨p, zeroC, zeroC, fun _ => 0⟩ (deg1 p) = p := by
  apply CSlm.ext2 <;> intro l m <;> simp only [total, subC, setDeg1, zeroC, deg1]
  · split_ifs with h1 h2
    · obtain ⟨rfl, rfl⟩ := h1; simp
    · obtain ⟨rfl, rfl⟩ := h2; simp
    · ring
  · split_ifs with h1
    · obtain ⟨rfl, rfl⟩ := h1; simp
    · ring

theorem total_noisy (d : Month) (x : V3) (p : CSlm) :
    total (noisy d p) (fun j => x j + deg1 p j) = addC (total d x) p := by
  have := (reduced_seasonal d x p).symm
  unfold total at this ⊢
  rw [this]
  rfl

theorem rhs_noisy (d : Month) (x : V3) (p : CSlm) (j : Fin 3) :
    rhs s false (noisy d p) (fun j => x j + deg1 p j) j = rhs s false d x j + rhs s false ⟨p, zeroC, zeroC, fun _ => 0⟩ (deg1 p) j := by
  unfold rhs layer gmat
  rw [gridMass_two (noisy d p) (fun j => x j + deg1 p j), gridMass_two d x, gridMass_two ⟨p, zeroC, zeroC, fun _ => 0⟩ (deg1 p),
    total_noisy, total_noise]
  have h1 : gridMass s 1 (addC (total d x) p) = fun k i => gridMass s 1 (total d x) k i + gridMass s 1 p k i := by
    funext k i; exact gridMass_addC 1 _ _ k i
  have h2 : gridMass s 2 (addC (total d x) p) = fun k i => gridMass s 2 (total d x) k i + gridMass s 2 p k i := by
    funext k i; exact gridMass_addC 2 _ _ k i
  rw [h1, h2, landInt_add, project_add]
  simp
  ring

/-- scaled coefficients -/
def scaleC (c : ℝ) (p : CSlm) : CSlm := ⟨fun l m => c * p.clm l m, fun l m => c * p.slm l m⟩

theorem response_scale (c : ℝ) (p : CSlm) (j : Fin 3) : response s (scaleC c p) j = c * response s p j := by
  have h : rhs s false ⟨scaleC c p, zeroC, zeroC, fun _ => 0⟩ (deg1 (scaleC c p)) = c • rhs s false ⟨p, zeroC, zeroC, fun _ => 0⟩ (deg1 p) := by
    funext j
    simp only [Pi.smul_apply, smul_eq_mul]
    unfold rhs layer gmat
    rw [gridMass_two ⟨scaleC c p, zeroC, zeroC, fun _ => 0⟩ (deg1 (scaleC c p)), gridMass_two ⟨p, zeroC, zeroC, fun _ => 0⟩ (deg1 p),
      total_noise, total_noise]
    have h1 : gridMass s 1 (scaleC c p) = fun k i => c * gridMass s 1 p k i := by
      funext k i; exact gridMass_scale 1 c p k i
    have h2 : gridMass s 2 (scaleC c p) = fun k i => c * gridMass s 2 p k i := by
      funext k i; exact gridMass_scale 2 c p k i
    rw [h1, h2, landInt_mul, project_mul]
    simp
    ring
  unfold response
  rw [h, Matrix.mulVec_smul]
  rfl

/-- solution of a month without noise -/
noncomputable def clean (s : Setup) (d : Month) (x : V3) : V3 := (imat s)⁻¹.mulVec (rhs s false d x)

/-- **The solution of a noisy month is the solution without noise plus the response to the noise.** -/
theorem dmatN_split (h : Facts s) (ho : OceanSpans s.g) (first : Bool) (d : Month) (x : V3) (p : CSlm) :
    dmatN s .uniform .inv first d x p = some fun j => clean s d x j + response s p j := by
  rw [dmatN_eq .uniform .inv trivial, dmat_eq h (det_ne h ho)]
  congr 1
  have : rhs s false (noisy d p) (fun j => x j + deg1 p j) =
      rhs s false d x + rhs s false ⟨p, zeroC, zeroC, fun _ => 0⟩ (deg1 p) := by
    funext j; exact rhs_noisy d x p j
  rw [this, Matrix.mulVec_add]
  rfl

/-- the runs in mass units, split into the part that all runs share and the noise -/
theorem runs_split (h : Facts s) (ho : OceanSpans s.g) (RUNS n : ℕ) (d : ℕ → Month) (x : ℕ → V3) (errs : List CSlm)
    (u : ℕ → ℕ → List CSlm) :
    ∃ it, runs s .uniform .inv RUNS n d x errs u = some it ∧ ∀ r < RUNS, ∀ t < n, ∀ j,
      it r t j = centre n (fun t j => clean s (d t) (x t) j + deg1 (d t).gia j + deg1 (d t).atm j) t j +
        centre n (fun t => response s (noise errs (u r t))) t j := by
  have hrun : ∀ r, ∃ z, run s .uniform .inv (r == 0) n d x (fun t => noise errs (u r t)) = some z ∧ ∀ t < n, ∀ j,
      z t j = centre n (fun t j => clean s (d t) (x t) j + deg1 (d t).gia j + deg1 (d t).atm j) t j +
        centre n (fun t => response s (noise errs (u r t))) t j := by
    intro r
    obtain ⟨D, hD, hDv⟩ := allMonths_of n (fun t => dmatN s .uniform .inv (r == 0) (d t) (x t) (noise errs (u r t)))
      (fun t j => clean s (d t) (x t) j + response s (noise errs (u r t)) j) (fun t _ => dmatN_split h ho _ _ _ _)
    refine ⟨_, by unfold run; rw [hD]; rfl, ?_⟩
    intro t ht j
    have := centre_congr n (fun t j => D t j + deg1 (d t).gia j + deg1 (d t).atm j)
      (fun t j => (clean s (d t) (x t) j + deg1 (d t).gia j + deg1 (d t).atm j) + response s (noise errs (u r t)) j)
      (fun w hw => by funext j; rw [hDv w hw]; ring) t ht
    dsimp only
    rw [this]
    unfold centre
    rw [sum_add_distrib]
    ring
  choose z hz hzv using hrun
  obtain ⟨it, hit, hitv⟩ := allMonths_of RUNS (fun r => run s .uniform .inv (r == 0) n d x fun t => noise errs (u r t)) z
    (fun r _ => hz r)
  refine ⟨it, hit, fun r hr t ht j => ?_⟩
  rw [hitv r hr, hzv r t ht j]

theorem mean_split (RUNS : ℕ) (hR : 0 < RUNS) (t : ℕ) (j : Fin 3) (it : ℕ → ℕ → V3) (a : ℝ) (b : ℕ → ℝ)
    (h : ∀ r < RUNS, it r t j = a + b r) :
    rms RUNS it t j = Real.sqrt ((∑ r ∈ range RUNS, (b r - (∑ q ∈ range RUNS, b q) / RUNS) ^ 2) / RUNS) := by
  have hRr : (RUNS : ℝ) ≠ 0 := by exact_mod_cast hR.ne'
  have hm : mean RUNS it t j = a + (∑ q ∈ range RUNS, b q) / RUNS := by
    unfold mean
    rw [sum_congr rfl fun r hr => h r (mem_range.1 hr), sum_add_distrib, sum_const, card_range, nsmul_eq_mul]
    field_simp
  unfold rms
  rw [hm]
  congr 2
  apply sum_congr rfl
  intro r hr
  rw [h r (mem_range.1 hr)]
  ring

/-- **The errors do not depend on the data**: neither the gravity fields, nor GIA and atmosphere, nor the seasonal start enter,
only the grid, the constants, the uncertainty fields and the random numbers. -/
theorem monteCarlo_error_data (hs : Prepared s) (ho : OceanSpans s.g) (RUNS n : ℕ) (hR : 0 < RUNS) (d d' : ℕ → Month)
    (x x' : ℕ → V3) (errs : List CSlm) (u : ℕ → ℕ → List CSlm) :
    ∃ o o', monteCarlo s .uniform .inv RUNS n d x errs u = some o ∧ monteCarlo s .uniform .inv RUNS n d' x' errs u = some o' ∧
      ∀ t < n, ∀ j, o.error t j = o'.error t j := by
  obtain ⟨it, hit, hv⟩ := runs_split hs.facts ho RUNS n d x errs u
  obtain ⟨it', hit', hv'⟩ := runs_split hs.facts ho RUNS n d' x' errs u
  refine ⟨_, _, by unfold monteCarlo; rw [hit]; rfl, by unfold monteCarlo; rw [hit']; rfl, ?_⟩
  intro t ht j
  dsimp only
  rw [mean_split RUNS hR t j it _ _ fun r hr => hv r hr t ht j, mean_split RUNS hR t j it' _ _ fun r hr => hv' r hr t ht j]

theorem noise_scale (c : ℝ) (errs : List CSlm) : ∀ us, noise (errs.map (scaleC c)) us = scaleC c (noise errs us) := by
  induction errs with
  | nil =>
    intro us
    apply CSlm.ext2 <;> intro l m <;> simp [noise, scaleC, zeroC]
  | cons e es ih =>
    intro us
    cases us with
    | nil => apply CSlm.ext2 <;> intro l m <;> simp [noise, scaleC, zeroC]
    | cons w us =>
      rw [List.map_cons, noise, noise, ih us]
      apply CSlm.ext2 <;> intro l m <;> simp only [addC, drawn, scaleC] <;> ring

/-- **The errors scale with the uncertainty fields.** -/
theorem monteCarlo_error_scale (hs : Prepared s) (ho : OceanSpans s.g) (RUNS n : ℕ) (hR : 0 < RUNS) (d : ℕ → Month)
    (x : ℕ → V3) (errs : List CSlm) (u : ℕ → ℕ → List CSlm) (c : ℝ) :
    ∃ o o', monteCarlo s .uniform .inv RUNS n d x errs u = some o ∧
      monteCarlo s .uniform .inv RUNS n d x (errs.map (scaleC c)) u = some o' ∧
      ∀ t < n, ∀ j, o'.error t j = |c| * o.error t j := by
  obtain ⟨it, hit, hv⟩ := runs_split hs.facts ho RUNS n d x errs u
  obtain ⟨it', hit', hv'⟩ := runs_split hs.facts ho RUNS n d x (errs.map (scaleC c)) u
  refine ⟨_, _, by unfold monteCarlo; rw [hit]; rfl, by unfold monteCarlo; rw [hit']; rfl, ?_⟩
  intro t ht j
  dsimp only
  rw [mean_split RUNS hR t j it _ _ fun r hr => hv r hr t ht j, mean_split RUNS hR t j it' _ _ fun r hr => hv' r hr t ht j]
  have hc : ∀ r, centre n (fun t => response s (noise (errs.map (scaleC c)) (u r t))) t j =
      c * centre n (fun t => response s (noise errs (u r t))) t j := by
    intro r
    unfold centre
    simp only [noise_scale, response_scale]
    rw [← mul_sum]
    ring
  simp only [hc]
  rw [← mul_sum]
  have : ∀ r, (c * centre n (fun t => response s (noise errs (u r t))) t j -
      c * (∑ q ∈ range RUNS, centre n (fun t => response s (noise errs (u q t))) t j) / RUNS) ^ 2 =
      c ^ 2 * (centre n (fun t => response s (noise errs (u r t))) t j -
        (∑ q ∈ range RUNS, centre n (fun t => response s (noise errs (u q t))) t j) / RUNS) ^ 2 := by intro r; ring
  simp only [this]
  rw [← mul_sum, mul_div_assoc, Real.sqrt_mul (sq_nonneg c), Real.sqrt_sq_eq_abs]
  ring

/-- **The noise stays within the uncertainties**: random numbers from 0 to 1 give noise of at most the sum of the
uncertainty fields, for every coefficient. -/
theorem noise_bound (errs us : List CSlm) (hu : ∀ w ∈ us, ∀ l m, (0 ≤ w.clm l m ∧ w.clm l m ≤ 1) ∧ 0 ≤ w.slm l m ∧ w.slm l m ≤ 1)
    (l m : ℕ) : |(noise errs us).clm l m| ≤ (errs.map fun e => |e.clm l m|).sum ∧
      |(noise errs us).slm l m| ≤ (errs.map fun e => |e.slm l m|).sum := by
  induction errs generalizing us with
  | nil => simp [noise, zeroC]
  | cons e es ih =>
    cases us with
    | nil =>
      have h0 : ∀ f : CSlm → ℝ, 0 ≤ ((e :: es).map fun e => |f e|).sum := fun f =>
        List.sum_nonneg (by intro a ha; obtain ⟨b, -, rfl⟩ := List.mem_map.1 ha; exact abs_nonneg _)
      refine ⟨?_, ?_⟩
      · simpa [noise, zeroC] using h0 fun e => e.clm l m
      · simpa [noise, zeroC] using h0 fun e => e.slm l m
    | cons w us =>
      obtain ⟨h1, h2⟩ := ih us fun a ha => hu a (List.mem_cons_of_mem _ ha)
      obtain ⟨⟨a0, a1⟩, b0, b1⟩ := hu w List.mem_cons_self l m
      simp only [noise, addC, drawn, List.map_cons, List.sum_cons]
      have ha : |1 - 2 * w.clm l m| ≤ 1 := by rw [abs_le]; constructor <;> linarith
      have hb : |1 - 2 * w.slm l m| ≤ 1 := by rw [abs_le]; constructor <;> linarith
      refine ⟨(abs_add_le _ _).trans (add_le_add ?_ h1), (abs_add_le _ _).trans (add_le_add ?_ h2)⟩
      · rw [abs_mul]; exact mul_le_of_le_one_left (abs_nonneg _) ha
      · rw [abs_mul]; exact mul_le_of_le_one_left (abs_nonneg _) hb

/-- **Unknown solvers**: `calc_degree_one` returns GIA and atmosphere alone, this script fails. -/
theorem monteCarlo_unknown (e : Eustatic) (RUNS n : ℕ) (hR : 0 < RUNS) (hn : 0 < n) (d : ℕ → Month) (x : ℕ → V3)
    (errs : List CSlm) (u : ℕ → ℕ → List CSlm) : monteCarlo s e .other RUNS n d x errs u = none := by
  have h1 : ∀ first d x p, dmatN s e .other first d x p = none := by
    intro first d x p
    unfold dmatN solveN
    cases eustaticN s e d x p <;> rfl
  have h2 : ∀ r, run s e .other (r == 0) n d x (fun t => noise errs (u r t)) = none := by
    intro r
    unfold run allMonths
    rw [if_neg]
    · rfl
    · intro hc
      have := hc 0 hn
      dsimp only at this
      rw [h1] at this
      exact absurd this (by simp)
  unfold monteCarlo runs allMonths
  rw [if_neg]
  · rfl
  · intro hc
    have := hc 0 hR
    dsimp only at this
    rw [h2] at this
    exact absurd this (by simp)

/-! ## A concrete case -/

/-- on the coarse grid of C74 the script is prepared, has an ocean that spans space and a positive mass factor: all theorems
apply to it -/
example (d : ℕ → Month) (x : ℕ → V3) (errs : List CSlm) (u : ℕ → ℕ → List CSlm) :
    ∃ s : Setup, Prepared s ∧ OceanSpans s.g ∧ 0 < dfac s 1 ∧ (monteCarlo s .uniform .inv 10000 200 d x errs u).isSome := by
  obtain ⟨s, -, hp, hg, hE, hk, -⟩ := setup_succeeds coarse Earth.default 0 1 one_ne_zero (fun _ => 0) (fun _ => 0)
    (fun _ => 0) 60 (by norm_num) none 60 le_rfl 300 (by norm_num) (by norm_num) coarse_usable
  have h2 : OceanFull s.g := by rw [hg]; exact coarse_full
  have ho : OceanSpans s.g := fun x hx => (h2 x 0 hx).1
  refine ⟨s, hp, ho, ?_, ?_⟩
  · rw [dfac_eq]
    unfold massFactor
    rw [hk, hE]
    have h1 := rad_pos default_ok; have h3 := rho_pos default_ok
    positivity
  · obtain ⟨it, hit, -⟩ := runs_split hp.facts ho 10000 200 d x errs u
    unfold monteCarlo
    rw [hit]
    rfl

end Verif.MonteCarlo
