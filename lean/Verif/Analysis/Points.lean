import Verif.Analysis.Grid

/-!
# Properties C37 and C64: point masses, conservation of mass, separation of orders
-/
namespace Verif.Analysis
open Verif.Legendre Verif.Synthesis Verif.Units

/-- Specification of the units table of gen_point_load -/
def PointSpec (E : Earth) (u : UnitArg) (kl df : ℕ → ℝ) (fac : ℝ) : Prop :=
  (u = .custom df ∧ fac = 1) ∨
  (∃ f, u = .code 1 ∧ (spatial E true kl {}).cmwe = some f ∧ (∀ l, df l = f l / rad_e E ^ 2) ∧ fac = 1) ∨
  (∃ f, u = .code 2 ∧ (spatial E true kl {}).cmwe = some f ∧ (∀ l, df l = f l / rad_e E ^ 2) ∧ fac = 1e15)

theorem pointFactors_spec (E : Earth) (u : UnitArg) (kl df : ℕ → ℝ) (fac : ℝ) (h : PointSpec E u kl df fac) :
    pointFactors E u kl = some (df, fac) := by
  rcases h with ⟨rfl, rfl⟩ | ⟨f, rfl, h, hd, rfl⟩ | ⟨f, rfl, h, hd, rfl⟩
  · rfl
  · unfold pointFactors; dsimp only; rw [if_pos rfl, h]
    simp only [Option.map_some, Option.some.injEq, Prod.mk.injEq, and_true]
    funext l; exact (hd l).symm
  · unfold pointFactors; dsimp only; rw [if_neg (by decide), if_pos rfl, h]
    simp only [Option.map_some, Option.some.injEq, Prod.mk.injEq, and_true]
    funext l; exact (hd l).symm

/-- Specification: harmonics of point masses, `factor sum_p mass_p P_lm(theta_p) f(m phi_p)` -/
noncomputable def pointSum (npts : ℕ) (f : ℝ → ℝ) (mass lon lat : ℕ → ℝ) (l m : ℕ) : ℝ :=
  ∑ i ∈ Finset.range npts, mass i * Plm l m (Real.cos (colat (lat i))) (Real.sin (colat (lat i))) *
    f (m * (lon i * Real.pi / 180))

/-- latitudes at which `legendre` is exact to degree `LMAX`: the poles, and latitudes whose sectoral
power does not underflow -/
def PointOk (tol : ℝ) (LMAX : ℕ) (lat : ℝ) : Prop :=
  lat = 90 ∨ lat = -90 ∨ (-90 < lat ∧ lat < 90 ∧ tol ≤ Real.sin (colat lat) ^ LMAX)

theorem leg_point (tol : ℝ) (ht : 0 < tol) (under : ℕ → ℝ → ℕ → ℝ) (LMAX : ℕ) (lat : ℝ) (h : PointOk tol LMAX lat)
    (l m : ℕ) (hl : l ≤ LMAX) (hm : m ≤ l) :
    legendre tol under l (Real.cos (colat lat)) true m =
      Plm l m (Real.cos (colat lat)) (Real.sin (colat lat)) := by
  have hsc := Real.sin_sq_add_cos_sq (colat lat)
  have pole : Real.sin (colat lat) = 0 → legendre tol under l (Real.cos (colat lat)) true m =
      Plm l m (Real.cos (colat lat)) (Real.sin (colat lat)) := by
    intro h0
    rw [h0]
    exact legendre_normalized_pole tol ht under l _ (by rw [h0] at hsc; linarith) m hm
  rcases h with rfl | rfl | ⟨h1, h2, h3⟩
  · apply pole; unfold colat; norm_num
  · apply pole; unfold colat; norm_num
  · have hpi := Real.pi_pos
    have h0 : 0 < colat lat := by
      unfold colat
      have : 0 < 90 - lat := by linarith
      positivity
    have h4 : colat lat < Real.pi := by
      unfold colat
      rw [div_lt_iff₀ (by norm_num)]; nlinarith
    have hs := Real.sin_pos_of_pos_of_lt_pi h0 h4
    have he : Real.sqrt (1 - Real.cos (colat lat) ^ 2) = Real.sin (colat lat) := by
      rw [show 1 - Real.cos (colat lat) ^ 2 = Real.sin (colat lat) ^ 2 by linarith, Real.sqrt_sq hs.le]
    rw [legendre_normalized tol under l _ (by nlinarith) _ m hm, he]
    unfold NoUnderflow
    rw [he]
    exact h3.trans (pow_le_pow_of_le_one hs.le (Real.sin_le_one _) hl)

theorem sphMatrix_parts (leg : ℕ → ℝ → ℕ → ℝ) (npts l : ℕ) (D phi theta : ℕ → ℝ) (c : ℝ) (m : ℕ) :
    (sphMatrix leg npts l D phi theta c m).re =
      ∑ i ∈ Finset.range npts, c * D i * leg l (Real.cos (theta i)) m * Real.cos (m * phi i) ∧
    (sphMatrix leg npts l D phi theta c m).im =
      ∑ i ∈ Finset.range npts, c * D i * leg l (Real.cos (theta i)) m * Real.sin (m * phi i) := by
  unfold sphMatrix
  rw [sum_map_range, Complex.re_sum, Complex.im_sum]
  constructor <;> apply Finset.sum_congr rfl <;> intro i _
  · rw [Complex.re_ofReal_mul, mul_comm Complex.I, Complex.exp_ofReal_mul_I_re, mul_comm (phi i)]
  · rw [Complex.im_ofReal_mul, mul_comm Complex.I, Complex.exp_ofReal_mul_I_im, mul_comm (phi i)]

/-- C37: `gen_point_load` returns the harmonics of the point masses, truncated to `l <= LMAX`,
`m <= min(l, MMAX)`, for any number of points other than one -/
theorem genPointLoad_correct (E : Earth) (tol : ℝ) (ht : 0 < tol) (under : ℕ → ℝ → ℕ → ℝ) (npts : ℕ) (hn : npts ≠ 1)
    (data lon lat : ℕ → ℝ) (LMAX : ℕ) (MMAX : Option ℕ) (u : UnitArg) (kl df : ℕ → ℝ) (fac : ℝ)
    (hu : PointSpec E u kl df fac) (hp : ∀ i < npts, PointOk tol LMAX (lat i)) :
    ∃ r, genPointLoad E (fun l x => legendre tol under l x true) npts data lon lat LMAX MMAX u kl = some r ∧ ∀ l m,
      (l ≤ LMAX ∧ m ≤ l ∧ m ≤ MMAX.getD LMAX →
        r.clm l m = df l * pointSum npts Real.cos (fun i => fac * data i) lon lat l m ∧
        r.slm l m = df l * pointSum npts Real.sin (fun i => fac * data i) lon lat l m) ∧
      (¬ (l ≤ LMAX ∧ m ≤ l ∧ m ≤ MMAX.getD LMAX) → r.clm l m = 0 ∧ r.slm l m = 0) := by
  refine ⟨_, by unfold genPointLoad; simp only; rw [if_neg hn, pointFactors_spec E u kl df fac hu, Option.map_some], ?_⟩
  intro l m
  refine ⟨fun h => ?_, fun h => ?_⟩
  · have hc : l ≤ LMAX ∧ m < min l (MMAX.getD LMAX) + 1 := ⟨h.1, by omega⟩
    simp only
    rw [if_pos hc, if_pos hc, (sphMatrix_parts _ _ _ _ _ _ _ _).1, (sphMatrix_parts _ _ _ _ _ _ _ _).2]
    unfold pointSum
    rw [Finset.mul_sum, Finset.mul_sum]
    constructor <;> apply Finset.sum_congr rfl <;> intro i hi <;>
      rw [show Real.pi * (90 - lat i) / 180 = colat (lat i) by unfold colat; ring,
        leg_point tol ht under LMAX (lat i) (hp i (Finset.mem_range.1 hi)) l m h.1 h.2.1,
        show Real.pi * lon i / 180 = lon i * Real.pi / 180 by ring] <;> ring
  · have hc : ¬ (l ≤ LMAX ∧ m < min l (MMAX.getD LMAX) + 1) := fun hc => h ⟨hc.1, by omega, by omega⟩
    simp only
    rw [if_neg hc, if_neg hc]
    exact ⟨rfl, rfl⟩

/-- the hypotheses are met by two points (one of them a pole), in gigatonnes, to degree 60 -/
example (kl : ℕ → ℝ) : (∀ i < 2, PointOk (1 / 10 ^ 153) 60 (if i = 0 then 90 else 0)) ∧
    ∃ df, PointSpec Earth.default (.code 2) kl df 1e15 := by
  refine ⟨?_, _, Or.inr (Or.inr ⟨_, rfl, rfl, fun l => rfl, rfl⟩)⟩
  intro i _
  split_ifs
  · left; rfl
  · right; right
    refine ⟨by norm_num, by norm_num, ?_⟩
    have : colat 0 = Real.pi / 2 := by unfold colat; ring
    rw [this, Real.sin_pi_div_two]; norm_num

/-- C37: a single point raises -/
theorem genPointLoad_single (E : Earth) (leg : ℕ → ℝ → ℕ → ℝ) (data lon lat : ℕ → ℝ) (LMAX : ℕ) (MMAX : Option ℕ)
    (u : UnitArg) (kl : ℕ → ℝ) : genPointLoad E leg 1 data lon lat LMAX MMAX u kl = none := by
  unfold genPointLoad; exact if_pos rfl

/-- C37: the harmonics of two groups of points taken together are the sums of the harmonics of the
groups, at every latitude and also where `legendre` underflows -/
theorem genPointLoad_append (E : Earth) (leg : ℕ → ℝ → ℕ → ℝ) (a b : ℕ) (hab : a + b ≠ 1) (data lon lat : ℕ → ℝ)
    (LMAX : ℕ) (MMAX : Option ℕ) (u : UnitArg) (kl : ℕ → ℝ) (r s : CSlm)
    (h1 : genPointLoad E leg a data lon lat LMAX MMAX u kl = some r)
    (h2 : genPointLoad E leg b (fun i => data (a + i)) (fun i => lon (a + i)) (fun i => lat (a + i)) LMAX MMAX u kl = some s) :
    ∃ t, genPointLoad E leg (a + b) data lon lat LMAX MMAX u kl = some t ∧
      ∀ l m, t.clm l m = r.clm l m + s.clm l m ∧ t.slm l m = r.slm l m + s.slm l m := by
  unfold genPointLoad at *
  simp only at *
  by_cases ha : a = 1
  · rw [if_pos ha] at h1; cases h1
  by_cases hb : b = 1
  · rw [if_pos hb] at h2; cases h2
  rw [if_neg ha] at h1
  rw [if_neg hb] at h2
  rw [if_neg hab]
  cases hf : pointFactors E u kl with
  | none => rw [hf] at h1; cases h1
  | some fi =>
    rw [hf] at h1 h2
    simp only [Option.map_some, Option.some.injEq] at h1 h2 ⊢
    subst h1; subst h2
    refine ⟨_, rfl, fun l m => ?_⟩
    simp only
    by_cases hc : l ≤ LMAX ∧ m < min l (MMAX.getD LMAX) + 1
    · simp only [if_pos hc, (sphMatrix_parts _ _ _ _ _ _ _ _).1, (sphMatrix_parts _ _ _ _ _ _ _ _).2,
        Finset.sum_range_add]
      exact ⟨trivial, trivial⟩
    · simp only [if_neg hc]; exact ⟨by ring, by ring⟩

/-! ## gigatonnes on a grid are point masses -/

theorem sum_range_mul (a n : ℕ) (g : ℕ → ℝ) :
    ∑ k ∈ Finset.range (a * n), g k = ∑ j ∈ Finset.range a, ∑ i ∈ Finset.range n, g (j * n + i) := by
  induction a with
  | zero => simp
  | succ a ih => rw [Finset.sum_range_succ, ← ih, Nat.succ_mul, Finset.sum_range_add]

theorem cos_phiRad (lon : ℕ → ℝ) (i m : ℕ) (f : ℝ → ℝ) (hf : f = Real.cos ∨ f = Real.sin) :
    f (m * phiRad lon i) = f (m * (lon i * Real.pi / 180)) := by
  unfold phiRad
  split_ifs
  · have : (lon i + 360) * Real.pi / 180 = lon i * Real.pi / 180 + ((1 : ℤ) : ℝ) * (2 * Real.pi) := by push_cast; ring
    rw [this]
    rcases hf with rfl | rfl
    · exact cos_shift m _ 1
    · exact sin_shift m _ 1
  · rfl

/-- C37: a latitude-longitude grid of masses in gigatonnes gives the same harmonics through
`gen_stokes` and, flattened, through `gen_point_load` -/
theorem gigatonnes_agree (E : Earth) (eps scalef tol : ℝ) (hs : scalef ≠ 0) (ht : 0 < tol)
    (under : ℕ → ℝ → ℕ → ℝ) (v : ℕ → ℕ → ℝ) (nlon nlat : ℕ) (h1 : 2 ≤ nlon) (h2 : 2 ≤ nlat) (lon lat : ℕ → ℝ)
    (LMAX : ℕ) (hL : 2 ≤ LMAX) (MMAX : Option ℕ) (hM : MMAX.getD LMAX ≤ LMAX) (kl : ℕ → ℝ)
    (hlat : ∀ j < nlat, -90 < lat j ∧ lat j < 90 ∧ tol ≤ Real.sin (colat (lat j)) ^ LMAX) :
    ∃ r s, genStokes E eps scalef ⟨nlat, nlon, v⟩ nlon nlat lon lat 0 LMAX MMAX (.code 2) none kl = some r ∧
      genPointLoad E (fun l x => legendre tol under l x true) (nlat * nlon)
        (fun k => v (k / nlon) (k % nlon)) (fun k => lon (k % nlon)) (fun k => lat (k / nlon))
        LMAX MMAX (.code 2) kl = some s ∧
      ∀ l m, r.clm l m = s.clm l m ∧ r.slm l m = s.slm l m := by
  obtain ⟨f, hf⟩ : ∃ f, (spatial E true kl {}).cmwe = some f := ⟨_, rfl⟩
  obtain ⟨hg, hv⟩ := gridOk_latlon nlon nlat v h1 h2
  obtain ⟨r, hr, hrv⟩ := genStokes_correct E eps scalef hs ⟨nlat, nlon, v⟩ nlon nlat lon lat 0 LMAX hL MMAX hM (.code 2)
    kl f _ hg (Or.inr (Or.inr (Or.inl ⟨rfl, hf, rfl⟩))) (fun j hj => Or.inl ⟨(hlat j hj).1, (hlat j hj).2.1⟩)
  have hk : ∀ k < nlat * nlon, k / nlon < nlat := fun k hk => Nat.div_lt_of_lt_mul (by rwa [mul_comm])
  obtain ⟨s, hsv, hss⟩ := genPointLoad_correct E tol ht under (nlat * nlon) (by nlinarith)
    (fun k => v (k / nlon) (k % nlon)) (fun k => lon (k % nlon)) (fun k => lat (k / nlon)) LMAX MMAX (.code 2) kl
    (fun l => f l / rad_e E ^ 2) 1e15 (Or.inr (Or.inr ⟨f, rfl, hf, fun _ => rfl, rfl⟩))
    (fun k hk' => Or.inr (Or.inr (hlat _ (hk k hk'))))
  refine ⟨r, s, hr, hsv, fun l m => ?_⟩
  have key : ∀ g : ℝ → ℝ, (g = Real.cos ∨ g = Real.sin) →
      f l * cellSum nlon nlat g (trueP lat l m) (fun _ => 1e15 / rad_e E ^ 2) (phiRad lon) (lonLat nlat ⟨nlat, nlon, v⟩) m =
      f l / rad_e E ^ 2 * pointSum (nlat * nlon) g (fun k => 1e15 * v (k / nlon) (k % nlon))
        (fun k => lon (k % nlon)) (fun k => lat (k / nlon)) l m := by
    intro g hg'
    unfold cellSum pointSum
    rw [sum_range_mul, Finset.sum_comm, hv, Finset.mul_sum, Finset.mul_sum]
    apply Finset.sum_congr rfl; intro j _
    rw [Finset.mul_sum, Finset.mul_sum]
    apply Finset.sum_congr rfl; intro i hi
    have hi := Finset.mem_range.1 hi
    have e1 : (j * nlon + i) / nlon = j := by
      rw [mul_comm, Nat.mul_add_div (by omega), Nat.div_eq_of_lt hi, add_zero]
    have e2 : (j * nlon + i) % nlon = i := by
      rw [mul_comm, Nat.mul_add_mod, Nat.mod_eq_of_lt hi]
    dsimp only
    rw [e1, e2, cos_phiRad lon i m g hg']
    unfold trueP
    ring
  by_cases c : l ≤ LMAX ∧ m ≤ l ∧ m ≤ MMAX.getD LMAX
  · have a := (hrv l m).1 ⟨Nat.zero_le _, c⟩
    have b := (hss l m).1 c
    rw [a.1, a.2, b.1, b.2]
    exact ⟨key _ (Or.inl rfl), key _ (Or.inr rfl)⟩
  · have a := (hrv l m).2 (fun h => c h.2)
    have b := (hss l m).2 c
    rw [a.1, a.2, b.1, b.2]
    exact ⟨rfl, rfl⟩

/-! ## C64: conservation of mass -/

theorem cmwe_zero (E : Earth) (kl : ℕ → ℝ) (h0 : kl 0 = 0) (h : E.Ok) (f : ℕ → ℝ)
    (hf : (spatial E true kl {}).cmwe = some f) : f 0 * mass E = rad_e E ^ 2 := by
  have h1 := (rad_pos h).ne'; have h2 := (rho_pos h).ne'; have h3 := Real.pi_pos.ne'
  simp only [spatial, Option.some.injEq] at hf
  subst hf
  simp only
  rw [(fraction_eq E kl 0).1, h0]
  unfold mass
  push_cast
  field_simp
  ring

/-- C64: the degree-zero coefficient of a grid in cm water equivalent times the mass of the Earth is the
numerically integrated mass `R^2 sum data sin(theta) dtheta dphi` (grams), whatever the truncation -/
theorem mass_cmwe (E : Earth) (hE : E.Ok) (eps scalef : ℝ) (hs : scalef ≠ 0) (d : Mat) (nlon nlat : ℕ)
    (lon lat : ℕ → ℝ) (LMAX : ℕ) (hL : 2 ≤ LMAX) (MMAX : Option ℕ) (hM : MMAX.getD LMAX ≤ LMAX) (kl : ℕ → ℝ)
    (h0 : kl 0 = 0) (hg : GridOk d nlon nlat)
    (hlat : ∀ j < nlat, (-90 < lat j ∧ lat j < 90) ∨ areaWeight lon lat j = 0) :
    ∃ r, genStokes E eps scalef d nlon nlat lon lat 0 LMAX MMAX (.code 1) none kl = some r ∧
      r.clm 0 0 * mass E = rad_e E ^ 2 * ∑ i ∈ Finset.range nlon, ∑ j ∈ Finset.range nlat,
        lonLat nlat d i j * (Real.sin (colat (lat j)) * stepRad lon * stepRad lat) := by
  obtain ⟨f, hf⟩ : ∃ f, (spatial E true kl {}).cmwe = some f := ⟨_, rfl⟩
  obtain ⟨r, hr, hrv⟩ := genStokes_correct E eps scalef hs d nlon nlat lon lat 0 LMAX hL MMAX hM (.code 1)
    kl f _ hg (Or.inr (Or.inl ⟨rfl, hf, rfl⟩)) hlat
  refine ⟨r, hr, ?_⟩
  rw [((hrv 0 0).1 ⟨le_rfl, by omega, le_rfl, Nat.zero_le _⟩).1, mul_assoc, mul_comm (cellSum _ _ _ _ _ _ _ _), ← mul_assoc,
    cmwe_zero E kl h0 hE f hf]
  congr 1
  unfold cellSum trueP areaWeight
  apply Finset.sum_congr rfl; intro i _
  apply Finset.sum_congr rfl; intro j _
  rw [Plm_zero_zero]; simp

/-- C64: for a grid in gigatonnes it is the sum of the masses times `10^15` g; no latitude weight -/
theorem mass_gigatonnes (E : Earth) (hE : E.Ok) (eps scalef : ℝ) (hs : scalef ≠ 0) (d : Mat) (nlon nlat : ℕ)
    (lon lat : ℕ → ℝ) (LMAX : ℕ) (hL : 2 ≤ LMAX) (MMAX : Option ℕ) (hM : MMAX.getD LMAX ≤ LMAX) (kl : ℕ → ℝ)
    (h0 : kl 0 = 0) (hg : GridOk d nlon nlat) (hlat : ∀ j < nlat, -90 < lat j ∧ lat j < 90) :
    ∃ r, genStokes E eps scalef d nlon nlat lon lat 0 LMAX MMAX (.code 2) none kl = some r ∧
      r.clm 0 0 * mass E = 10 ^ 15 * ∑ i ∈ Finset.range nlon, ∑ j ∈ Finset.range nlat, lonLat nlat d i j := by
  obtain ⟨f, hf⟩ : ∃ f, (spatial E true kl {}).cmwe = some f := ⟨_, rfl⟩
  obtain ⟨r, hr, hrv⟩ := genStokes_correct E eps scalef hs d nlon nlat lon lat 0 LMAX hL MMAX hM (.code 2)
    kl f _ hg (Or.inr (Or.inr (Or.inl ⟨rfl, hf, rfl⟩))) (fun j hj => Or.inl (hlat j hj))
  refine ⟨r, hr, ?_⟩
  rw [((hrv 0 0).1 ⟨le_rfl, by omega, le_rfl, Nat.zero_le _⟩).1, mul_assoc, mul_comm (cellSum _ _ _ _ _ _ _ _), ← mul_assoc,
    cmwe_zero E kl h0 hE f hf]
  have hR := (rad_pos hE).ne'
  unfold cellSum trueP
  rw [Finset.mul_sum, Finset.mul_sum]
  apply Finset.sum_congr rfl; intro i _
  rw [Finset.mul_sum, Finset.mul_sum]
  apply Finset.sum_congr rfl; intro j _
  rw [Plm_zero_zero, Nat.cast_zero, zero_mul, Real.cos_zero]
  field_simp
  norm_num

/-- C64: for point masses in grams the degree-zero coefficient times the mass of the Earth is the total
mass, at all latitudes -/
theorem mass_points (E : Earth) (hE : E.Ok) (tol : ℝ) (under : ℕ → ℝ → ℕ → ℝ) (npts : ℕ) (hn : npts ≠ 1)
    (data lon lat : ℕ → ℝ) (LMAX : ℕ) (MMAX : Option ℕ) (kl : ℕ → ℝ) (h0 : kl 0 = 0) :
    ∃ r, genPointLoad E (fun l x => legendre tol under l x true) npts data lon lat LMAX MMAX (.code 1) kl = some r ∧
      r.clm 0 0 * mass E = ∑ i ∈ Finset.range npts, data i := by
  obtain ⟨f, hf⟩ : ∃ f, (spatial E true kl {}).cmwe = some f := ⟨_, rfl⟩
  refine ⟨_, by unfold genPointLoad; simp only; rw [if_neg hn, pointFactors_spec E (.code 1) kl
    (fun l => f l / rad_e E ^ 2) 1 (Or.inr (Or.inl ⟨f, rfl, hf, fun _ => rfl, rfl⟩)), Option.map_some], ?_⟩
  simp only
  rw [if_pos ⟨Nat.zero_le _, by omega⟩, (sphMatrix_parts _ _ _ _ _ _ _ _).1, Finset.sum_mul]
  apply Finset.sum_congr rfl; intro i _
  have hR := (rad_pos hE).ne'
  have hz := cmwe_zero E kl h0 hE f hf
  unfold legendre
  rw [if_pos rfl, Nat.cast_zero, zero_mul, Real.cos_zero]
  have : f 0 / rad_e E ^ 2 * (1 * data i) * 1 * 1 * mass E = (f 0 * mass E) / rad_e E ^ 2 * data i := by ring
  rw [this, hz, div_self (by positivity), one_mul]

/-! ## C64: orders do not leak into each other -/

/-- Gram matrix of the Legendre functions of order `m` under the latitude weights -/
noncomputable def gram (nlat : ℕ) (p : ℕ → ℕ → ℕ → ℝ) (w : ℕ → ℝ) (m l l' : ℕ) : ℝ :=
  ∑ j ∈ Finset.range nlat, p l m j * p l' m j * w j

/-- C64: on a regular global longitude grid of `N > 2 MMAX` meridians, analysing the field synthesised by
the truncated sum from `clm`, `slm` mixes degrees of the same order only, through the Gram matrix of the
latitude grid: no order leaks into another, and cosines and sines stay apart -/
theorem roundtrip (LMAX MMAX N nlat : ℕ) (hN : 2 * MMAX < N) (a : ℝ) (p : ℕ → ℕ → ℕ → ℝ) (w df : ℕ → ℝ)
    (clm slm : ℕ → ℕ → ℝ) (l m : ℕ) (hl : l ≤ LMAX) (hm : m ≤ min MMAX l) :
    gridCoeff 0 LMAX MMAX N nlat Real.cos p w (reg a N) df
        (fun i j => harmSumCore 0 LMAX MMAX clm slm (fun l m => p l m j) (reg a N i)) l m =
      df l * (if m = 0 then (N : ℝ) else N / 2) * ∑ l' ∈ Finset.Icc 0 LMAX, gram nlat p w m l l' * clm l' m ∧
    gridCoeff 0 LMAX MMAX N nlat Real.sin p w (reg a N) df
        (fun i j => harmSumCore 0 LMAX MMAX clm slm (fun l m => p l m j) (reg a N i)) l m =
      df l * (if m = 0 then (0 : ℝ) else N / 2) * ∑ l' ∈ Finset.Icc 0 LMAX, gram nlat p w m l l' * slm l' m := by
  have hm' : m ≤ MMAX := by omega
  have general : ∀ (f : ℝ → ℝ) (A B : ℝ) (x : ℕ → ℝ),
      (∀ n ≤ MMAX, ∀ l' : ℕ, ∑ i ∈ Finset.range N, f (m * reg a N i) *
        (clm l' n * Real.cos (n * reg a N i) + slm l' n * Real.sin (n * reg a N i)) = if n = m then A * x l' else 0) →
      gridCoeff 0 LMAX MMAX N nlat f p w (reg a N) df
        (fun i j => harmSumCore 0 LMAX MMAX clm slm (fun l m => p l m j) (reg a N i)) l m =
      df l * A * ∑ l' ∈ Finset.Icc 0 LMAX, gram nlat p w m l l' * x l' := by
    intro f A B x h
    rw [gridCoeff_eq, if_pos ⟨Nat.zero_le _, hl, hm⟩, mul_assoc]
    congr 1
    unfold cellSum
    simp only [harmSumCore_eq, sphSum]
    rw [Finset.sum_comm]
    have inner : ∀ j, ∑ i ∈ Finset.range N, f (m * reg a N i) * p l m j *
        (∑ l' ∈ Finset.Icc 0 LMAX, ∑ n ∈ Finset.range (MMAX + 1), p l' n j *
          (clm l' n * Real.cos (n * reg a N i) + slm l' n * Real.sin (n * reg a N i))) * w j =
        A * ∑ l' ∈ Finset.Icc 0 LMAX, p l m j * p l' m j * w j * x l' := by
      intro j
      have e : ∀ i, f (m * reg a N i) * p l m j *
        (∑ l' ∈ Finset.Icc 0 LMAX, ∑ n ∈ Finset.range (MMAX + 1), p l' n j *
          (clm l' n * Real.cos (n * reg a N i) + slm l' n * Real.sin (n * reg a N i))) * w j =
          ∑ l' ∈ Finset.Icc 0 LMAX, ∑ n ∈ Finset.range (MMAX + 1), (p l m j * p l' n j * w j) *
            (f (m * reg a N i) * (clm l' n * Real.cos (n * reg a N i) + slm l' n * Real.sin (n * reg a N i))) := by
        intro i
        rw [Finset.mul_sum, Finset.sum_mul]
        apply Finset.sum_congr rfl; intro l' _
        rw [Finset.mul_sum, Finset.sum_mul]
        apply Finset.sum_congr rfl; intro n _
        ring
      simp only [e]
      rw [Finset.sum_comm, Finset.mul_sum]
      apply Finset.sum_congr rfl; intro l' _
      rw [Finset.sum_comm]
      have e2 : ∀ n ∈ Finset.range (MMAX + 1), ∑ i ∈ Finset.range N, (p l m j * p l' n j * w j) *
            (f (m * reg a N i) * (clm l' n * Real.cos (n * reg a N i) + slm l' n * Real.sin (n * reg a N i))) =
          if n = m then p l m j * p l' n j * w j * (A * x l') else 0 := by
        intro n hn
        rw [← Finset.mul_sum, h n (by have := Finset.mem_range.1 hn; omega) l']
        split_ifs <;> ring
      rw [Finset.sum_congr rfl e2, Finset.sum_ite_eq' (Finset.range (MMAX + 1)) m]
      rw [if_pos (Finset.mem_range.2 (by omega))]
      ring
    simp only [inner]
    rw [← Finset.mul_sum, Finset.sum_comm]
    congr 1
    apply Finset.sum_congr rfl; intro l' _
    unfold gram
    rw [Finset.sum_mul]
  constructor
  · apply general Real.cos _ 0 (fun l' => clm l' m)
    intro n hn l'
    have h1 := cosines N m n (by omega) a
    have h2 := sine_cosines N n m (by omega) a
    have : ∀ i, Real.cos (m * reg a N i) * (clm l' n * Real.cos (n * reg a N i) + slm l' n * Real.sin (n * reg a N i)) =
      clm l' n * (Real.cos (m * reg a N i) * Real.cos (n * reg a N i)) +
        slm l' n * (Real.sin (n * reg a N i) * Real.cos (m * reg a N i)) := by intro i; ring
    simp only [this]
    rw [Finset.sum_add_distrib, ← Finset.mul_sum, ← Finset.mul_sum, h1, h2]
    by_cases hnm : m = n
    · subst hnm; simp; ring_nf
    · rw [if_neg hnm, if_neg (fun h => hnm h.symm)]; ring
  · apply general Real.sin _ 0 (fun l' => slm l' m)
    intro n hn l'
    have h1 := sines N m n (by omega) a
    have h2 := sine_cosines N m n (by omega) a
    have : ∀ i, Real.sin (m * reg a N i) * (clm l' n * Real.cos (n * reg a N i) + slm l' n * Real.sin (n * reg a N i)) =
      clm l' n * (Real.sin (m * reg a N i) * Real.cos (n * reg a N i)) +
        slm l' n * (Real.sin (m * reg a N i) * Real.sin (n * reg a N i)) := by intro i; ring
    simp only [this]
    rw [Finset.sum_add_distrib, ← Finset.mul_sum, ← Finset.mul_sum, h1, h2]
    by_cases hnm : m = n
    · subst hnm; simp; ring_nf
    · rw [if_neg hnm, if_neg (fun h => hnm h.symm)]; ring

/-- the hypothesis holds for a one-degree grid and orders to 60 -/
example : 2 * 60 < 360 := by norm_num

end Verif.Analysis
