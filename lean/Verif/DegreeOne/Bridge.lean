import Verif.DegreeOne.Spec
import Verif.DegreeOne.Algebra
import Verif.Analysis.Grid
import Mathlib.Algebra.BigOperators.Field

/-!
# From the loops of `calc_degree_one` to Gram matrices (helper lemmas for C74)
-/
namespace Verif.DegreeOne
open Verif.Legendre Verif.Synthesis Verif.Units Verif.Analysis Finset

/-- the cells -/
def cells (g : Grid) : Finset (ℕ × ℕ) := range g.nlon ×ˢ range g.nlat

/-- ocean weight of a cell -/
noncomputable def wgt (g : Grid) (p : ℕ × ℕ) : ℝ := area g p.2 * ocean g p.1 p.2 / (4 * Real.pi)

/-- the three functions of the model on cells -/
noncomputable def Yc (s : Setup) (c : Fin 3) (p : ℕ × ℕ) : ℝ := Y s c p.1 p.2

theorem intFact_eq (g : Grid) (i : ℕ) : intFact g i = area g i := rfl

theorem sum_cells (g : Grid) (f : ℕ → ℕ → ℝ) :
    ∑ p ∈ cells g, f p.1 p.2 = ∑ k ∈ range g.nlon, ∑ i ∈ range g.nlat, f k i := by
  unfold cells; rw [sum_product]

theorem gridInt_cells (g : Grid) (F : ℕ → ℕ → ℝ) :
    gridInt g F = ∑ p ∈ cells g, area g p.2 * F p.1 p.2 / (4 * Real.pi) := by
  unfold gridInt
  rw [sum_cells g (fun k i => area g i * F k i / (4 * Real.pi)), Finset.sum_div]
  apply sum_congr rfl; intro k _
  rw [Finset.sum_div]

theorem oceanInt_cells (g : Grid) (F : ℕ → ℕ → ℝ) :
    oceanInt g F = ∑ p ∈ cells g, wgt g p * F p.1 p.2 := by
  unfold oceanInt
  rw [gridInt_cells]
  apply sum_congr rfl; intro p _
  unfold wgt ocean land
  split_ifs <;> ring

theorem land_add_ocean (g : Grid) (F : ℕ → ℕ → ℝ) : landInt g F + oceanInt g F = gridInt g F := by
  unfold landInt oceanInt
  simp only [gridInt_cells]
  rw [← sum_add_distrib]
  apply sum_congr rfl; intro p _
  split_ifs <;> ring

theorem landInt_eq (g : Grid) (F : ℕ → ℕ → ℝ) :
    landInt g F = gridInt g fun k i => F k i * land g k i := by
  unfold landInt land
  simp only [gridInt_cells]
  apply sum_congr rfl; intro p _
  split_ifs <;> ring

theorem oceanInt_eq (g : Grid) (F : ℕ → ℕ → ℝ) :
    oceanInt g F = gridInt g fun k i => F k i * ocean g k i := by
  unfold oceanInt ocean land
  simp only [gridInt_cells]
  apply sum_congr rfl; intro p _
  split_ifs <;> ring

theorem Q_eq (g : Grid) (F H : ℕ → ℕ → ℝ) :
    Alg.Q (cells g) (wgt g) (fun p => F p.1 p.2) (fun p => H p.1 p.2) = oceanInt g fun k i => F k i * H k i := by
  rw [oceanInt_cells]; unfold Alg.Q
  apply sum_congr rfl; intros; ring

theorem project_eq (s : Setup) (c : Fin 3) (F : ℕ → ℕ → ℝ) :
    project s c F = Alg.Q (cells s.g) (wgt s.g) (Yc s c) (fun p => F p.1 p.2) := by
  unfold project Alg.Q
  rw [sum_cells s.g (fun k i => wgt s.g (k, i) * Yc s c (k, i) * F k i), sum_comm]
  apply sum_congr rfl; intro i _
  rw [Finset.sum_div]
  apply sum_congr rfl; intro k _
  rw [intFact_eq]
  unfold wgt Yc
  ring

theorem imat_eq (s : Setup) : imat s = Alg.gram (cells s.g) (wgt s.g) (Yc s) := by
  unfold imat Alg.gram
  congr 1
  funext r c
  rw [project_eq]; rfl

theorem area_nonneg {g : Grid} (h : ∀ i < g.nlat, -90 ≤ g.lat i ∧ g.lat i ≤ 90) (i : ℕ) (hi : i < g.nlat) :
    0 ≤ area g i := by
  obtain ⟨h1, h2⟩ := h i hi
  have hpi := Real.pi_pos
  unfold area
  have : 0 ≤ Real.sin ((90 - g.lat i) * Real.pi / 180) := by
    apply Real.sin_nonneg_of_nonneg_of_le_pi
    · apply div_nonneg (mul_nonneg (by linarith) hpi.le) (by norm_num)
    · rw [div_le_iff₀ (by norm_num)]; nlinarith
  positivity

theorem area_pos {g : Grid} (hlon : g.lon 1 ≠ g.lon 0) (hlat : g.lat 1 ≠ g.lat 0) (i : ℕ)
    (h1 : -90 < g.lat i) (h2 : g.lat i < 90) : 0 < area g i := by
  have hpi := Real.pi_pos
  unfold area
  have : 0 < Real.sin ((90 - g.lat i) * Real.pi / 180) := by
    apply Real.sin_pos_of_pos_of_lt_pi
    · apply div_pos (mul_pos (by linarith) hpi) (by norm_num)
    · rw [div_lt_iff₀ (by norm_num)]; nlinarith
  have a := abs_pos.2 (sub_ne_zero.2 hlon)
  have b := abs_pos.2 (sub_ne_zero.2 hlat)
  positivity

theorem area_pole {g : Grid} (h : ∀ i < g.nlat, -90 ≤ g.lat i ∧ g.lat i ≤ 90) (i : ℕ) (hi : i < g.nlat) :
    (-90 < g.lat i ∧ g.lat i < 90) ∨ area g i = 0 := by
  obtain ⟨h1, h2⟩ := h i hi
  rcases lt_or_eq_of_le h1 with h1 | h1
  · rcases lt_or_eq_of_le h2 with h2 | h2
    · exact Or.inl ⟨h1, h2⟩
    · right; unfold area; rw [h2]; norm_num
  · right; unfold area; rw [← h1]; norm_num

theorem ocean_range (g : Grid) (k i : ℕ) : ocean g k i = 0 ∨ ocean g k i = 1 := by
  unfold ocean land; split_ifs <;> simp

theorem wgt_nonneg {g : Grid} (h : ∀ i < g.nlat, -90 ≤ g.lat i ∧ g.lat i ≤ 90) :
    ∀ p ∈ cells g, 0 ≤ wgt g p := by
  intro p hp
  unfold cells at hp
  rw [mem_product, mem_range, mem_range] at hp
  have := area_nonneg h p.2 hp.2
  have hpi := Real.pi_pos
  unfold wgt
  rcases ocean_range g p.1 p.2 with h | h <;> rw [h]
  · simp
  · positivity

/-- the properties of a setup the proofs use -/
structure Facts (s : Setup) : Prop where
  u : Usable s.g s.E s.kl
  L : 2 ≤ s.LMAX
  M : 1 ≤ s.MMAX
  P00 : ∀ i, s.P 0 0 i = 1
  Pin : ∀ l m i, l ≤ s.LMAX → -90 < s.g.lat i → s.g.lat i < 90 → s.P l m i =
    Plm l m (Real.cos ((90 - s.g.lat i) * Real.pi / 180)) (Real.sin ((90 - s.g.lat i) * Real.pi / 180))

theorem setup_facts (g : Grid) (E : Earth) (eps scalef : ℝ) (hs : scalef ≠ 0) (hl kl ll : ℕ → ℝ) (LMAX : ℕ)
    (hL : 2 ≤ LMAX) (MMAX : Option ℕ) (EXPANSION : ℕ) (RAD : ℝ) (u : Usable g E kl) (s : Setup)
    (h : setup g E eps scalef hl kl ll LMAX MMAX EXPANSION RAD = some s) : Facts s ∧ s.g = g ∧ s.E = E ∧
      s.kl = kl ∧ s.LMAX = LMAX := by
  unfold setup at h
  by_cases hE : EXPANSION < LMAX
  · rw [if_pos hE] at h; exact absurd h (by simp)
  rw [if_neg hE] at h
  simp only [Option.bind_eq_bind, Option.bind_eq_some_iff, Option.some.injEq] at h
  obtain ⟨P, hP, wt, -, h⟩ := h
  subst h
  have hP0 := hP
  obtain ⟨p, hp, hv⟩ := plmAll_interior eps scalef hs EXPANSION EXPANSION (by omega) le_rfl g.lat
  rw [hp, Option.some.injEq] at hP
  subst hP
  refine ⟨⟨u, hL, ?_, ?_, ?_⟩, rfl, rfl, rfl, rfl⟩
  · rcases MMAX with _ | _ | m
    · show 1 ≤ LMAX; omega
    · show 1 ≤ LMAX; omega
    · show 1 ≤ m + 1; omega
  · intro i
    unfold plmAll at hP0
    rw [if_neg (by omega), Option.some.injEq] at hP0
    have := congrFun (congrFun (congrFun hP0 0) 0) i
    dsimp only at this ⊢
    rw [← this]
    obtain ⟨t, ht, hg⟩ := holmes_closed eps scalef hs EXPANSION (by omega) (Real.cos (colat (g.lat i)))
    rw [ht]
    show t.p 0 0 = 1
    rw [(hg 0 0).1, if_pos (by omega), Plm_zero_zero]
  · intro l m i hl h1 h2
    dsimp only at hl h1 h2 ⊢
    rw [hv l m i (by omega) h1 h2]; rfl

variable {s : Setup}

theorem dfac_eq (l : ℕ) : dfac s l = massFactor s.E s.kl l := by
  unfold dfac harmonic massFactor
  simp only [Option.getD_some, (fraction_eq s.E s.kl l).1]
  rw [div_div, mul_comm (3 : ℝ)]

theorem dfac_ne (h : Facts s) : dfac s 1 ≠ 0 := by
  rw [dfac_eq]; unfold massFactor
  have h1 := (rad_pos h.u.ok).ne'; have h2 := (rho_pos h.u.ok).ne'
  have h3 := h.u.k1
  positivity

theorem Y_eq (h : Facts s) (c : Fin 3) (k i : ℕ) (h1 : -90 < s.g.lat i) (h2 : s.g.lat i < 90) :
    Y s c k i = Real.sqrt 3 * unitVec s.g c k i := by
  unfold Y unitVec phi
  rw [h.Pin 1 0 i (by have := h.L; omega) h1 h2, h.Pin 1 1 i (by have := h.L; omega) h1 h2, Plm_one_zero, Plm_one_one]
  fin_cases c <;> simp <;> ring

theorem comb_Y (h : Facts s) (x : V3) (k i : ℕ) (h1 : -90 < s.g.lat i) (h2 : s.g.lat i < 90) :
    Alg.comb (Yc s) x (k, i) = degOneField s.g x k i := by
  unfold Alg.comb degOneField Yc
  rw [mul_sum]
  apply sum_congr rfl; intro c _
  dsimp only
  rw [Y_eq h c k i h1 h2]; ring

/-- integrals over the ocean see only interior latitudes -/
theorem Q_interior (h : Facts s) (F H F' H' : ℕ × ℕ → ℝ)
    (e : ∀ k i, -90 < s.g.lat i → s.g.lat i < 90 → F (k, i) = F' (k, i) ∧ H (k, i) = H' (k, i)) :
    Alg.Q (cells s.g) (wgt s.g) F H = Alg.Q (cells s.g) (wgt s.g) F' H' := by
  unfold Alg.Q
  apply sum_congr rfl
  rintro ⟨k, i⟩ hp
  unfold cells at hp
  rw [mem_product, mem_range, mem_range] at hp
  rcases area_pole h.u.lats i hp.2 with ⟨h1, h2⟩ | h0
  · rw [(e k i h1 h2).1, (e k i h1 h2).2]
  · unfold wgt; rw [h0]; ring

theorem gridInt_interior (h : Facts s) (F H : ℕ → ℕ → ℝ)
    (e : ∀ k i, -90 < s.g.lat i → s.g.lat i < 90 → F k i = H k i) : gridInt s.g F = gridInt s.g H := by
  simp only [gridInt_cells]
  apply sum_congr rfl
  rintro ⟨k, i⟩ hp
  unfold cells at hp
  rw [mem_product, mem_range, mem_range] at hp
  rcases area_pole h.u.lats i hp.2 with ⟨h1, h2⟩ | h0
  · rw [e k i h1 h2]
  · dsimp only; rw [h0]; ring

theorem wgt_ne (h : Facts s) (k i : ℕ) (ho : ¬ (1 ≤ s.g.mask i k ∧ s.g.mask i k ≤ 3)) (h1 : -90 < s.g.lat i)
    (h2 : s.g.lat i < 90) : wgt s.g (k, i) ≠ 0 := by
  unfold wgt ocean land
  rw [if_neg ho]
  have := (area_pos h.u.dlon h.u.dlat i h1 h2).ne'
  have := Real.pi_pos.ne'
  positivity

theorem comb_field (h : Facts s) (x : V3) (k i : ℕ) (h1 : -90 < s.g.lat i) (h2 : s.g.lat i < 90) :
    Alg.comb (Yc s) x (k, i) = Real.sqrt 3 * ∑ j, x j * unitVec s.g j k i := comb_Y h x k i h1 h2

theorem full_of (h : Facts s) (hf : OceanFull s.g) : Alg.Full (cells s.g) (wgt s.g) (Yc s) := by
  intro x c hx
  have h3 : Real.sqrt 3 ≠ 0 := by positivity
  have := hf x (c / Real.sqrt 3) (fun k hk i hi ho h1 h2 => by
    have e := hx (k, i) (by unfold cells; rw [mem_product, mem_range, mem_range]; exact ⟨hk, hi⟩)
      (wgt_ne h k i ho h1 h2)
    rw [comb_field h x k i h1 h2] at e
    rw [eq_div_iff h3, ← e]; ring)
  refine ⟨this.1, ?_⟩
  have := this.2
  rwa [div_eq_zero_iff, or_iff_left h3] at this

theorem spans_of (h : Facts s) (hf : OceanSpans s.g) : Alg.Spans (cells s.g) (wgt s.g) (Yc s) := by
  intro x hx
  have h3 : Real.sqrt 3 ≠ 0 := by positivity
  exact hf x (fun k hk i hi ho h1 h2 => by
    have e := hx (k, i) (by unfold cells; rw [mem_product, mem_range, mem_range]; exact ⟨hk, hi⟩)
      (wgt_ne h k i ho h1 h2)
    rw [comb_field h x k i h1 h2] at e
    exact (mul_eq_zero.1 e).resolve_left h3)

theorem trig_shift (lon : ℕ → ℝ) (m k : ℕ) :
    Real.cos (m * phiRad lon k) = Real.cos (m * (lon k * Real.pi / 180)) ∧
    Real.sin (m * phiRad lon k) = Real.sin (m * (lon k * Real.pi / 180)) := by
  unfold phiRad
  split_ifs with h
  · rw [show (m : ℝ) * ((lon k + 360) * Real.pi / 180) = m * (lon k * Real.pi / 180) + m * (2 * Real.pi) by ring]
    exact ⟨Real.cos_add_nat_mul_two_pi _ _, Real.sin_add_nat_mul_two_pi _ _⟩
  · exact ⟨rfl, rfl⟩

/-- the degree 0 and 1 coefficients of `gen_stokes` in the script -/
theorem stokes1_eq (h : Facts s) (F : ℕ → ℕ → ℝ) :
    ∃ r c0, stokes1 s F = some r ∧ c0 ≠ 0 ∧ r.clm 0 0 = c0 * gridInt s.g F ∧
      c0 = (3 * (1 + s.kl 0) / (1 + 2 * (0 : ℕ)) / (4 * Real.pi * rad_e s.E * rho_e s.E)) * (4 * Real.pi) ∧
      ∀ c, deg1 r c * dfac s 1 = gridInt s.g fun k i => Y s c k i * F k i := by
  have hg := gridOk_lonlat s.g.nlon s.g.nlat F h.u.lon2 h.u.lat2 h.u.ne
  have e := genStokes_closed s.E 0 1 ⟨s.g.nlon, s.g.nlat, F⟩ s.g.nlon s.g.nlat s.g.lon s.g.lat 0 1 none (.code 1)
    (some s.P) s.kl _ _ s.P hg.1 (Or.inr (Or.inl ⟨rfl, rfl, rfl⟩)) rfl
  rw [hg.2] at e
  have h1 := (rad_pos h.u.ok).ne'; have h2 := (rho_pos h.u.ok).ne'; have h3 := Real.pi_pos.ne'
  refine ⟨_, _, e, ?_, ?_, rfl, ?_⟩
  · have h4 := h.u.k0
    have h5 : (1 : ℝ) + 2 * (0 : ℕ) ≠ 0 := by norm_num
    positivity
  · simp only [gridCoeff_eq]
    rw [if_pos (by simp)]
    unfold cellSum gridInt
    rw [(fraction_eq s.E s.kl 0).1, mul_assoc _ (4 * Real.pi) (_ / _), mul_div_cancel₀ _ (mul_ne_zero (by norm_num : (4 : ℝ) ≠ 0) h3)]
    congr 1
    apply sum_congr rfl; intro k _
    apply sum_congr rfl; intro i _
    rw [h.P00 i]
    simp only [Nat.cast_zero, zero_mul, Real.cos_zero]
    unfold areaWeight area colat stepRad
    ring
  · have h4 : fraction s.E true false s.kl 1 ≠ 0 := by rw [(fraction_eq s.E s.kl 1).1]; exact h.u.k1
    obtain ⟨a, b, ha, hb, hab⟩ := (harmonic_spatial h.u.ok true s.hl s.kl s.ll {} {}).1
    have hab := hab 1 h4
    simp only [Units.spatial, Option.some.injEq] at hb
    have hd : dfac s 1 = a 1 := by unfold dfac; rw [ha]; rfl
    rw [hd]
    have key : ∀ (f : ℝ → ℝ) (m : ℕ) (c : Fin 3), m ≤ 1 → (∀ k i, s.P 1 m i * f (m * phiRad s.g.lon k) = Y s c k i) →
        gridCoeff 0 1 (Option.getD none 1) s.g.nlon s.g.nlat f s.P (areaWeight s.g.lon s.g.lat) (phiRad s.g.lon) (fun l => 3 * fraction s.E true false s.kl l / (1 + 2 * l) / (4 * Real.pi * rad_e s.E * rho_e s.E)) F 1 m * a 1 =
          gridInt s.g fun k i => Y s c k i * F k i := by
      intro f m c hm hY
      rw [gridCoeff_eq, if_pos (by simp [hm])]
      rw [congrFun hb 1, mul_right_comm, mul_comm (b 1), hab]
      unfold gridInt cellSum
      rw [one_div, mul_comm, ← div_eq_mul_inv]
      congr 1
      apply sum_congr rfl; intro k _
      apply sum_congr rfl; intro i _
      dsimp only
      rw [← hY k i]
      unfold areaWeight area colat stepRad
      ring
    intro c
    fin_cases c
    · exact key Real.cos 0 0 (by omega) (fun k i => by simp [Y])
    · refine key Real.cos 1 1 (by omega) (fun k i => ?_)
      rw [(trig_shift s.g.lon 1 k).1]; simp [Y, phi]
    · refine key Real.sin 1 2 (by omega) (fun k i => ?_)
      rw [(trig_shift s.g.lon 1 k).2]; simp [Y, phi]

/-- degree one split off the synthesis -/
theorem gridMass_split (h : Facts s) (a : CSlm) (k i : ℕ) :
    gridMass s 1 a k i = dfac s 1 * s.wt 1 * Alg.comb (Yc s) (deg1 a) (k, i) + gridMass s 2 a k i := by
  unfold gridMass
  have hb : ∀ (m : ℕ) (c : ℕ → ℕ → ℝ), ∑ l ∈ Ico 1 (s.LMAX + 1), plmout s l m i * c l m =
      plmout s 1 m i * c 1 m + ∑ l ∈ Ico 2 (s.LMAX + 1), plmout s l m i * c l m := by
    intro m c
    rw [sum_eq_sum_Ico_succ_bot (by have := h.L; omega)]
  simp only [hb, mul_add, sum_add_distrib]
  have h1 : ∀ (f : ℕ → ℝ) (c : ℕ → ℕ → ℝ), ∑ m ∈ range (s.MMAX + 1), f m * (plmout s 1 m i * c 1 m) =
      dfac s 1 * s.wt 1 * (s.P 1 0 i * f 0 * c 1 0 + s.P 1 1 i * f 1 * c 1 1) := by
    intro f c
    have hM := h.M; have hL := h.L
    obtain ⟨M, hM'⟩ : ∃ M, s.MMAX = M + 1 := ⟨s.MMAX - 1, by omega⟩
    rw [hM', sum_range_succ', sum_range_succ', sum_eq_zero]
    · unfold plmout
      rw [if_pos (by omega), if_pos (by omega)]
      ring
    · intro m _
      unfold plmout
      rw [if_neg (by omega)]; ring
  rw [h1 (fun m => Real.cos (m * phi s.g k)), h1 (fun m => Real.sin (m * phi s.g k))]
  unfold Alg.comb Yc Y deg1
  simp only [Fin.sum_univ_three]
  simp
  ring

/-- the synthesis is the specified field at interior latitudes -/
theorem gridMass_eq (h : Facts s) (l0 : ℕ) (hl0 : 1 ≤ l0) (a : CSlm) (k i : ℕ) (h1 : -90 < s.g.lat i)
    (h2 : s.g.lat i < 90) : gridMass s l0 a k i = massField s.g s.E s.kl s.wt l0 s.LMAX s.MMAX a k i := by
  unfold gridMass massField
  simp only [mul_sum]
  rw [sum_comm, sum_comm (s := range (s.MMAX + 1)), ← sum_add_distrib]
  apply sum_congr rfl; intro l hl
  rw [mem_Ico] at hl
  rw [← sum_add_distrib]
  have hsub : range (min l s.MMAX + 1) ⊆ range (s.MMAX + 1) := by
    intro m; simp only [mem_range]; omega
  rw [← sum_subset hsub]
  · apply sum_congr rfl; intro m hm
    rw [mem_range] at hm
    unfold plmout
    rw [if_pos (by omega), h.Pin l m i (by omega) h1 h2, dfac_eq]
    unfold phi
    ring
  · intro m hm hm'
    rw [mem_range] at hm hm'
    unfold plmout
    rw [if_neg (by omega)]; ring

end Verif.DegreeOne
