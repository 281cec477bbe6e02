import Verif.Fourier.Harm
import Mathlib.Analysis.Real.Pi.Bounds

/-!
# C73: theorems about `gen_harmonics(..., METHOD='fourier')`
-/
namespace Verif.Fourier
open Verif.Legendre Verif.Analysis Verif.Synthesis Finset

/-- A regular global longitude grid (degrees) and `nlat` equal latitude cells between the poles, from
north to south or from south to north, with the latitudes at the cell centres. -/
def CellGrid (nlon nlat : ℕ) (lon lat : ℕ → ℝ) : Prop :=
  (∃ lon0, ∀ k < nlon, lon k = lon0 + 360 * k / nlon) ∧
  ((∀ i < nlat, lat i = 90 - 180 * ((i : ℝ) + 1 / 2) / nlat) ∨
    ∀ i < nlat, lat i = -90 + 180 * ((i : ℝ) + 1 / 2) / nlat)

theorem CellGrid.cells {nlon nlat : ℕ} {lon lat : ℕ → ℝ} (h : CellGrid nlon nlat lon lat) (hn : nlat ≠ 0) :
    Cells nlat (fun i => colat (lat i)) := by
  have hN : (nlat : ℝ) ≠ 0 := by exact_mod_cast hn
  rcases h.2 with h | h
  · left
    intro i hi
    simp only [colat, cell, h i hi]
    field_simp
    ring
  · right
    intro i hi
    simp only [colat, cell, h i hi]
    rw [Nat.sub_sub, Nat.cast_sub (by omega)]
    push_cast
    field_simp
    ring

theorem CellGrid.phi {nlon nlat : ℕ} {lon lat : ℕ → ℝ} (h : CellGrid nlon nlat lon lat) (hn : nlon ≠ 0) :
    ∃ a, ∀ k < nlon, lon k * Real.pi / 180 = reg a nlon k := by
  obtain ⟨l0, h0⟩ := h.1
  have hN : (nlon : ℝ) ≠ 0 := by exact_mod_cast hn
  refine ⟨l0 * Real.pi / 180, fun k hk => ?_⟩
  rw [h0 k hk]
  unfold reg
  field_simp
  ring

theorem cell_bounds (N i : ℕ) (hi : i < N) : Real.pi / (2 * N) ≤ cell N i ∧ cell N i ≤ Real.pi - Real.pi / (2 * N) := by
  have hN : (0:ℝ) < N := by exact_mod_cast (by omega : 0 < N)
  have hp := Real.pi_pos
  have h1 : (i:ℝ) + 1 ≤ N := by exact_mod_cast hi
  have h0 : (0:ℝ) ≤ i := Nat.cast_nonneg i
  have e : cell N i = Real.pi / (2 * N) + i * (Real.pi / N) := by unfold cell; field_simp; ring
  have e2 : Real.pi - Real.pi / (2 * N) - cell N i = (N - (i + 1)) * (Real.pi / N) := by unfold cell; field_simp; ring
  constructor
  · rw [e]
    have : 0 ≤ (i:ℝ) * (Real.pi / N) := by positivity
    linarith
  · have : 0 ≤ ((N:ℝ) - (i + 1)) * (Real.pi / N) := mul_nonneg (by linarith) (by positivity)
    linarith

theorem far_of_cells (N : ℕ) (hN : 0 < N) (hmax : N ≤ 49000) (th : ℕ → ℝ) (hc : Cells N th) :
    ¬ (Isclose (th 0) 0 ∨ Isclose (th (N - 1)) Real.pi) := by
  have hp := Real.pi_pos
  have hN' : (0:ℝ) < N := by exact_mod_cast hN
  have hq : Real.pi / 98000 ≤ Real.pi / (2 * N) := by
    apply div_le_div_of_nonneg_left hp.le (by positivity)
    have : (N:ℝ) ≤ 49000 := by exact_mod_cast hmax
    linarith
  have h3 : 3 < Real.pi := Real.pi_gt_three
  have key : ∀ i < N, (Real.pi / (2 * N) ≤ th i ∧ th i ≤ Real.pi - Real.pi / (2 * N)) := by
    intro i hi
    rcases hc with h | h
    · rw [h i hi]; exact cell_bounds N i hi
    · rw [h i hi]; exact cell_bounds N _ (by omega)
  unfold Isclose
  rintro (h | h)
  · have := key 0 hN
    rw [sub_zero, abs_zero, mul_zero, add_zero] at h
    have := (abs_le.1 h).2
    norm_num at this
    linarith
  · have := key (N - 1) (by omega)
    rw [abs_of_pos hp] at h
    have := (abs_le.1 h).1
    norm_num at this
    linarith

theorem reg_step (a : ℝ) (N : ℕ) (hN : 0 < N) : |reg a N 1 - reg a N 0| = 2 * Real.pi / N := by
  have hN' : (0:ℝ) < N := by exact_mod_cast hN
  have hp := Real.pi_pos
  have : reg a N 1 - reg a N 0 = 2 * Real.pi / N := by unfold reg; push_cast; ring
  rw [this, abs_of_pos (by positivity)]

/-- The computation on the oriented array. -/
theorem core_exact (LMAX : ℕ) (he : LMAX % 2 = 0) (h4 : 4 ≤ LMAX) (P : A3) (hP : fourierLegendre LMAX LMAX = some P)
    (c s : ℕ → ℕ → ℝ) (nlon nlat : ℕ) (hlon : 2 * LMAX < nlon) (hlat : LMAX < nlat) (a : ℝ) (phi th : ℕ → ℝ)
    (hphi : ∀ k < nlon, phi k = reg a nlon k) (hth : Cells nlat th) (d : ℕ → ℕ → ℝ)
    (hd : ∀ k < nlon, ∀ i < nlat, d k i = sphSum 0 LMAX LMAX (fun l m => Plm l m (Real.cos (th i)) (Real.sin (th i)))
      c s (phi k)) (l m : ℕ) (hm : m ≤ l) (hl : l ≤ LMAX) :
    sumT LMAX LMAX P (thNorm nlon nlat phi th (thInner nlat th (lonT Real.cos nlon phi d))) l m = c l m ∧
    sumT LMAX LMAX P (thNorm nlon nlat phi th (thInner nlat th (lonT Real.sin nlon phi d))) l m =
      if m = 0 then 0 else s l m := by
  obtain ⟨P', hP', hg⟩ := fourierLegendre_correct LMAX he h4
  rw [hP] at hP'
  cases hP'
  have hg' : ∀ l m, m ≤ l → l ≤ LMAX → ∀ t : ℝ, serT LMAX m (P l m) t = Plm l m (Real.cos t) (Real.sin t) := hg
  have hpar : ∀ l m j, j % 2 ≠ l % 2 → P l m j = 0 := fun l m j => (fourierLegendre_zero LMAX he h4 P hP l m j).1
  have hpi := Real.pi_pos
  have hn1 : (0:ℝ) < nlon := by exact_mod_cast (by omega : 0 < nlon)
  have hn2 : (0:ℝ) < nlat := by exact_mod_cast (by omega : 0 < nlat)
  have hnorm : (nlon : ℝ) * |phi 1 - phi 0| / (2 * Real.pi) * nlat * |th 1 - th 0| / Real.pi = 1 := by
    rw [hphi 1 (by omega), hphi 0 (by omega), reg_step a nlon (by omega), hth.step (by omega)]
    field_simp
  -- longitude transforms
  have hlonT : ∀ i < nlat, lonT Real.cos nlon phi d m i =
        ∑ l' ∈ Icc 0 LMAX, Plm l' m (Real.cos (th i)) (Real.sin (th i)) * c l' m ∧
      lonT Real.sin nlon phi d m i =
        if m = 0 then 0 else ∑ l' ∈ Icc 0 LMAX, Plm l' m (Real.cos (th i)) (Real.sin (th i)) * s l' m := by
    intro i hi
    apply lonT_series nlon LMAX m i hlon (by omega) a phi hphi d
      (fun n => ∑ l' ∈ Icc 0 LMAX, Plm l' n (Real.cos (th i)) (Real.sin (th i)) * c l' n)
      (fun n => ∑ l' ∈ Icc 0 LMAX, Plm l' n (Real.cos (th i)) (Real.sin (th i)) * s l' n)
    intro k hk
    rw [hd k hk i hi]
    unfold sphSum
    rw [sum_comm]
    apply sum_congr rfl; intro n _
    rw [sum_mul, sum_mul, ← sum_add_distrib]
    apply sum_congr rfl; intro l' _
    ring
  -- colatitude transforms
  have hser : ∀ (x : ℕ → ℝ) (t : ℝ), ∑ l' ∈ Icc 0 LMAX, Plm l' m (Real.cos t) (Real.sin t) * x l' =
      serT LMAX m (fun n => ∑ l' ∈ Icc m LMAX, x l' * P l' m n) t := by
    intro x t
    have e1 : ∑ l' ∈ Icc 0 LMAX, Plm l' m (Real.cos t) (Real.sin t) * x l' =
        ∑ l' ∈ Icc m LMAX, Plm l' m (Real.cos t) (Real.sin t) * x l' := by
      symm
      apply sum_subset
      · intro l' h; exact mem_Icc.2 ⟨Nat.zero_le _, (mem_Icc.1 h).2⟩
      · intro l' h1 h2
        rw [Plm_zero_of_lt l' m (by
          by_contra hc; exact h2 (mem_Icc.2 ⟨by omega, (mem_Icc.1 h1).2⟩)), zero_mul]
    rw [e1]
    unfold serT
    simp only [sum_mul]
    rw [sum_comm]
    apply sum_congr rfl; intro l' hl'
    rw [← hg' l' m (mem_Icc.1 hl').1 (mem_Icc.1 hl').2 t]
    unfold serT
    rw [sum_mul]
    apply sum_congr rfl; intro j _
    ring
  have hT : ∀ (x : ℕ → ℝ) (f : ℝ → ℝ),
      (∀ i < nlat, lonT f nlon phi d m i = ∑ l' ∈ Icc 0 LMAX, Plm l' m (Real.cos (th i)) (Real.sin (th i)) * x l') →
      sumT LMAX LMAX P (thNorm nlon nlat phi th (thInner nlat th (lonT f nlon phi d))) l m = x l := by
    intro x f hx
    apply sumT_exact LMAX m l he hm hl P hg' hpar x
    intro n hn
    unfold thNorm
    rw [hnorm, mul_one, thInner_series nlat LMAX m n th hth hlat hn (fun n => ∑ l' ∈ Icc m LMAX, x l' * P l' m n) _
      (fun i hi => by rw [hx i hi, hser])]
    by_cases h0 : n = 0
    · subst h0
      rw [if_pos rfl, if_pos rfl]
      by_cases hm2 : m % 2 = 0
      · rw [if_pos hm2, if_neg (by omega)]; field_simp
      · rw [if_neg hm2, if_pos (by omega), zero_div]
    · rw [if_neg h0, if_neg h0, if_neg (by tauto)]; field_simp
  constructor
  · exact hT (fun l' => c l' m) Real.cos (fun i hi => (hlonT i hi).1)
  · have := hT (fun l' => if m = 0 then 0 else s l' m) Real.sin (fun i hi => by
      rw [(hlonT i hi).2]
      split
      · simp
      · rfl)
    simpa using this

/-! ## C73 -/

/-- Analysis by the Fourier method undoes `harmonic_summation`: on a regular global longitude grid with
more than `2 LMAX` meridians and more than `LMAX` cell-centred latitudes the coefficients that produced
the grid are returned, every degree and order, exactly (the sine coefficients of order 0, which no field
depends on, as zero). -/
theorem fourier_roundtrip (eps scalef : ℝ) (hs : scalef ≠ 0) (rows LMIN LMAX : ℕ) (he : LMAX % 2 = 0) (h4 : 4 ≤ LMAX)
    (c s : ℕ → ℕ → ℝ) (nlon nlat : ℕ) (hlon : 2 * LMAX < nlon) (hlat : LMAX < nlat) (hmax : nlat ≤ 49000)
    (lon lat : ℕ → ℝ) (hg : CellGrid nlon nlat lon lat) (v : ℕ → ℕ → ℝ)
    (hv : ∀ i < nlat, ∀ k < nlon,
      harmonicSummation eps scalef rows LMIN LMAX none none c s (lon k) (lat i) = some (v i k)) :
    ∃ r, genHarmonicsFourier ⟨nlat, nlon, v⟩ nlon nlat lon lat LMAX none none = some r ∧
      ∀ l m, m ≤ l → l ≤ LMAX → r.clm l m = (if LMIN ≤ l then c l m else 0) ∧
        r.slm l m = if LMIN ≤ l ∧ m ≠ 0 then s l m else 0 := by
  obtain ⟨P, hP, _⟩ := fourierLegendre_correct LMAX he h4
  have hc := hg.cells (by omega)
  obtain ⟨a, hphi⟩ := hg.phi (by omega)
  have hfar := far_of_cells nlat (by omega) hmax _ hc
  unfold genHarmonicsFourier orient
  simp only [Option.getD_none, if_true]
  rw [if_neg (by simp; omega), show thSums nlat (fun i => colat (lat i)) = some (thInner nlat fun i => colat (lat i)) by
    unfold thSums; rw [if_neg (by tauto), if_pos hfar], show plmFourier LMAX LMAX none = some P from hP]
  refine ⟨_, rfl, ?_⟩
  intro l m hm hl
  have key := core_exact LMAX he h4 P hP (fun l m => if LMIN ≤ l then c l m else 0)
    (fun l m => if LMIN ≤ l then s l m else 0) nlon nlat hlon hlat a _ _ hphi hc (fun k i => v i k) (by
      intro k hk i hi
      have hb : -90 < lat i ∧ lat i < 90 := by
        have hN : (0:ℝ) < nlat := by exact_mod_cast (by omega : 0 < nlat)
        have h0 : (0:ℝ) ≤ i := Nat.cast_nonneg i
        have h1 : (i:ℝ) + 1 ≤ nlat := by exact_mod_cast hi
        have b1 : 0 < 180 * ((i : ℝ) + 1 / 2) / nlat := by positivity
        have b2 : 180 * ((i : ℝ) + 1 / 2) / nlat < 180 := by
          rw [div_lt_iff₀ hN]; linarith
        rcases hg.2 with h | h
        · rw [h i hi]; constructor <;> linarith
        · rw [h i hi]; constructor <;> linarith
      have h := hv i hi k hk
      rw [harmonicSummation_correct eps scalef hs rows LMIN LMAX (by omega) none c s (lon k) (lat i) hb.1 hb.2] at h
      simp only [Option.getD_none, Option.some.injEq] at h
      rw [← h]
      unfold sphSum colat
      symm
      rw [← sum_subset (s₁ := Icc LMIN LMAX) (s₂ := Icc 0 LMAX)]
      · apply sum_congr rfl; intro l' hl'
        dsimp only
        simp only [if_pos (mem_Icc.1 hl').1]
      · intro x hx; exact mem_Icc.2 ⟨Nat.zero_le _, (mem_Icc.1 hx).2⟩
      · intro x hx hx'
        have : ¬ LMIN ≤ x := fun hc => hx' (mem_Icc.2 ⟨hc, (mem_Icc.1 hx).2⟩)
        apply sum_eq_zero; intro n _
        dsimp only
        rw [if_neg this, if_neg this]; ring) l m hm hl
  refine ⟨key.1, key.2.trans ?_⟩
  by_cases h0 : m = 0
  · rw [if_pos h0, if_neg (by tauto)]
  · rw [if_neg h0]
    by_cases h1 : LMIN ≤ l
    · rw [if_pos h1, if_pos ⟨h1, h0⟩]
    · rw [if_neg h1, if_neg (by tauto)]

example (c s v : ℕ → ℕ → ℝ) (hv : ∀ i : ℕ, i < 180 → ∀ k : ℕ, k < 360 →
      harmonicSummation (1 / 2 ^ 52) (1 / 10 ^ 280) 61 2 60 none none c s (0.5 + k) (89.5 - i) = some (v i k)) :
    ∃ r, genHarmonicsFourier ⟨180, 360, v⟩ 360 180 (fun k => 0.5 + k) (fun i => 89.5 - i) 60 none none = some r ∧
      r.clm 2 1 = c 2 1 ∧ r.slm 60 60 = s 60 60 ∧ r.clm 1 0 = 0 := by
  obtain ⟨r, hr, h⟩ := fourier_roundtrip (1 / 2 ^ 52) (1 / 10 ^ 280) (by positivity) 61 2 60 (by norm_num) (by norm_num)
    c s 360 180 (by norm_num) (by norm_num) (by norm_num) (fun k => 0.5 + k) (fun i => 89.5 - i)
    ⟨⟨0.5, fun k _ => by push_cast; ring⟩, Or.inl fun i _ => by push_cast; ring⟩ v hv
  refine ⟨r, hr, ?_, ?_, ?_⟩
  · rw [(h 2 1 (by norm_num) (by norm_num)).1]; simp
  · rw [(h 60 60 (by norm_num) (by norm_num)).2]; simp
  · rw [(h 1 0 (by norm_num) (by norm_num)).1]; simp

/-! ### linearity -/

theorem lonT_linear (f : ℝ → ℝ) (nlon : ℕ) (phi : ℕ → ℝ) (d e : ℕ → ℕ → ℝ) (a b : ℝ) (m i : ℕ) :
    lonT f nlon phi (fun k i => a * d k i + b * e k i) m i = a * lonT f nlon phi d m i + b * lonT f nlon phi e m i := by
  unfold lonT
  have : ∑ k ∈ range nlon, f ((m:ℝ) * phi k) * (a * d k i + b * e k i) =
      a * ∑ k ∈ range nlon, f ((m:ℝ) * phi k) * d k i + b * ∑ k ∈ range nlon, f ((m:ℝ) * phi k) * e k i := by
    rw [mul_sum, mul_sum, ← sum_add_distrib]
    exact sum_congr rfl fun k _ => by ring
  rw [this]; ring

theorem th_linear (nlat : ℕ) (th : ℕ → ℝ) (d e f : ℕ → ℕ → ℝ) (a b : ℝ) (hf : ∀ m i, f m i = a * d m i + b * e m i)
    (m n : ℕ) : thInner nlat th f m n = a * thInner nlat th d m n + b * thInner nlat th e m n ∧
      thPoles nlat th f m n = a * thPoles nlat th d m n + b * thPoles nlat th e m n := by
  have key : ∀ S : Finset ℕ, ∑ i ∈ S, f m i * tr m n (th i) =
      a * ∑ i ∈ S, d m i * tr m n (th i) + b * ∑ i ∈ S, e m i * tr m n (th i) := by
    intro S
    rw [mul_sum, mul_sum, ← sum_add_distrib]
    exact sum_congr rfl fun i _ => by rw [hf]; ring
  constructor
  · unfold thInner; rw [key]; ring
  · unfold thPoles; rw [key, hf, hf]; ring

theorem sumT_linear (nlon nlat : ℕ) (phi th : ℕ → ℝ) (LMAX M : ℕ) (P : A3) (T U V : ℕ → ℕ → ℝ) (a b : ℝ)
    (h : ∀ m n, V m n = a * T m n + b * U m n) (l m : ℕ) :
    sumT LMAX M P (thNorm nlon nlat phi th V) l m =
      a * sumT LMAX M P (thNorm nlon nlat phi th T) l m + b * sumT LMAX M P (thNorm nlon nlat phi th U) l m := by
  have hn : ∀ n, thNorm nlon nlat phi th V m n = a * thNorm nlon nlat phi th T m n + b * thNorm nlon nlat phi th U m n := by
    intro n
    unfold thNorm
    rw [h]
    split <;> ring
  have hs : ∀ (cs : List ℕ) (g : ℕ → ℝ), (cs.map fun n => thNorm nlon nlat phi th V m n * g n).sum =
      a * (cs.map fun n => thNorm nlon nlat phi th T m n * g n).sum +
        b * (cs.map fun n => thNorm nlon nlat phi th U m n * g n).sum := by
    intro cs g
    induction cs with
    | nil => simp
    | cons x xs ih => rw [List.map_cons, List.map_cons, List.map_cons, List.sum_cons, List.sum_cons, List.sum_cons, ih, hn]; ring
  unfold sumT
  by_cases hc : m ≤ M ∧ (if l % 2 = 0 then l ≤ LMAX ∧ (m % 2 = 1 → 2 ≤ l) else l < LMAX)
  · rw [if_pos hc, if_pos hc, if_pos hc]
    dsimp only
    rw [hs]; ring
  · rw [if_neg hc, if_neg hc, if_neg hc]; ring

/-- The Fourier method is linear in the field, for every grid it accepts. -/
theorem fourier_linear (v w : ℕ → ℕ → ℝ) (nr nc nlon nlat : ℕ) (lon lat : ℕ → ℝ) (LMAX : ℕ)
    (MMAX : Option ℕ) (PLM : Option A3) (a b : ℝ) (r r' : CSlm)
    (h : genHarmonicsFourier ⟨nr, nc, v⟩ nlon nlat lon lat LMAX MMAX PLM = some r)
    (h' : genHarmonicsFourier ⟨nr, nc, w⟩ nlon nlat lon lat LMAX MMAX PLM = some r') :
    ∃ q, genHarmonicsFourier ⟨nr, nc, fun i j => a * v i j + b * w i j⟩ nlon nlat lon lat LMAX MMAX PLM = some q ∧
      ∀ l m, q.clm l m = a * r.clm l m + b * r'.clm l m ∧ q.slm l m = a * r.slm l m + b * r'.slm l m := by
  have ho : ∀ x : ℕ → ℕ → ℝ, orient nlat ⟨nr, nc, x⟩ =
      if nr = nlat then ⟨nc, nr, fun i j => x j i⟩ else ⟨nr, nc, x⟩ := fun x => rfl
  have hv : (orient nlat ⟨nr, nc, fun i j => a * v i j + b * w i j⟩).v = fun i j =>
      a * (orient nlat ⟨nr, nc, v⟩).v i j + b * (orient nlat ⟨nr, nc, w⟩).v i j := by
    rw [ho, ho, ho]; split <;> rfl
  have hr : ∀ x y : ℕ → ℕ → ℝ, (orient nlat ⟨nr, nc, x⟩).rows = (orient nlat ⟨nr, nc, y⟩).rows := by
    intro x y; rw [ho, ho]; split <;> rfl
  have hc : ∀ x y : ℕ → ℕ → ℝ, (orient nlat ⟨nr, nc, x⟩).cols = (orient nlat ⟨nr, nc, y⟩).cols := by
    intro x y; rw [ho, ho]; split <;> rfl
  unfold genHarmonicsFourier at h h' ⊢
  dsimp only at h h' ⊢
  rw [hr _ v, hc _ v, hv]
  rw [hr _ v, hc _ v] at h'
  split at h
  · cases h
  · rename_i hcond
    rw [if_neg hcond] at h' ⊢
    cases hT : thSums nlat (fun i => colat (lat i)) with
    | none => rw [hT] at h; cases h
    | some T =>
      cases hP : plmFourier LMAX (MMAX.getD LMAX) PLM with
      | none => rw [hT, hP] at h; cases h
      | some P =>
        rw [hT, hP] at h h'
        cases h; cases h'
        refine ⟨_, rfl, ?_⟩
        have key : ∀ (f : ℝ → ℝ) (m n : ℕ), T (lonT f nlon (fun k => lon k * Real.pi / 180) fun i j =>
            a * (orient nlat ⟨nr, nc, v⟩).v i j + b * (orient nlat ⟨nr, nc, w⟩).v i j) m n =
            a * T (lonT f nlon (fun k => lon k * Real.pi / 180) (orient nlat ⟨nr, nc, v⟩).v) m n +
            b * T (lonT f nlon (fun k => lon k * Real.pi / 180) (orient nlat ⟨nr, nc, w⟩).v) m n := by
          intro f m n
          have hl := th_linear nlat (fun i => colat (lat i)) _ _ _ a b
            (fun m i => lonT_linear f nlon (fun k => lon k * Real.pi / 180) (orient nlat ⟨nr, nc, v⟩).v
              (orient nlat ⟨nr, nc, w⟩).v a b m i) m n
          unfold thSums at hT
          split at hT
          · cases hT; exact hl.2
          · split at hT
            · cases hT; exact hl.1
            · cases hT
        exact fun l m => ⟨sumT_linear _ _ _ _ _ _ _ _ _ _ a b (key Real.cos) l m,
          sumT_linear _ _ _ _ _ _ _ _ _ _ a b (key Real.sin) l m⟩

/-! ### grids with the poles -/

theorem closed_sum (N n : ℕ) (h0 : 0 < n) (hn : n < 2 * N) (he : n % 2 = 0) :
    ∑ i ∈ Ico 1 N, Real.cos (n * (i * Real.pi / N)) = -1 := by
  have hN : 0 < N := by omega
  have hN' : (N : ℝ) ≠ 0 := by exact_mod_cast hN.ne'
  have h := cos_sum (2 * N) (n : ℤ) (by rw [abs_of_nonneg (by omega)]; omega) 0
  rw [if_neg (by omega), two_mul, sum_range_add] at h
  have e : ∀ i : ℕ, reg 0 (N + N) i = i * Real.pi / N := by
    intro i; unfold reg; push_cast; field_simp; ring
  simp only [e, Int.cast_natCast] at h
  have hcos : Real.cos (n * Real.pi) = 1 := by
    obtain ⟨q, rfl⟩ : ∃ q, n = 2 * q := ⟨n / 2, by omega⟩
    rw [show ((2 * q : ℕ) : ℝ) * Real.pi = q * (2 * Real.pi) by push_cast; ring, Real.cos_nat_mul_two_pi]
  have h1 : ∑ i ∈ range N, Real.cos (n * (i * Real.pi / N)) = 1 + ∑ i ∈ Ico 1 N, Real.cos (n * (i * Real.pi / N)) := by
    rw [range_eq_Ico, ← sum_Ioo_add_eq_sum_Ico (by omega : 0 < N) (f := fun i : ℕ => Real.cos (n * (i * Real.pi / N)))]
    rw [add_comm, show Ioo 0 N = Ico 1 N by ext; simp; omega]
    simp
  have h2 : ∑ i ∈ range N, Real.cos (n * (((N + i : ℕ) : ℝ) * Real.pi / N)) =
      ∑ i ∈ range N, Real.cos (n * (i * Real.pi / N)) := by
    apply sum_congr rfl; intro i _
    have : (n : ℝ) * (((N + i : ℕ) : ℝ) * Real.pi / N) = n * (i * Real.pi / N) + n * Real.pi := by
      push_cast; field_simp; ring
    rw [this]
    obtain ⟨q, rfl⟩ : ∃ q, n = 2 * q := ⟨n / 2, by omega⟩
    rw [show ((2 * q : ℕ) : ℝ) * Real.pi = q * (2 * Real.pi) by push_cast; ring, Real.cos_add_nat_mul_two_pi]
  rw [h2, h1] at h
  linarith

theorem inv_sum (L : ℕ) : ∑ i ∈ range L, (2 : ℝ) / (1 - ((2 * (i + 1) : ℕ) : ℝ) ^ 2) = -(1 - 1 / (2 * (L : ℝ) + 1)) := by
  induction L with
  | zero => simp
  | succ L ih =>
    rw [sum_range_succ, ih]
    push_cast
    have h1 : (2 * (L:ℝ) + 1) ≠ 0 := by positivity
    have h2 : (2 * ((L:ℝ) + 1) + 1) ≠ 0 := by positivity
    rw [show (1 - (2 * ((L:ℝ) + 1)) ^ 2) = -((2 * L + 1) * (2 * (L + 1) + 1)) by ring]
    field_simp
    ring

/-- On a grid that contains both poles (`N + 1` latitudes) the analysis of the constant field 1 gives
the degree 0 coefficient `1 - 1/(N (LMAX+1))`: the end points are weighted wrongly, so exactness fails on
such grids for every resolution. -/
theorem fourier_poles_constant (LMAX : ℕ) (he : LMAX % 2 = 0) (h4 : 4 ≤ LMAX) (N nlon : ℕ) (hN : LMAX < 2 * N)
    (hlon : 2 ≤ nlon) (lon0 : ℝ) :
    ∃ r, genHarmonicsFourier ⟨N + 1, nlon, fun _ _ => 1⟩ nlon (N + 1) (fun k => lon0 + 360 * k / nlon)
        (fun i => 90 - 180 * i / N) LMAX none none = some r ∧
      r.clm 0 0 = 1 - 1 / (N * (LMAX + 1)) := by
  obtain ⟨P, hP, hg⟩ := fourierLegendre_correct LMAX he h4
  have hN1 : 0 < N := by omega
  have hN' : (0:ℝ) < N := by exact_mod_cast hN1
  have hl' : (0:ℝ) < nlon := by exact_mod_cast (by omega : 0 < nlon)
  have hpi := Real.pi_pos
  have hth : ∀ i : ℕ, colat (90 - 180 * i / N) = i * Real.pi / N := by
    intro i; unfold colat; field_simp; ring
  unfold genHarmonicsFourier orient
  simp only [Option.getD_none, if_true, hth]
  rw [if_neg (by simp; omega)]
  have c0 : Isclose ((0:ℕ) * Real.pi / N) 0 := by unfold Isclose; norm_num
  have c1 : Isclose (((N + 1 - 1 : ℕ) : ℝ) * Real.pi / N) Real.pi := by
    rw [Nat.add_sub_cancel]
    unfold Isclose
    rw [show (N : ℝ) * Real.pi / N = Real.pi by field_simp]
    rw [sub_self, abs_zero]; positivity
  rw [show thSums (N + 1) (fun i : ℕ => (i:ℝ) * Real.pi / N) = some (thPoles (N + 1) fun i : ℕ => (i:ℝ) * Real.pi / N) by
    unfold thSums; rw [if_pos ⟨c0, c1⟩], show plmFourier LMAX LMAX none = some P from hP]
  refine ⟨_, rfl, ?_⟩
  dsimp only
  set phi : ℕ → ℝ := fun k => (lon0 + 360 * k / nlon) * Real.pi / 180 with hphi
  set th : ℕ → ℝ := fun i => i * Real.pi / N with hthd
  have hlonT : ∀ i, lonT Real.cos nlon phi (fun _ _ => 1) 0 i = 1 := by
    intro i
    unfold lonT
    simp
    omega
  have hT : ∀ n, n % 2 = 0 → n ≤ LMAX → thNorm nlon (N + 1) phi th (thPoles (N + 1) th (lonT Real.cos nlon phi (fun _ _ => 1))) 0 n =
      if n = 0 then ((N:ℝ) - 1) / N else -2 / N := by
    intro n hn hnL
    have hstep : (nlon : ℝ) * |phi 1 - phi 0| / (2 * Real.pi) * ((N + 1 : ℕ) : ℝ) * |th 1 - th 0| / Real.pi = (N + 1) / N := by
      have e1 : phi 1 - phi 0 = 2 * Real.pi / nlon := by
        simp only [hphi]; push_cast; field_simp; ring
      have e2 : th 1 - th 0 = Real.pi / N := by simp [hthd]
      rw [e1, e2, abs_of_pos (by positivity), abs_of_pos (by positivity)]
      push_cast
      field_simp
    have hend : (1 : ℝ) * tr 0 1 (th 0) + 1 * tr 0 1 (th (N + 1 - 1)) = 0 := by
      rw [Nat.add_sub_cancel]
      simp only [tr, hthd]
      rw [show (N : ℝ) * Real.pi / N = Real.pi by field_simp]
      simp
    unfold thNorm thPoles
    simp only [hlonT]
    rw [hstep, hend]
    simp only [Nat.add_sub_cancel, tr, if_true, Nat.zero_mod, one_mul, zero_mul, add_zero]
    by_cases h0 : n = 0
    · subst h0
      rw [if_pos rfl, if_pos rfl]
      simp only [Nat.cast_zero, zero_mul, Real.cos_zero, sum_const, Nat.card_Ico, nsmul_eq_mul, mul_one]
      rw [Nat.cast_sub hN1]
      push_cast
      field_simp
    · rw [if_neg h0, if_neg h0, closed_sum N n (by omega) (by omega) hn]
      push_cast
      field_simp
  unfold sumT
  rw [if_pos ⟨Nat.zero_le _, by simp⟩]
  dsimp only
  rw [par_sum LMAX 0 he, sum_congr rfl (fun n _ => by rw [par_sum LMAX 0 he]), bilinear]
  obtain ⟨L, rfl⟩ : ∃ L, LMAX = 2 * L := ⟨LMAX / 2, by omega⟩
  have hz := fun j => (fourierLegendre_zero (2 * L) he h4 P hP 0 0 j).1
  have h00 : ∀ t, ∑ k ∈ par (2 * L) 0, P 0 0 k * tr 0 k t = 1 := by
    intro t
    have := hg 0 0 (le_refl _) (Nat.zero_le _) t
    rw [Plm_zero_zero] at this
    rw [← this]
    unfold par
    rw [sum_filter]
    apply sum_congr rfl; intro k _
    split
    · rfl
    · rw [hz k (by omega), zero_mul]
  have e : ∀ t : ℝ, (∑ n ∈ par (2 * L) 0, thNorm nlon (N + 1) phi th (thPoles (N + 1) th (lonT Real.cos nlon phi (fun _ _ => 1))) 0 n * tr 0 n t) *
      (∑ k ∈ par (2 * L) 0, P 0 0 k * tr 0 k t) * Real.sin t =
      ∑ n ∈ par (2 * L) 0, (if n = 0 then ((N:ℝ) - 1) / N else -2 / N) * (tr 0 0 t * tr 0 n t * Real.sin t) := by
    intro t
    rw [h00 t, mul_one, sum_mul]
    apply sum_congr rfl; intro n hn
    have h1 := mem_filter.1 hn
    have h2 := mem_range.1 h1.1
    rw [hT n (by omega) (by omega)]
    have : tr 0 0 t = 1 := by simp [tr]
    rw [this]; ring
  rw [intervalIntegral.integral_congr (fun t _ => e t), intervalIntegral.integral_finsetSum (fun n _ =>
    (by have := tr_continuous 0 n; have := tr_continuous 0 0; fun_prop : Continuous fun t =>
      (if n = 0 then ((N:ℝ) - 1) / N else -2 / N) * (tr 0 0 t * tr 0 n t * Real.sin t)).intervalIntegrable _ _)]
  have e3 : ∀ n ∈ par (2 * L) 0, ∫ t in (0:ℝ)..Real.pi, (if n = 0 then ((N:ℝ) - 1) / N else -2 / N) * (tr 0 0 t * tr 0 n t * Real.sin t) =
      (if n = 0 then ((N:ℝ) - 1) / N else -2 / N) * (2 / (1 - (n:ℝ) ^ 2)) := by
    intro n hn
    have h1 := (mem_filter.1 hn).2
    rw [intervalIntegral.integral_const_mul, kern_integral 0 0 n (by omega)]
    congr 1
    unfold kern
    simp only [Nat.zero_mod, if_true, Nat.cast_zero, sub_zero, add_zero]
    have ha : (1 - (n:ℝ)) ≠ 0 := by
      intro h
      have : (n:ℝ) = 1 := by linarith
      have : n = 1 := by exact_mod_cast this
      omega
    have hb : (1 + (n:ℝ)) ≠ 0 := by positivity
    have hc : (1 - (n:ℝ) ^ 2) ≠ 0 := by
      rw [show 1 - (n:ℝ) ^ 2 = (1 - n) * (1 + n) by ring]; exact mul_ne_zero ha hb
    field_simp
    ring
  rw [sum_congr rfl e3]
  unfold par
  rw [sum_filter, sum_even L _ (by intro j hj; rw [if_neg (by omega)]), sum_range_succ']
  have e4 : ∑ i ∈ range L, (if (0 + 2 * (i + 1)) % 2 = 0 % 2 then (if (0 + 2 * (i + 1)) = 0 then ((N:ℝ) - 1) / N else -2 / (N:ℝ)) *
      (2 / (1 - ((0 + 2 * (i + 1) : ℕ):ℝ) ^ 2)) else 0) = -2 / (N : ℝ) * -(1 - 1 / (2 * (L : ℝ) + 1)) := by
    rw [← inv_sum, mul_sum]
    apply sum_congr rfl; intro i _
    rw [if_pos (by omega), if_neg (by omega), Nat.zero_add]
  rw [e4]
  simp
  have : (2 * (L:ℝ) + 1) ≠ 0 := by positivity
  field_simp
  ring

/-- A grid that reaches only one of the poles is refused (latitudes from north to south). -/
theorem fourier_one_pole (d : Mat) (nlon nlat : ℕ) (lon lat : ℕ → ℝ) (LMAX : ℕ) (MMAX : Option ℕ) (PLM : Option A3)
    (h0 : lat 0 = 90) (h1 : -89 ≤ lat (nlat - 1)) :
    genHarmonicsFourier d nlon nlat lon lat LMAX MMAX PLM = none := by
  have c0 : Isclose (colat (lat 0)) 0 := by unfold Isclose colat; rw [h0]; norm_num
  have c1 : ¬ Isclose (colat (lat (nlat - 1))) Real.pi := by
    unfold Isclose colat
    intro h
    have hp := Real.pi_gt_three
    rw [abs_of_pos (by linarith : 0 < Real.pi)] at h
    have := (abs_le.1 h).1
    have h2 : (90 - lat (nlat - 1)) * Real.pi / 180 ≤ 179 * Real.pi / 180 := by
      have : (90 - lat (nlat - 1)) * Real.pi ≤ 179 * Real.pi := mul_le_mul_of_nonneg_right (by linarith) (by linarith)
      linarith
    norm_num at this
    linarith
  unfold genHarmonicsFourier
  dsimp only
  split
  · rfl
  · rw [show thSums nlat (fun i => colat (lat i)) = none by
      unfold thSums; rw [if_neg (by tauto), if_neg (by tauto)]]
    rfl

/-- An odd `MMAX` is refused for every grid. -/
theorem fourier_odd_order (d : Mat) (nlon nlat : ℕ) (lon lat : ℕ → ℝ) (LMAX M : ℕ) (PLM : Option A3) (h : M % 2 = 1) :
    genHarmonicsFourier d nlon nlat lon lat LMAX (some M) PLM = none := by
  unfold genHarmonicsFourier
  dsimp only
  rw [if_pos (by simp; tauto)]

/-- A supplied array is used: the coefficients are linear in it. -/
theorem fourier_plm_linear (d : Mat) (nlon nlat : ℕ) (lon lat : ℕ → ℝ) (LMAX : ℕ) (MMAX : Option ℕ) (P Q : A3) (a b : ℝ)
    (r q : CSlm) (hr : genHarmonicsFourier d nlon nlat lon lat LMAX MMAX (some P) = some r)
    (hq : genHarmonicsFourier d nlon nlat lon lat LMAX MMAX (some Q) = some q) :
    ∃ o, genHarmonicsFourier d nlon nlat lon lat LMAX MMAX (some fun l m k => a * P l m k + b * Q l m k) = some o ∧
      ∀ l m, o.clm l m = a * r.clm l m + b * q.clm l m ∧ o.slm l m = a * r.slm l m + b * q.slm l m := by
  have key : ∀ (M : ℕ) (T : ℕ → ℕ → ℝ) (l m : ℕ), sumT LMAX M (fun l m k => a * P l m k + b * Q l m k) T l m =
      a * sumT LMAX M P T l m + b * sumT LMAX M Q T l m := by
    intro M T l m
    have lin : ∀ (cs : List ℕ) (f g : ℕ → ℝ), (cs.map fun n => a * f n + b * g n).sum =
        a * (cs.map f).sum + b * (cs.map g).sum := by
      intro cs f g
      induction cs with
      | nil => simp
      | cons c cs ih => simp only [List.map_cons, List.sum_cons, ih]; ring
    have e : ∀ (cs : List ℕ),
        (cs.map fun n : ℕ => T m n * (cs.map fun k : ℕ => (a * P l m k + b * Q l m k) * kern m k n).sum).sum =
        a * (cs.map fun n : ℕ => T m n * (cs.map fun k : ℕ => P l m k * kern m k n).sum).sum +
        b * (cs.map fun n : ℕ => T m n * (cs.map fun k : ℕ => Q l m k * kern m k n).sum).sum := by
      intro cs
      rw [← lin]
      congr 1
      apply List.map_congr_left
      intro n _
      have := lin cs (fun k => P l m k * kern m k n) (fun k => Q l m k * kern m k n)
      have e2 : (cs.map fun k : ℕ => (a * P l m k + b * Q l m k) * kern m k n) =
          cs.map fun k => a * (P l m k * kern m k n) + b * (Q l m k * kern m k n) :=
        List.map_congr_left fun k _ => by ring
      rw [e2, this]
      ring
    unfold sumT
    by_cases hc : m ≤ M ∧ (if l % 2 = 0 then l ≤ LMAX ∧ (m % 2 = 1 → 2 ≤ l) else l < LMAX)
    · simp only [if_pos hc]
      rw [e]
      ring
    · simp only [if_neg hc]
      ring
  unfold genHarmonicsFourier at hr hq ⊢
  dsimp only at hr hq ⊢
  split at hr
  · cases hr
  · rename_i hn
    rw [if_neg hn] at hq ⊢
    cases hT : thSums nlat (fun i => colat (lat i)) with
    | none => rw [hT] at hr; cases hr
    | some T =>
      rw [hT] at hr hq
      cases hr
      cases hq
      exact ⟨_, rfl, fun l m => ⟨key _ _ l m, key _ _ l m⟩⟩

/-- Supplying the array of `fourier_legendre` gives the same result as letting the function compute it. -/
theorem fourier_plm_supplied (d : Mat) (nlon nlat : ℕ) (lon lat : ℕ → ℝ) (LMAX : ℕ) (MMAX : Option ℕ) (P : A3)
    (hP : fourierLegendre LMAX (MMAX.getD LMAX) = some P) :
    genHarmonicsFourier d nlon nlat lon lat LMAX MMAX (some P) =
      genHarmonicsFourier d nlon nlat lon lat LMAX MMAX none := by
  unfold genHarmonicsFourier plmFourier
  dsimp only
  rw [hP]

end Verif.Fourier
