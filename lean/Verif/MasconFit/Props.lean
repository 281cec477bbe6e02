import Verif.MasconFit.Fit
import Verif.Analysis.Grid
import Mathlib.Algebra.BigOperators.Field
import Verif.Units.Props

/-!
# Property C75: mascon estimates (calc_mascon, calc_sensitivity_kernel, mascon_reconstruct)
-/
namespace Verif.MasconFit
open Verif.Units Verif.Analysis Finset

/-! ## Which calls succeed -/

/-- C75: the arrays have a place for every coefficient that takes part (and no more), exactly if the first
degree is at most one above the largest order -/
theorem array_size (LMIN LMAX MMAX : ℕ) (h : LMIN ≤ LMAX) (hM : MMAX ≤ LMAX) :
    (nHarm LMIN LMAX MMAX : ℝ) = coefSum LMIN LMAX MMAX (fun _ => 1) ↔ LMIN ≤ MMAX + 1 := by
  rw [← nHarm_eq_iff LMIN LMAX MMAX (by omega) hM, ← positions_sum]
  simp only [List.map_const', List.sum_replicate, nsmul_eq_mul, mul_one]
  exact_mod_cast Iff.rfl

/-- C75: which calls return: with a least squares driver, those with `FIT_METHOD` 1 or 2 and a first degree at
most one above the largest order (and a radius `gauss_weights` accepts) -/
theorem calcMascon_succeeds (a : Args) (h : a.LMIN ≤ a.LMAX) (hM : a.M ≤ a.LMAX) (F : ℤ)
    (f : (n k : ℕ) → Matrix (Fin n) (Fin k) ℝ → (Fin n → ℝ) → (Fin k → ℝ)) (g gi re co : ℕ → CSlm) (d : CSlm) :
    (calcMascon a F (.lsq f) g gi re co d).isSome ↔
      a.LMIN ≤ a.M + 1 ∧ (F = 1 ∨ F = 2) ∧ (DegreeOne.smoothing a.RAD a.LMAX).isSome := by
  have hle := nHarm_le a.LMIN a.LMAX a.M
  have hiff := nHarm_eq_iff a.LMIN a.LMAX a.M (by omega) hM
  unfold calcMascon Args.kernel
  rw [Option.isSome_map]
  by_cases h0 : nHarm a.LMIN a.LMAX a.M < (positions a.LMIN a.LMAX a.M).length
  · rw [if_pos h0]
    have : ¬ a.LMIN ≤ a.M + 1 := fun hc => by rw [hiff.2 hc] at h0; exact lt_irrefl _ h0
    simp [this]
  · rw [if_neg h0]
    have : a.LMIN ≤ a.M + 1 := hiff.1 (by omega)
    cases hs : DegreeOne.smoothing a.RAD a.LMAX with
    | none => simp
    | some wt =>
      by_cases h1 : F = 1
      · simp [h1, this, Args.MAlm, solve]
      · by_cases h2 : F = 2
        · simp [h2, this, Args.MAlm, solve]
        · simp [h1, h2, this, Args.MAlm]

/-- C75: a solver name that no branch knows, the default `None` among them, always raises -/
theorem unknown_solver (a : Args) (h : a.LMIN ≤ a.LMAX) (F : ℤ) (g gi re co : ℕ → CSlm) (d : CSlm) :
    calcMascon a F .other g gi re co d = none := by
  cases hk : a.kernel F .other with
  | none => unfold calcMascon; rw [hk]; rfl
  | some A =>
    exfalso
    obtain ⟨hN, wt, MA, _, _, s, hs, _⟩ := kernel_some hk
    obtain ⟨i, _⟩ := pos_surj hN (false, a.LMIN, 0) ⟨le_refl _, h, Nat.zero_le _, Nat.zero_le _, by simp⟩
    have := hs i
    simp [solve] at this

/-! ## The estimates -/

/-- C75: for any data the masses that `calc_mascon` returns are those of the water layers that fit best: no
other thicknesses have a smaller misfit in smoothed mass coefficients -/
theorem fit_best (a : Args) (v : Solver) (hv : v.Sound) (g gi re co : ℕ → CSlm) (d : CSlm) (r : Series a.n_mas)
    (h : calcMascon a 1 v g gi re co d = some r) (wt : ℕ → ℝ) (hw : DegreeOne.smoothing a.RAD a.LMAX = some wt)
    (t : ℕ) (Y : CSlm) (hc : ∀ l m, Y.clm l m = (g t).clm l m - (gi t).clm l m - (re t).clm l m - (co t).clm l m)
    (hs : ∀ l m, Y.slm l m = (g t).slm l m - (gi t).slm l m - (re t).slm l m - (co t).slm l m) :
    ∃ x : Fin a.n_mas → ℝ, (∀ k, r.mass k t = x k * gtPerCm a.E (a.mascons k)) ∧
      ∀ z, misfit a wt Y x ≤ misfit a wt Y z := by
  obtain ⟨A, hA, rfl⟩ := Option.map_eq_some_iff.1 h
  obtain ⟨hN, wt', hw', MA, hM, hx⟩ := massOf_spec hv hA
  rw [hw] at hw'; cases hw'
  have hY : Y = corrected (g t) (gi t) (re t) (co t) := by
    cases Y; unfold corrected; simp only [CSlm.mk.injEq]; exact ⟨funext₂ hc, funext₂ hs⟩
  obtain ⟨x, h1, h2⟩ := hx Y
  refine ⟨x, fun k => by rw [← h1 k, hY], ?_⟩
  intro z
  rw [← misfit_rows hN wt MA (hM hN), ← misfit_rows hN wt MA (hM hN), normal_pythagoras MA _ x (h2 hN) z]
  have : 0 ≤ ∑ i, (∑ j, MA i j * (z j - x j)) ^ 2 := sum_nonneg fun i _ => sq_nonneg _
  linarith

theorem coef_only (p q : Pos) (x : ℝ) : coef (only p x) q = open Classical in if p = q then x else 0 := by
  obtain ⟨cs, l, m⟩ := q
  cases cs <;> simp [coef, only]

theorem pos_inj {a : Args} (hN : a.N = (positions a.LMIN a.LMAX a.M).length) (i j : Fin a.N) (h : pos hN i = pos hN j) : i = j := by
  have := (List.Nodup.getElem_inj_iff (positions_nodup a.LMIN a.LMAX a.M)).1 h
  exact Fin.ext this

/-- response of a row to a field with one coefficient -/
theorem only_sum {a : Args} (hN : a.N = (positions a.LMIN a.LMAX a.M).length) (A : Matrix (Fin a.N) (Fin a.n_mas) ℝ)
    (i : Fin a.N) (x : ℝ) (k : Fin a.n_mas) : ∑ j, A j k * a.fill (coef (only (pos hN i) x)) j = A i k * x := by
  rw [sum_eq_single i]
  · rw [fill_pos hN, coef_only, if_pos rfl]
  · intro j _ hj
    rw [fill_pos hN, coef_only, if_neg (fun e => hj (pos_inj hN _ _ e).symm), mul_zero]
  · intro hc; exact absurd (mem_univ i) hc

/-- unique estimate of a kernel, for fields that are sums of layers up to a part no mascon sees -/
theorem massOf_unique {a : Args} {v : Solver} (hv : v.Sound) {A : Matrix (Fin a.N) (Fin a.n_mas) ℝ}
    (h : a.kernel 1 v = some A) {wt : ℕ → ℝ} (hw : DegreeOne.smoothing a.RAD a.LMAX = some wt) (hi : Independent a wt)
    (Y : CSlm) (x : Fin a.n_mas → ℝ) (hx : ∀ z, misfit a wt Y x ≤ misfit a wt Y z) (k : Fin a.n_mas) :
    a.massOf A Y k = x k * gtPerCm a.E (a.mascons k) := by
  obtain ⟨hN, wt', hw', MA, hM, hY⟩ := massOf_spec hv h
  rw [hw] at hw'; cases hw'
  obtain ⟨y, h1, h2⟩ := hY Y
  have h3 := hx y
  rw [← misfit_rows hN wt MA (hM hN), ← misfit_rows hN wt MA (hM hN), normal_pythagoras MA _ y (h2 hN) x] at h3
  have h4 : ∑ i, (∑ j, MA i j * (x j - y j)) ^ 2 = 0 :=
    le_antisymm (by linarith) (sum_nonneg fun i _ => sq_nonneg _)
  have h5 := indep_rows hN wt MA (hM hN) hi (fun j => x j - y j) h4
  have h6 : x k = y k := by have := congrFun h5 k; simp only [Pi.zero_apply] at this; linarith
  rw [h1, h6]

theorem misfit_nonneg (a : Args) (wt : ℕ → ℝ) (Y : CSlm) (x : Fin a.n_mas → ℝ) : 0 ≤ misfit a wt Y x := by
  unfold misfit coefSum
  exact sum_nonneg fun l _ => add_nonneg (sum_nonneg fun m _ => sq_nonneg _) (sum_nonneg fun m _ => sq_nonneg _)

theorem misfit_isSum (a : Args) (wt : ℕ → ℝ) (Y : CSlm) (x : Fin a.n_mas → ℝ) (h : IsSum a Y x) : misfit a wt Y x = 0 := by
  unfold misfit
  rw [coefSum_congr _ _ _ _ (fun _ => 0)]
  · simp [coefSum]
  · intro p hp
    rw [h p hp]; simp

/-- C75: mascons that the fit can tell apart are recovered: if the corrected field of a month is that of
`x k` cm of water on mascon `k`, the mass returned for every mascon is exactly that of its water -/
theorem masses_recovered (a : Args) (v : Solver) (hv : v.Sound) (g gi re co : ℕ → CSlm) (d : CSlm) (r : Series a.n_mas)
    (h : calcMascon a 1 v g gi re co d = some r) (wt : ℕ → ℝ) (hw : DegreeOne.smoothing a.RAD a.LMAX = some wt)
    (hi : Independent a wt) (t : ℕ) (x : Fin a.n_mas → ℝ) (hx : IsSum a (corrected (g t) (gi t) (re t) (co t)) x)
    (k : Fin a.n_mas) : r.mass k t = x k * gtPerCm a.E (a.mascons k) := by
  obtain ⟨A, hA, rfl⟩ := Option.map_eq_some_iff.1 h
  refine massOf_unique hv hA hw hi _ x ?_ k
  intro z
  rw [misfit_isSum a wt _ x hx]
  exact misfit_nonneg a wt _ z

/-- C75: all solvers that return give the same masses and errors -/
theorem solvers_agree (a : Args) (v v' : Solver) (hv : v.Sound) (hv' : v'.Sound) (g gi re co : ℕ → CSlm) (d : CSlm)
    (r r' : Series a.n_mas) (h : calcMascon a 1 v g gi re co d = some r) (h' : calcMascon a 1 v' g gi re co d = some r')
    (hi : ∀ wt, DegreeOne.smoothing a.RAD a.LMAX = some wt → Independent a wt) : r = r' := by
  obtain ⟨A, hA, rfl⟩ := Option.map_eq_some_iff.1 h
  obtain ⟨A', hA', rfl⟩ := Option.map_eq_some_iff.1 h'
  have hm : ∀ Y k, a.massOf A Y k = a.massOf A' Y k := by
    intro Y k
    obtain ⟨hN, wt, hw, MA, hM, hY⟩ := massOf_spec hv hA
    obtain ⟨x, h1, h2⟩ := hY Y
    rw [h1, massOf_unique hv' hA' hw (hi wt hw) Y x]
    intro z
    rw [← misfit_rows hN wt MA (hM hN), ← misfit_rows hN wt MA (hM hN), normal_pythagoras MA _ x (h2 hN) z]
    have : 0 ≤ ∑ i, (∑ j, MA i j * (z j - x j)) ^ 2 := sum_nonneg fun i _ => sq_nonneg _
    linarith
  have hN := (kernel_some hA).1
  have hAA : A = A' := by
    ext i k
    have := hm (only (pos hN i) 1) k
    unfold Args.massOf at this
    rw [only_sum hN, only_sum hN] at this
    have h2 : (1e15 : ℝ) ≠ 0 := by norm_num
    rw [div_left_inj' h2] at this
    simpa using this
  subst hAA
  rfl

theorem calcMascon_of {a : Args} {F : ℤ} {v : Solver} {A : Matrix (Fin a.N) (Fin a.n_mas) ℝ} (hA : a.kernel F v = some A)
    (g gi re co : ℕ → CSlm) (d : CSlm) : calcMascon a F v g gi re co d = some
      ⟨fun k t => a.massOf A (corrected (g t) (gi t) (re t) (co t)) k, fun k => a.errorOf A d k,
        fun k => totalArea a.E (a.mascons k) / 1e10⟩ := by
  unfold calcMascon; rw [hA]; rfl

/-- linear combination of two fields -/
def lin (α β : ℝ) (c e : CSlm) : CSlm :=
  ⟨fun l m => α * c.clm l m + β * e.clm l m, fun l m => α * c.slm l m + β * e.slm l m⟩

/-- C75: the masses are linear in the data and in each correction, for every method and solver, and the errors do
not depend on them -/
theorem masses_linear (a : Args) (F : ℤ) (v : Solver) (g gi re co g' gi' re' co' : ℕ → CSlm) (d : CSlm) (α β : ℝ)
    (r r' : Series a.n_mas) (h : calcMascon a F v g gi re co d = some r) (h' : calcMascon a F v g' gi' re' co' d = some r') :
    ∃ q, calcMascon a F v (fun t => lin α β (g t) (g' t)) (fun t => lin α β (gi t) (gi' t))
        (fun t => lin α β (re t) (re' t)) (fun t => lin α β (co t) (co' t)) d = some q ∧
      ∀ k, q.error k = r.error k ∧ ∀ t, q.mass k t = α * r.mass k t + β * r'.mass k t := by
  obtain ⟨A, hA, rfl⟩ := Option.map_eq_some_iff.1 h
  obtain ⟨A', hA', rfl⟩ := Option.map_eq_some_iff.1 h'
  rw [hA, Option.some.injEq] at hA'
  subst hA'
  refine ⟨_, calcMascon_of hA _ _ _ _ _, fun k => ⟨rfl, fun t => ?_⟩⟩
  have hN := (kernel_some hA).1
  simp only [Args.massOf, fill_pos hN]
  rw [← mul_div_assoc, ← mul_div_assoc, ← add_div, mul_sum, mul_sum, ← sum_add_distrib]
  congr 1
  apply sum_congr rfl; intro i _
  obtain ⟨cs, l, m⟩ := pos hN i
  cases cs <;> simp [coef, corrected, lin] <;> ring

/-- C75: only the coefficients of degrees `LMIN..LMAX` and orders to `MMAX` matter -/
theorem masses_local (a : Args) (F : ℤ) (v : Solver) (g gi re co g' gi' re' co' : ℕ → CSlm) (d d' : CSlm)
    (hf : ∀ l m, a.LMIN ≤ l → l ≤ a.LMAX → m ≤ l → m ≤ a.M →
      (∀ t, (g t).clm l m = (g' t).clm l m ∧ (gi t).clm l m = (gi' t).clm l m ∧ (re t).clm l m = (re' t).clm l m ∧
        (co t).clm l m = (co' t).clm l m ∧ (1 ≤ m → (g t).slm l m = (g' t).slm l m ∧ (gi t).slm l m = (gi' t).slm l m ∧
        (re t).slm l m = (re' t).slm l m ∧ (co t).slm l m = (co' t).slm l m)) ∧
      d.clm l m = d'.clm l m ∧ (1 ≤ m → d.slm l m = d'.slm l m)) :
    calcMascon a F v g gi re co d = calcMascon a F v g' gi' re' co' d' := by
  unfold calcMascon
  cases hA : a.kernel F v with
  | none => rfl
  | some A =>
    have hN := (kernel_some hA).1
    simp only [Option.map_some, Option.some.injEq, Series.mk.injEq, and_true]
    have hd : ∀ i, coef d (pos hN i) = coef d' (pos hN i) := by
      intro i
      have hr := pos_range hN i
      generalize pos hN i = p at hr ⊢
      obtain ⟨cs, l, m⟩ := p
      obtain ⟨h1, h2, h3, h4, h5⟩ := hr
      have := (hf l m h1 h2 h3 h4).2
      cases cs
      · simpa [coef] using this.1
      · simpa [coef] using this.2 (h5 rfl)
    have hg : ∀ t i, coef (corrected (g t) (gi t) (re t) (co t)) (pos hN i) =
        coef (corrected (g' t) (gi' t) (re' t) (co' t)) (pos hN i) := by
      intro t i
      have hr := pos_range hN i
      generalize pos hN i = p at hr ⊢
      obtain ⟨cs, l, m⟩ := p
      obtain ⟨h1, h2, h3, h4, h5⟩ := hr
      obtain ⟨b1, b2, b3, b4, b5⟩ := (hf l m h1 h2 h3 h4).1 t
      cases cs
      · simp [coef, corrected, b1, b2, b3, b4]
      · obtain ⟨c1, c2, c3, c4⟩ := b5 (h5 rfl)
        simp [coef, corrected, c1, c2, c3, c4]
    constructor
    · funext k t
      simp only [Args.massOf, fill_pos hN, hg]
    · funext k
      simp only [Args.errorOf, fill_pos hN, hd]

theorem zero_corrected (c : CSlm) : corrected c zeroField zeroField zeroField = c := by
  cases c; simp [corrected, zeroField]

/-- C75: the error of a mascon is the root of the sum of the squares of its responses to the error of each
single coefficient -/
theorem error_propagation (a : Args) (F : ℤ) (v : Solver) (g gi re co : ℕ → CSlm) (d : CSlm)
    (r : Series a.n_mas) (h : calcMascon a F v g gi re co d = some r) :
    ∃ q : Pos → Series a.n_mas,
      (∀ p, calcMascon a F v (fun _ => only p (if p.1 then d.slm p.2.1 p.2.2 else d.clm p.2.1 p.2.2))
        (fun _ => zeroField) (fun _ => zeroField) (fun _ => zeroField) d = some (q p)) ∧
      ∀ k, 0 ≤ r.error k ∧ r.error k ^ 2 = coefSum a.LMIN a.LMAX a.M fun p => (q p).mass k 0 ^ 2 := by
  obtain ⟨A, hA, rfl⟩ := Option.map_eq_some_iff.1 h
  refine ⟨_, fun p => calcMascon_of hA _ _ _ _ _, fun k => ⟨?_, ?_⟩⟩
  · exact div_nonneg (Real.sqrt_nonneg _) (by norm_num)
  · have hN := (kernel_some hA).1
    simp only [Args.errorOf]
    rw [div_pow, Real.sq_sqrt (sum_nonneg fun i _ => sq_nonneg _), ← sum_pos hN, sum_div]
    apply sum_congr rfl; intro i _
    rw [zero_corrected]
    unfold Args.massOf
    rw [only_sum hN, fill_pos hN, div_pow]
    congr 1
    unfold coef
    ring

/-! ## Reconstruction -/

theorem misfit_shift (a : Args) (wt : ℕ → ℝ) (Y Y' : CSlm) (x z : Fin a.n_mas → ℝ)
    (h : ∀ p, InRange a.LMIN a.LMAX a.M p → coef Y' p = coef Y p - ∑ k, x k * layer a.ocean (a.mascons k) p) :
    misfit a wt Y' z = misfit a wt Y (fun k => x k + z k) := by
  unfold misfit
  apply coefSum_congr
  intro p hp
  have := h p hp
  unfold coef at this
  rw [this]
  congr 2
  rw [sub_sub, ← sum_add_distrib]
  congr 1
  apply sum_congr rfl; intro k _; ring

theorem reconstruct_coef (a : Args) (x mass : Fin a.n_mas → ℝ) (hz : ∀ k, gtPerCm a.E (a.mascons k) ≠ 0)
    (hm : ∀ k, mass k = x k * gtPerCm a.E (a.mascons k)) (p : Pos) (hp : InRange a.LMIN a.LMAX a.M p) :
    coef (reconstructAll a mass) p = ∑ k, x k * layer a.ocean (a.mascons k) p := by
  have h : ∀ k, 1e15 * mass k / totalArea a.E (a.mascons k) = x k := by
    intro k
    have h1 := hz k
    rw [← totalArea_eq] at h1
    have h2 : totalArea a.E (a.mascons k) ≠ 0 := by intro hc; rw [hc] at h1; simp at h1
    rw [hm, ← totalArea_eq]
    field_simp
  have e : coef (reconstructAll a mass) p = ∑ k, coef (a.mascon k) p * (1e15 * mass k / totalArea a.E (a.mascons k)) := by
    obtain ⟨cs, l, m⟩ := p
    cases cs <;> simp [coef, reconstructAll, reconstruct]
  rw [e]
  apply sum_congr rfl; intro k _
  rw [h, coef_mascon a k p hp]; ring

/-- C75: the fields of `mascon_reconstruct` add up to the best fitting field: removing them from the data (the
leakage run of `calc_mascon`) leaves zero mass in every mascon -/
theorem leakage_zero (a : Args) (v : Solver) (hv : v.Sound) (g gi re co : ℕ → CSlm) (d : CSlm) (r : Series a.n_mas)
    (h : calcMascon a 1 v g gi re co d = some r) (hi : ∀ wt, DegreeOne.smoothing a.RAD a.LMAX = some wt → Independent a wt)
    (hz : ∀ k, gtPerCm a.E (a.mascons k) ≠ 0) :
    ∃ r', calcMascon a 1 v g gi re (fun t => lin 1 1 (co t) (reconstructAll a fun k => r.mass k t)) d = some r' ∧
      ∀ k t, r'.mass k t = 0 := by
  obtain ⟨A, hA, rfl⟩ := Option.map_eq_some_iff.1 h
  refine ⟨_, calcMascon_of hA _ _ _ _ _, fun k t => ?_⟩
  dsimp only
  obtain ⟨hN, wt, hw, MA, hM, hY⟩ := massOf_spec hv hA
  obtain ⟨x, h1, h2⟩ := hY (corrected (g t) (gi t) (re t) (co t))
  have hsh : ∀ z, misfit a wt (corrected (g t) (gi t) (re t) (lin 1 1 (co t) (reconstructAll a fun k =>
      a.massOf A (corrected (g t) (gi t) (re t) (co t)) k))) z =
      misfit a wt (corrected (g t) (gi t) (re t) (co t)) fun k => x k + z k := by
    intro z
    apply misfit_shift
    intro p hp
    rw [← reconstruct_coef a x _ hz h1 p hp]
    obtain ⟨cs, l, m⟩ := p
    cases cs <;> simp [coef, corrected, lin] <;> ring
  rw [massOf_unique hv hA hw (hi wt hw) _ (fun _ => 0), zero_mul]
  intro z
  rw [hsh, hsh]
  simp only [add_zero]
  rw [← misfit_rows hN wt MA (hM hN), ← misfit_rows hN wt MA (hM hN), normal_pythagoras MA _ x (h2 hN) fun k => x k + z k]
  have : 0 ≤ ∑ i, (∑ j, MA i j * ((x j + z j) - x j)) ^ 2 := sum_nonneg fun i _ => sq_nonneg _
  linarith

/-- C75: a field that is a sum of mascon layers is reproduced by the reconstruction from the estimated masses -/
theorem reconstruct_exact (a : Args) (v : Solver) (hv : v.Sound) (g gi re co : ℕ → CSlm) (d : CSlm) (r : Series a.n_mas)
    (h : calcMascon a 1 v g gi re co d = some r) (wt : ℕ → ℝ) (hw : DegreeOne.smoothing a.RAD a.LMAX = some wt)
    (hi : Independent a wt) (hz : ∀ k, gtPerCm a.E (a.mascons k) ≠ 0) (t : ℕ) (x : Fin a.n_mas → ℝ)
    (hx : IsSum a (corrected (g t) (gi t) (re t) (co t)) x) (l m : ℕ) (h1 : a.LMIN ≤ l) (h2 : l ≤ a.LMAX) (h3 : m ≤ l)
    (h4 : m ≤ a.M) :
    (reconstructAll a fun k => r.mass k t).clm l m =
        (g t).clm l m - (gi t).clm l m - (re t).clm l m - (co t).clm l m ∧
      (1 ≤ m → (reconstructAll a fun k => r.mass k t).slm l m =
        (g t).slm l m - (gi t).slm l m - (re t).slm l m - (co t).slm l m) := by
  have hm := masses_recovered a v hv g gi re co d r h wt hw hi t x hx
  have hc : InRange a.LMIN a.LMAX a.M (false, l, m) := ⟨h1, h2, h3, h4, by simp⟩
  constructor
  · have e := reconstruct_coef a x _ hz hm _ hc
    rw [← hx _ hc] at e
    exact e
  · intro h5
    have hs : InRange a.LMIN a.LMAX a.M (true, l, m) := ⟨h1, h2, h3, h4, fun _ => h5⟩
    have e := reconstruct_coef a x _ hz hm _ hs
    rw [← hx _ hs] at e
    exact e

/-- C75: `MMAX` is the order limit if it is given and not zero; otherwise the limit is `LMAX` -/
theorem order_limit (a : Args) :
    (∀ m, m ≠ 0 → a.MMAX = some m → a.M = m) ∧ (a.MMAX = none ∨ a.MMAX = some 0 → a.M = a.LMAX) := by
  constructor
  · intro m hm h
    unfold Args.M
    rw [h]
    cases m with
    | zero => exact absurd rfl hm
    | succ m => rfl
  · rintro (h | h) <;> · unfold Args.M; rw [h]; rfl

/-- C75: a reconstructed field is, below the degree and order limits, the sum over the mascons of their masses
divided by the mass of 1 cm of water times the harmonics of that layer (also below `LMIN`), and has no
coefficient, cosine or sine, beyond the limits -/
theorem reconstruct_field (a : Args) (mass : Fin a.n_mas → ℝ) (hz : ∀ k, gtPerCm a.E (a.mascons k) ≠ 0)
    (p : Pos) (hp : p.2.2 ≤ p.2.1) :
    (if p.1 then (reconstructAll a mass).slm p.2.1 p.2.2 else (reconstructAll a mass).clm p.2.1 p.2.2) =
      if p.2.1 ≤ a.LMAX ∧ p.2.2 ≤ a.M then
        ∑ k, mass k / gtPerCm a.E (a.mascons k) * layer a.ocean (a.mascons k) p else 0 := by
  obtain ⟨cs, l, m⟩ := p
  simp only at hp ⊢
  have h : ∀ k, 1e15 * mass k / totalArea a.E (a.mascons k) = mass k / gtPerCm a.E (a.mascons k) := by
    intro k
    have h1 := hz k
    rw [← totalArea_eq] at h1 ⊢
    have h2 : totalArea a.E (a.mascons k) ≠ 0 := by intro hc; rw [hc] at h1; simp at h1
    field_simp
  split_ifs with h1 h2 h2
  all_goals simp only [reconstructAll, reconstruct, h]
  all_goals first | (apply sum_eq_zero; intro k _) | (apply sum_congr rfl; intro k _)
  all_goals unfold Args.mascon truncateTo redistribute
  all_goals try unfold layer
  all_goals cases hO : a.ocean <;> simp_all [mul_comm]

/-- C75: mascons whose water is taken from the ocean change no mass: the degree zero coefficient of any
reconstructed field is zero -/
theorem redistributed_mass (a : Args) (o : CSlm) (ho : a.ocean = some o) (h0 : o.clm 0 0 ≠ 0) (mass : Fin a.n_mas → ℝ) :
    (reconstructAll a mass).clm 0 0 = 0 := by
  simp only [reconstructAll, reconstruct]
  apply sum_eq_zero; intro k _
  have : (a.mascon k).clm 0 0 = 0 := by
    simp only [Args.mascon, truncateTo, redistribute, ho]
    simp [h0]
  rw [this, zero_mul]

/-- C75: the mass of 1 cm of water on a mascon made by `gen_stokes` (units of cm, degree zero Love number 0) is the
grid sum of water height times cell area, in Gt -/
theorem gtPerCm_grid (E : Earth) (hE : E.Ok) (eps scalef : ℝ) (hs : scalef ≠ 0) (d : Mat) (nlon nlat : ℕ)
    (lon lat : ℕ → ℝ) (LMAX : ℕ) (hL : 2 ≤ LMAX) (kl : ℕ → ℝ) (hk : kl 0 = 0) (hg : GridOk d nlon nlat)
    (hlat : ∀ j < nlat, -90 < lat j ∧ lat j < 90) :
    ∃ c, genStokes E eps scalef d nlon nlat lon lat 0 LMAX none (.code 1) none kl = some c ∧
      gtPerCm E c = (∑ i ∈ range nlon, ∑ j ∈ range nlat, lonLat nlat d i j * (rad_e E ^ 2 *
        (Real.sin ((90 - lat j) * Real.pi / 180) * (|lon 1 - lon 0| * Real.pi / 180) *
          (|lat 1 - lat 0| * Real.pi / 180)))) / 1e15 := by
  obtain ⟨c, hc, hv⟩ := genStokes_correct E eps scalef hs d nlon nlat lon lat 0 LMAX hL none (by simp) (.code 1) kl
    _ _ hg (Or.inr (Or.inl ⟨rfl, rfl, rfl⟩)) (fun j hj => Or.inl (hlat j hj))
  refine ⟨c, hc, ?_⟩
  have h1 := (rad_pos hE).ne'; have h2 := (rho_pos hE).ne'; have h3 := Real.pi_pos.ne'
  unfold gtPerCm
  rw [((hv 0 0).1 ⟨le_refl _, Nat.zero_le _, le_refl _, Nat.zero_le _⟩).1]
  congr 1
  unfold cellSum trueP areaWeight stepRad colat
  rw [mul_sum, mul_sum]
  apply sum_congr rfl; intro i _
  rw [mul_sum, mul_sum]
  apply sum_congr rfl; intro j _
  rw [Legendre.Plm_zero_zero]
  have hf : fraction E true false kl 0 = 1 := by simp [fraction, hk]
  simp only [hf, Nat.cast_zero, zero_mul, Real.cos_zero]
  field_simp
  ring

/-! ## Sensitivity kernels -/

theorem unfill_pos {a : Args} (hN : a.N = (positions a.LMIN a.LMAX a.M).length) (x : Fin a.N → ℝ) (i : Fin a.N) :
    a.unfill x (pos hN i) = x i := by
  have hi : i.val < (positions a.LMIN a.LMAX a.M).length := by rw [← hN]; exact i.isLt
  have e : (positions a.LMIN a.LMAX a.M).idxOf (pos hN i) = i.val :=
    (positions_nodup a.LMIN a.LMAX a.M).idxOf_getElem i.val hi
  unfold Args.unfill
  simp only
  rw [dif_pos ⟨List.getElem_mem hi, by rw [e]; exact i.isLt⟩]
  congr 1
  exact Fin.ext e

/-- surface density coefficient (g/cm^2) of a gravity coefficient of degree `l` -/
noncomputable def density (E : Earth) (kl : ℕ → ℝ) (l : ℕ) (c : ℝ) : ℝ :=
  rho_e E * rad_e E / 3 * ((2 * l + 1) / (1 + kl l)) * c

/-- inner product of two fields on the sphere of radius `rad_e`, by Parseval for 4 pi normalised harmonics, over the
coefficients that take part -/
noncomputable def inner (a : Args) (K S : Pos → ℝ) : ℝ :=
  4 * Real.pi * rad_e a.E ^ 2 * coefSum a.LMIN a.LMAX a.M fun p => K p * S p

/-- C75: the sensitivity kernel of a mascon is the function whose inner product with the surface density is the
mass (in g) that `calc_mascon` returns, for any data -/
theorem kernel_measures_mass (a : Args) (hE : a.E.Ok) (hk : ∀ l, 1 + a.kl l ≠ 0) (v : Solver) (g gi re co : ℕ → CSlm)
    (d : CSlm) (r : Series a.n_mas) (K : Fin a.n_mas → CSlm) (h : calcMascon a 1 v g gi re co d = some r)
    (hK : sensitivityKernel a 1 v = some K) (k : Fin a.n_mas) (t : ℕ) :
    1e15 * r.mass k t = inner a (coef (K k)) fun p => density a.E a.kl p.2.1
      (coef (corrected (g t) (gi t) (re t) (co t)) p) := by
  obtain ⟨A, hA, rfl⟩ := Option.map_eq_some_iff.1 h
  unfold sensitivityKernel at hK
  rw [hA, Option.map_some, Option.some.injEq] at hK
  subst hK
  have hN := (kernel_some hA).1
  have h1 := (rad_pos hE).ne'; have h2 := (rho_pos hE).ne'; have h3 := Real.pi_pos.ne'
  unfold inner
  rw [← sum_pos hN]
  simp only [Args.massOf, fill_pos hN]
  rw [mul_div_cancel₀ _ (by norm_num), mul_sum]
  apply sum_congr rfl; intro i _
  have e : coef (⟨fun l m => a.invFit 1 (false, l, m) * a.unfill (fun i => A i k) (false, l, m),
      fun l m => a.invFit 1 (true, l, m) * a.unfill (fun i => A i k) (true, l, m)⟩ : CSlm) (pos hN i) =
      a.invFit 1 (pos hN i) * A i k := by
    rw [← unfill_pos hN (fun i => A i k) i]
    obtain ⟨cs, l, m⟩ := pos hN i
    cases cs <;> simp [coef]
  rw [e]
  unfold Args.invFit density
  simp only [↓reduceIte]
  have h4 : (2 * ((pos hN i).2.1 : ℝ) + 1) ≠ 0 := by positivity
  have h5 := hk (pos hN i).2.1
  field_simp
  norm_num
  ring

/-- C75: kernels of mascons that the fit can tell apart are dual to them: the kernel of a mascon gives its full
mass for a layer of 1 cm on itself and nothing for a layer on any other -/
theorem kernel_dual (a : Args) (hE : a.E.Ok) (hk : ∀ l, 1 + a.kl l ≠ 0) (v : Solver) (hv : v.Sound)
    (K : Fin a.n_mas → CSlm) (hK : sensitivityKernel a 1 v = some K)
    (hi : ∀ wt, DegreeOne.smoothing a.RAD a.LMAX = some wt → Independent a wt) (k j : Fin a.n_mas) :
    inner a (coef (K k)) (fun p => density a.E a.kl p.2.1 (layer a.ocean (a.mascons j) p)) =
      if j = k then 1e15 * gtPerCm a.E (a.mascons k) else 0 := by
  obtain ⟨A, hA, _⟩ := Option.map_eq_some_iff.1 hK
  set Y : CSlm := ⟨fun l m => layer a.ocean (a.mascons j) (false, l, m), fun l m => layer a.ocean (a.mascons j) (true, l, m)⟩ with hY
  have hYc : ∀ p, coef Y p = layer a.ocean (a.mascons j) p := by
    rintro ⟨cs, l, m⟩; cases cs <;> rfl
  obtain ⟨_, wt, MA, hw, _⟩ := kernel_some hA
  have hm := masses_recovered a v hv (fun _ => Y) (fun _ => zeroField) (fun _ => zeroField) (fun _ => zeroField) zeroField
    _ (calcMascon_of hA _ _ _ _ _) wt hw (hi wt hw) 0 (fun i => if i = j then 1 else 0) (by
      intro p _
      rw [zero_corrected]
      have := hYc p
      unfold coef at this
      rw [this]; simp) k
  have hs := kernel_measures_mass a hE hk v (fun _ => Y) (fun _ => zeroField) (fun _ => zeroField) (fun _ => zeroField)
    zeroField _ K (calcMascon_of hA _ _ _ _ _) hK k 0
  rw [hm, zero_corrected] at hs
  simp only [hYc] at hs
  rw [← hs]
  by_cases e : j = k
  · simp [e]
  · simp [e, Ne.symm e]

/-! ## Method 2 (geoid coefficients) does not fit -/

theorem positions_last (LMIN LMAX MMAX : ℕ) (h : LMIN ≤ LMAX) (hM : 1 ≤ min MMAX LMAX) :
    ∃ L, positions LMIN LMAX MMAX = L ++ [(true, LMAX, min MMAX LMAX)] := by
  obtain ⟨n, hn⟩ : ∃ n, LMAX + 1 - LMIN = n + 1 := ⟨LMAX - LMIN, by omega⟩
  obtain ⟨m, hm⟩ : ∃ m, min MMAX LMAX = m + 1 := ⟨min MMAX LMAX - 1, by omega⟩
  unfold positions orders
  simp only [List.flatMap_cons, List.flatMap_nil, List.append_nil, Bool.toNat_true, hn, List.range'_concat,
    List.flatMap_append]
  rw [show LMIN + 1 * n = LMAX by omega, show min MMAX LMAX + 1 - 1 = m + 1 by omega, List.range'_concat, List.map_append,
    List.map_singleton, ← List.append_assoc, ← List.append_assoc, show 1 + 1 * m = min MMAX LMAX by omega]
  exact ⟨_, rfl⟩

theorem pos_last {a : Args} (hN : a.N = (positions a.LMIN a.LMAX a.M).length) (h : a.LMIN ≤ a.LMAX) (hM : 1 ≤ min a.M a.LMAX)
    (i : Fin a.N) (hi : i.val = a.N - 1) : pos hN i = (true, a.LMAX, min a.M a.LMAX) := by
  obtain ⟨L, hL⟩ := positions_last a.LMIN a.LMAX a.M h hM
  have hlen : a.N - 1 = L.length := by rw [hN, hL]; simp
  unfold pos
  simp only [hL, hi, hlen]
  simp

/-- C75: with `FIT_METHOD` 2 every row of the design matrix is the last one (the loop of lines 657-658 of
calc_mascon.py assigns to the whole array), so all that is fitted is the mean of the smoothed coefficients -/
theorem fit2_mean (a : Args) (v : Solver) (hv : v.Sound) (A : Matrix (Fin a.N) (Fin a.n_mas) ℝ)
    (hA : a.kernel 2 v = some A) (wt : ℕ → ℝ) (hw : DegreeOne.smoothing a.RAD a.LMAX = some wt) (h : a.LMIN ≤ a.LMAX)
    (hM : 1 ≤ min a.M a.LMAX)
    (hr : ∃ j, wt a.LMAX * layer a.ocean (a.mascons j) (true, a.LMAX, min a.M a.LMAX) ≠ 0) (Y : CSlm) :
    ∃ x : Fin a.n_mas → ℝ, (∀ k, a.massOf A Y k = x k * gtPerCm a.E (a.mascons k)) ∧
      (∑ k, x k * (wt a.LMAX * layer a.ocean (a.mascons k) (true, a.LMAX, min a.M a.LMAX))) *
          coefSum a.LMIN a.LMAX a.M (fun _ => 1) = coefSum a.LMIN a.LMAX a.M fun p => wt p.2.1 * coef Y p := by
  obtain ⟨hN, wt', MA, hw', hm, s, hs, hAs⟩ := kernel_some hA
  rw [hw] at hw'; cases hw'
  obtain ⟨j, hj⟩ := hr
  have hMA : ∀ i k, MA i k = wt a.LMAX * layer a.ocean (a.mascons k) (true, a.LMAX, min a.M a.LMAX) := by
    intro i k
    unfold Args.MAlm at hm
    simp only [show (2 : ℤ) ≠ 1 by decide, ↓reduceIte, Option.some.injEq] at hm
    rw [← hm]
    simp only [Matrix.of_apply, Args.Mlm, fill_pos hN]
    rw [coef_mascon a k _ (pos_range hN _), pos_last hN h hM _ rfl]; ring
  refine ⟨fun k => ∑ i, a.fill (coef Y) i * s i k, ?_, ?_⟩
  · intro k
    unfold Args.massOf
    rw [← totalArea_eq, ← mul_div_assoc, sum_mul]
    congr 1
    apply sum_congr rfl; intro i _; rw [hAs]; ring
  · have h1 := normal_superpose MA (a.fitFactor wt 2) (a.fill (coef Y)) s fun i => solve_sound hv _ _ _ (hs i)
    have h2 := normal_orth MA _ _ h1 (fun k => if k = j then 1 else 0)
    have e1 : ∀ i, ∑ k, MA i k * (if k = j then (1 : ℝ) else 0) =
        wt a.LMAX * layer a.ocean (a.mascons j) (true, a.LMAX, min a.M a.LMAX) := by
      intro i; rw [← hMA i j]; simp
    simp only [e1] at h2
    rw [← sum_mul] at h2
    have h3 := (mul_eq_zero.1 h2).resolve_right hj
    rw [sum_sub_distrib] at h3
    rw [← sum_pos hN, ← sum_pos hN]
    have e2 : ∀ i, a.fitFactor wt 2 i * a.fill (coef Y) i = wt (pos hN i).2.1 * coef Y (pos hN i) := by
      intro i
      simp only [Args.fitFactor, show (2 : ℤ) ≠ 1 by decide, ↓reduceIte, fill_pos hN, mul_one]
    simp only [e2] at h3
    have e3 : ∀ i, ∑ k, MA i k * (∑ i, a.fill (coef Y) i * s i k) =
        ∑ k, (∑ i, a.fill (coef Y) i * s i k) * (wt a.LMAX * layer a.ocean (a.mascons k) (true, a.LMAX, min a.M a.LMAX)) := by
      intro i; apply sum_congr rfl; intro k _; rw [hMA]; ring
    simp only [e3] at h3
    rw [mul_sum]
    simp only [mul_one]
    linarith

/-- C75: so method 2 does not recover masses: if for some mascon the mean of its smoothed coefficients is not its
last one, then for 1 cm of water on that mascon alone some mass returned is wrong -/
theorem fit2_wrong (a : Args) (v : Solver) (hv : v.Sound) (d : CSlm) (wt : ℕ → ℝ)
    (hw : DegreeOne.smoothing a.RAD a.LMAX = some wt) (h : a.LMIN ≤ a.LMAX) (hM : 1 ≤ min a.M a.LMAX)
    (hz : ∀ k, gtPerCm a.E (a.mascons k) ≠ 0) (j : Fin a.n_mas)
    (hj : wt a.LMAX * layer a.ocean (a.mascons j) (true, a.LMAX, min a.M a.LMAX) ≠ 0)
    (hne : coefSum a.LMIN a.LMAX a.M (fun p => wt p.2.1 * layer a.ocean (a.mascons j) p) ≠
      coefSum a.LMIN a.LMAX a.M (fun _ => 1) * (wt a.LMAX * layer a.ocean (a.mascons j) (true, a.LMAX, min a.M a.LMAX)))
    (Y : CSlm) (hY : ∀ p, coef Y p = layer a.ocean (a.mascons j) p) (r : Series a.n_mas)
    (hr : calcMascon a 2 v (fun _ => Y) (fun _ => zeroField) (fun _ => zeroField) (fun _ => zeroField) d = some r) :
    ∃ k, r.mass k 0 ≠ (if k = j then 1 else 0) * gtPerCm a.E (a.mascons k) := by
  by_contra hc
  push Not at hc
  obtain ⟨A, hA, rfl⟩ := Option.map_eq_some_iff.1 hr
  obtain ⟨x, h1, h2⟩ := fit2_mean a v hv A hA wt hw h hM ⟨j, hj⟩ Y
  have hx : ∀ k, x k = if k = j then 1 else 0 := by
    intro k
    have := hc k
    simp only [zero_corrected] at this
    rw [h1] at this
    exact mul_right_cancel₀ (hz k) this
  simp only [hx, hY] at h2
  apply hne
  rw [← h2]
  simp [mul_comm]

/-- C75: with two mascons or more, method 2 and `SOLVER='inv'` always raises -/
theorem fit2_inv (a : Args) (hn : 2 ≤ a.n_mas) (h : a.LMIN ≤ a.LMAX) (g gi re co : ℕ → CSlm) (d : CSlm) :
    calcMascon a 2 .inv g gi re co d = none := by
  cases hA : a.kernel 2 .inv with
  | none => unfold calcMascon; rw [hA]; rfl
  | some A =>
    exfalso
    obtain ⟨hN, wt, MA, _, hm, s, hs, _⟩ := kernel_some hA
    obtain ⟨i, _⟩ := pos_surj hN (false, a.LMIN, 0) ⟨le_refl _, h, Nat.zero_le _, Nat.zero_le _, by simp⟩
    have h1 := hs i
    unfold Args.MAlm at hm
    simp only [show (2 : ℤ) ≠ 1 by decide, ↓reduceIte, Option.some.injEq] at hm
    simp only [solve] at h1
    split_ifs at h1 with c1 c2
    apply c2
    rw [← hm]
    refine Matrix.det_zero_of_row_eq (i := ⟨0, by omega⟩) (j := ⟨1, by omega⟩) (by simp) ?_
    rfl

end Verif.MasconFit
