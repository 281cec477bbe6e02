import Verif.TimeSeries.Regress

/-!
# C51: piecewise regression; C54: amplitude and phase; C65: tidal aliasing terms
-/
namespace Verif.TimeSeries
open Matrix Finset

variable {n k : ℕ}

/-- `piecewise` solves the same least-squares problem as `regress` on its own design matrix -/
theorem piecewiseFit_core (erf : ℝ → ℝ) (tppf : ℝ → ℝ → ℝ) (eps : ℝ) (X : Matrix (Fin n) (Fin k) ℝ)
    (d : Fin n → ℝ) (WEIGHT : Bool) (err : DataErr n) (o : Opts) :
    (piecewiseFit erf tppf eps X d WEIGHT err o = none ↔ regressFit erf tppf eps X d 3 WEIGHT err o = none) ∧
    ∀ p, piecewiseFit erf tppf eps X d WEIGHT err o = some p →
      ∃ r, regressFit erf tppf eps X d 3 WEIGHT err o = some r ∧ p.st = r.st ∧
        p.beta = setTwo r.beta (at' r.beta 1 + at' r.beta 2) ∧ p.er.cov = r.er.cov ∧ p.er.mse = r.er.mse ∧
        p.er.NRMSE = r.er.NRMSE ∧ p.er.stdErr = r.er.stdErr.map combine ∧
        ((∀ e, err = .scalar e → e = 0) → p.er.error = combine r.er.error) := by
  cases WEIGHT with
  | true =>
    cases err with
    | scalar e => exact ⟨⟨fun _ => rfl, fun _ => rfl⟩, fun p h => by cases h⟩
    | array e0 =>
      constructor
      · simp only [piecewiseFit, regressFit, Option.map_eq_none_iff]
      · intro p hp
        simp only [piecewiseFit, Option.map_eq_some_iff] at hp
        obtain ⟨⟨b, v, wsse, H⟩, hx, rfl⟩ := hp
        refine ⟨⟨b, stats X d (weights (fixErr eps e0)) b 3 o.AICc, fun c => Real.sqrt (v c), none, wsse, none, H⟩, ?_, ?_⟩
        · simp only [regressFit, hx, Option.map_some]
        · exact ⟨rfl, rfl, rfl, rfl, rfl, rfl, fun _ => rfl⟩
  | false =>
    cases err with
    | array e => exact ⟨⟨fun _ => rfl, fun _ => rfl⟩, fun p h => by cases h⟩
    | scalar e =>
      constructor
      · simp only [piecewiseFit, regressFit, Option.map_eq_none_iff]
      · intro p hp
        simp only [piecewiseFit, Option.map_eq_some_iff] at hp
        obtain ⟨⟨b, mse, H⟩, hx, hp⟩ := hp
        by_cases he : e = 0
        · simp only [he, ne_eq, not_true_eq_false, if_false] at hp
          subst hp
          refine ⟨⟨b, stats X d (fun _ => 1) b 3 o.AICc,
              fun c => tppf (1 - alphaOf erf o / 2) ((n : ℝ) - k) * Real.sqrt (mse * H c c),
              some (fun c => Real.sqrt (mse * H c c)), mse, some (Real.sqrt mse / ((⨆ i, d i) - ⨅ i, d i)), H⟩, ?_, ?_⟩
          · simp only [regressFit, hx, Option.map_some, he, ne_eq, not_true_eq_false, if_false]
          · exact ⟨rfl, rfl, rfl, rfl, rfl, rfl, fun _ => rfl⟩
        · simp only [ne_eq, he, not_false_eq_true, if_true] at hp
          subst hp
          refine ⟨⟨b, stats X d (fun _ => 1) b 3 o.AICc, fun c => Real.sqrt (knownVar X H e c), none, mse, none, H⟩, ?_, ?_⟩
          · simp only [regressFit, hx, Option.map_some, ne_eq, he, not_false_eq_true, if_true]
          · exact ⟨rfl, rfl, rfl, rfl, rfl, rfl, fun h => absurd (h e rfl) he⟩

theorem piecewise_unfold {erf : ℝ → ℝ} {tppf : ℝ → ℝ → ℝ} {eps : ℝ} {t d : Fin n → ℝ} {BT : Option ℝ} {BP : Option ℕ}
    {CYCLES : List ℝ} {TERMS : List (Fin n → ℝ)} {err : DataErr n} {WEIGHT : Bool} {o : Opts}
    {x : (k : ℕ) × Result n k} (h : piecewise erf tppf eps t d BT BP CYCLES TERMS err WEIGHT o = some x) :
    ∃ nco tco, breakOf t BT BP = some (nco, tco) ∧ ∃ r : Result n (piecewiseCols t nco tco CYCLES TERMS).length,
      piecewiseFit erf tppf eps (design (piecewiseCols t nco tco CYCLES TERMS)) d WEIGHT err o = some r ∧ x = ⟨_, r⟩ := by
  unfold piecewise at h
  split_ifs at h
  cases he : breakOf t BT BP with
  | none => rw [he] at h; cases h
  | some q =>
    obtain ⟨nco, tco⟩ := q
    rw [he] at h
    simp only [Option.map_eq_some_iff] at h
    obtain ⟨r, hr, rfl⟩ := h
    exact ⟨nco, tco, rfl, r, hr, rfl⟩

/-- the break: an index, or the first nearest time -/
theorem argmin_spec (N : ℕ) (t : ℕ → ℝ) (b : ℝ) (hN : 0 < N) :
    argminAbs N t b < N ∧ (∀ i < N, |t (argminAbs N t b) - b| ≤ |t i - b|) ∧
    ∀ i < argminAbs N t b, |t (argminAbs N t b) - b| < |t i - b| := by
  unfold argminAbs
  have inv : ∀ N, (0 < N → (List.range N).foldl (fun k i => if |t i - b| < |t k - b| then i else k) 0 < N) ∧
      (∀ i < N, |t ((List.range N).foldl (fun k i => if |t i - b| < |t k - b| then i else k) 0) - b| ≤ |t i - b|) ∧
      (∀ i < (List.range N).foldl (fun k i => if |t i - b| < |t k - b| then i else k) 0,
        |t ((List.range N).foldl (fun k i => if |t i - b| < |t k - b| then i else k) 0) - b| < |t i - b|) := by
    intro N
    induction N with
    | zero => exact ⟨fun h => absurd h (lt_irrefl _), fun i hi => absurd hi (Nat.not_lt_zero _),
        fun i hi => absurd hi (Nat.not_lt_zero _)⟩
    | succ N ih =>
      obtain ⟨h1, h2, h3⟩ := ih
      rw [List.range_succ, List.foldl_append]
      simp only [List.foldl_cons, List.foldl_nil]
      set a := (List.range N).foldl (fun k i => if |t i - b| < |t k - b| then i else k) 0 with ha
      by_cases hc : |t N - b| < |t a - b|
      · simp only [if_pos hc]
        refine ⟨fun _ => by omega, fun i hi => ?_, fun i hi => lt_of_lt_of_le hc (h2 i hi)⟩
        rcases Nat.lt_succ_iff_lt_or_eq.1 hi with h | h
        · exact (hc.le).trans (h2 i h)
        · rw [h]
      · simp only [if_neg hc]
        refine ⟨fun _ => ?_, fun i hi => ?_, h3⟩
        · rcases Nat.eq_zero_or_pos N with h0 | h0
          · subst h0; rw [ha]; simp
          · have := h1 h0; omega
        · rcases Nat.lt_succ_iff_lt_or_eq.1 hi with h | h
          · exact h2 i h
          · rw [h]; exact not_lt.1 hc
  exact ⟨(inv N).1 hN, (inv N).2.1, (inv N).2.2⟩

/-- C51: with a breakpoint index and increasing times the change column is `max(0, t - t_break)` exactly -/
theorem change_breakpoint (t : Fin n → ℝ) (ht : StrictMono t) (p : ℕ) (hp : p < n) (BT : Option ℝ) :
    breakOf t BT (some p) = some (p, t ⟨p, hp⟩) ∧
    ∀ i, changeCol t p (t ⟨p, hp⟩) i = max 0 (t i - t ⟨p, hp⟩) := by
  refine ⟨?_, fun i => ?_⟩
  · unfold breakOf; cases BT <;> simp [hp]
  · unfold changeCol
    by_cases h : p ≤ i.1
    · rw [if_pos h, max_eq_right]
      have : t ⟨p, hp⟩ ≤ t i := ht.monotone (by rw [Fin.le_def]; exact h)
      linarith
    · rw [if_neg h, max_eq_left]
      have : t i ≤ t ⟨p, hp⟩ := ht.monotone (by rw [Fin.le_def]; simp; omega)
      linarith

/-- C51: with a breakpoint time the index is the nearest sample and the change column is `max(0, t - t_break)`
except at that sample, where it is `t - t_break` even if the sample is before the break -/
theorem change_breaktime (t : Fin n → ℝ) (ht : StrictMono t) (b : ℝ) (hn : 0 < n) :
    ∃ p, ∃ hp : p < n, breakOf t (some b) none = some (p, b) ∧ (∀ i, |t ⟨p, hp⟩ - b| ≤ |t i - b|) ∧
      (∀ i, i.1 ≠ p → changeCol t p b i = max 0 (t i - b)) ∧ changeCol t p b ⟨p, hp⟩ = t ⟨p, hp⟩ - b := by
  set f : ℕ → ℝ := fun i => if h : i < n then t ⟨i, h⟩ else 0 with hf
  obtain ⟨h1, h2, h3⟩ := argmin_spec n f b hn
  have hfv : ∀ i (h : i < n), f i = t ⟨i, h⟩ := fun i h => by rw [hf]; simp [h]
  refine ⟨argminAbs n f b, h1, ?_, ?_, ?_, ?_⟩
  · unfold breakOf; simp only; rw [if_neg (by omega)]
  · intro i
    have := h2 i.1 i.2
    rw [hfv _ h1, hfv _ i.2] at this
    exact this
  · intro i hi
    set p := argminAbs n f b with hp
    have hmin : |t ⟨p, h1⟩ - b| ≤ |t i - b| := by
      have := h2 i.1 i.2
      rwa [hfv _ h1, hfv _ i.2] at this
    unfold changeCol
    by_cases h : p ≤ i.1
    · rw [if_pos h, max_eq_right]
      have hlt : t ⟨p, h1⟩ < t i := ht (by rw [Fin.lt_def]; simp; omega)
      by_contra hneg
      have : t i < b := by linarith [not_le.1 hneg]
      rw [abs_of_nonpos (by linarith), abs_of_nonpos (by linarith)] at hmin
      linarith
    · rw [if_neg h, max_eq_left]
      have hlt : t i < t ⟨p, h1⟩ := ht (by rw [Fin.lt_def]; simp; omega)
      by_contra hneg
      have : b < t i := by linarith [not_le.1 hneg]
      rw [abs_of_nonneg (by linarith), abs_of_nonneg (by linarith)] at hmin
      linarith
  · unfold changeCol; rw [if_pos le_rfl]

/-- C51: the simple model is two straight lines that meet at the break time; `beta[1]` and `beta[2]` are their
trends -/
theorem piecewise_trends (erf : ℝ → ℝ) (tppf : ℝ → ℝ → ℝ) (eps : ℝ) (t d : Fin n → ℝ)
    (BT : Option ℝ) (BP : Option ℕ) (CYCLES : List ℝ) (TERMS : List (Fin n → ℝ)) (err : DataErr n) (WEIGHT : Bool)
    (o : Opts) (k : ℕ) (r : Result n k)
    (h : piecewise erf tppf eps t d BT BP CYCLES TERMS err WEIGHT o = some ⟨k, r⟩) :
    ∃ nco tco, breakOf t BT BP = some (nco, tco) ∧ k = 3 + 2 * CYCLES.length + TERMS.length ∧
      (∀ i : Fin n, i.1 < nco → r.st.simple i = (at' r.beta 0 + at' r.beta 1 * tco) + at' r.beta 1 * (t i - tco)) ∧
      (∀ i : Fin n, nco ≤ i.1 → r.st.simple i = (at' r.beta 0 + at' r.beta 1 * tco) + at' r.beta 2 * (t i - tco)) ∧
      (∀ i, d i = r.st.model i + r.st.residual i) ∧ r.st.N = k ∧ r.st.DOF = (n : ℤ) - k := by
  obtain ⟨nco, tco, hb, p, hp, hx⟩ := piecewise_unfold h
  have hk : k = (piecewiseCols t nco tco CYCLES TERMS).length := congrArg Sigma.fst hx
  subst hk
  have : r = p := eq_of_heq (Sigma.mk.inj_iff.1 hx).2
  subst this
  obtain ⟨q, hq, h1, h2, -⟩ := (piecewiseFit_core erf tppf eps _ d WEIGHT err o).2 r hp
  have hst := (regressFit_core erf tppf eps _ d 3 WEIGHT err o q hq).2.1
  have hlen : (piecewiseCols t nco tco CYCLES TERMS).length = 3 + 2 * CYCLES.length + TERMS.length := by
    simp [piecewiseCols, length_cycleCols]; ring
  have hl3 : 3 ≤ (piecewiseCols t nco tco CYCLES TERMS).length := by omega
  have b0 : at' r.beta 0 = at' q.beta 0 := by
    rw [h2]; unfold at' setTwo; rw [dif_pos (by omega), dif_pos (by omega)]; rfl
  have b1 : at' r.beta 1 = at' q.beta 1 := by
    rw [h2]; unfold at' setTwo; rw [dif_pos (by omega), dif_pos (by omega)]; rfl
  have b2 : at' r.beta 2 = at' q.beta 1 + at' q.beta 2 := by
    rw [h2]
    show (if h : 2 < _ then setTwo q.beta _ ⟨2, h⟩ else 0) = _
    rw [dif_pos (by omega)]; unfold setTwo; rw [if_pos rfl]
  have hsimple : ∀ i, r.st.simple i = at' q.beta 0 + at' q.beta 1 * t i + at' q.beta 2 * changeCol t nco tco i := by
    intro i
    rw [h1, hst]
    simp only [stats]
    have hg : ∀ m, m < 3 → (piecewiseCols t nco tco CYCLES TERMS)[m]? =
        some ((fun m => if m = 0 then (fun i => t i ^ 0) else if m = 1 then (fun i => t i ^ 1) else changeCol t nco tco) m) := by
      intro m hm
      interval_cases m <;> rfl
    rw [lead_sum _ 3 hl3 q.beta _ hg i, Fin.sum_univ_three]
    simp only [Fin.isValue, Fin.val_zero, Fin.val_one, Fin.val_two, if_true, one_ne_zero, if_false,
      OfNat.ofNat_ne_zero, OfNat.ofNat_ne_one]
    ring
  refine ⟨nco, tco, hb, hlen, fun i hi => ?_, fun i hi => ?_, fun i => ?_, ?_, ?_⟩
  · rw [hsimple i, b0, b1]; unfold changeCol; rw [if_neg (by omega)]; ring
  · rw [hsimple i, b0, b1, b2]; unfold changeCol; rw [if_pos hi]; ring
  · rw [h1, hst]; simp only [stats]; ring
  · rw [h1, hst]; rfl
  · rw [h1, hst]; rfl

/-- C51: no break given, or a break index beyond the data, raises -/
theorem piecewise_no_break (erf : ℝ → ℝ) (tppf : ℝ → ℝ → ℝ) (eps : ℝ) (t d : Fin n → ℝ) (CYCLES : List ℝ)
    (TERMS : List (Fin n → ℝ)) (err : DataErr n) (WEIGHT : Bool) (o : Opts) (BT : Option ℝ) (p : ℕ) (hp : n ≤ p) :
    piecewise erf tppf eps t d none none CYCLES TERMS err WEIGHT o = none ∧
    piecewise erf tppf eps t d BT (some p) CYCLES TERMS err WEIGHT o = none := by
  have h2 : breakOf t BT (some p) = none := by
    unfold breakOf; cases BT <;> simp <;> omega
  constructor
  · unfold piecewise; split_ifs <;> rfl
  · unfold piecewise; rw [h2]; split_ifs <;> rfl

/-- variance of the sum of two coefficients by propagation of the data errors, and what is reported: the
weighted case reports `sqrt(C11 + C22)` for the second trend, leaving out `2 C12` -/
theorem piecewise_error_weighted (erf : ℝ → ℝ) (tppf : ℝ → ℝ → ℝ) (eps : ℝ) (X : Matrix (Fin n) (Fin (k + 3)) ℝ)
    (d : Fin n → ℝ) (err : DataErr n) (o : Opts) (p : Result n (k + 3))
    (h : piecewiseFit erf tppf eps X d true err o = some p) :
    p.er.error 2 ^ 2 = p.er.cov 1 1 + p.er.cov 2 2 ∧
    (p.er.error 2 ^ 2 = (p.er.cov 1 1 + p.er.cov 2 2 + 2 * p.er.cov 1 2) ↔ p.er.cov 1 2 = 0) := by
  obtain ⟨r, hr, -, -, hc, -, -, -, he⟩ := (piecewiseFit_core erf tppf eps X d true err o).2 p h
  have herr : ∀ e, err = .scalar e → e = 0 := by
    rintro e rfl; cases h
  have e1 := (regressFit_errors erf tppf eps X d 3 true err o r hr 1).2.1 rfl
  have e2 := (regressFit_errors erf tppf eps X d 3 true err o r hr 2).2.1 rfl
  have a1 : at' r.er.error 1 = r.er.error 1 := by
    unfold at'; rw [dif_pos (by omega)]; congr 1
  have a2 : at' r.er.error 2 = r.er.error 2 := by
    unfold at'; rw [dif_pos (by omega)]; congr 1
  have key : p.er.error 2 ^ 2 = p.er.cov 1 1 + p.er.cov 2 2 := by
    rw [he herr, hc]
    unfold combine setTwo
    rw [if_pos (by rfl), a1, a2, e1, e2, Real.sq_sqrt (by positivity)]
    have hinv := (regressFit_core erf tppf eps X d 3 true err o r hr).2.2
    have hw : ∀ i, 0 ≤ weightSpec eps true err i := by
      intro i
      cases err with
      | scalar e => exact zero_le_one
      | array e => simp only [weightSpec]; positivity
    rw [Real.sq_sqrt (cov_diag_nonneg X _ hw _ hinv 1), Real.sq_sqrt (cov_diag_nonneg X _ hw _ hinv 2)]
  refine ⟨key, ?_⟩
  rw [key]
  constructor <;> intro h <;> linarith

/-- C51: with one known error the reported errors are variances: `e^2 C_ii` instead of `e sqrt(C_ii)` (what
`regress` reports for the same matrix) -/
theorem piecewise_error_known (erf : ℝ → ℝ) (tppf : ℝ → ℝ → ℝ) (eps : ℝ) (X : Matrix (Fin n) (Fin k) ℝ)
    (d : Fin n → ℝ) (e : ℝ) (he : e ≠ 0) (o : Opts) (p r : Result n k)
    (h : piecewiseFit erf tppf eps X d false (.scalar e) o = some p)
    (h' : regressFit erf tppf eps X d 3 false (.scalar e) o = some r) (c : Fin k) (hc : c.1 ≠ 2) :
    p.er.error c = r.er.error c ^ 2 := by
  simp only [piecewiseFit, Option.map_eq_some_iff] at h
  obtain ⟨⟨b, mse, H⟩, hx, hp⟩ := h
  simp only [regressFit, hx, Option.map_some, Option.some.injEq] at h'
  simp only [ne_eq, he, not_false_eq_true, if_true] at hp h'
  subst hp; subst h'
  simp only [combine, setTwo, if_neg hc]
  rw [Real.sq_sqrt]
  exact sum_nonneg fun i _ => sq_nonneg _

/-- the hypotheses of the theorems are met: three samples at 0, 1, 2 broken at index 1 -/
theorem piecewise_example (erf : ℝ → ℝ) (tppf : ℝ → ℝ → ℝ) (eps : ℝ) (d : Fin 3 → ℝ) (o : Opts) :
    ∃ x, piecewise erf tppf eps (fun i : Fin 3 => (i.1 : ℝ)) d none (some 1) [] [] (.scalar 0) false o = some x := by
  unfold piecewise
  rw [if_neg (by norm_num)]
  simp only [breakOf, show (1 : ℕ) < 3 by norm_num, dif_pos]
  set cols := piecewiseCols (fun i : Fin 3 => (i.1 : ℝ)) 1 (((⟨1, by norm_num⟩ : Fin 3)).1 : ℝ) [] [] with hcols
  have hX : FullRank (design cols) := by
    intro v hv
    have h0 := hv 0
    have h1 := hv 1
    have h2 := hv 2
    change ∑ j : Fin 3, _ = _ at h0
    change ∑ j : Fin 3, _ = _ at h1
    change ∑ j : Fin 3, _ = _ at h2
    rw [Fin.sum_univ_three] at h0 h1 h2
    have d0 : ∀ i : Fin 3, design cols i (0 : Fin 3) = 1 := fun i => by
      show ((i.1 : ℝ)) ^ 0 = 1; simp
    have d1 : ∀ i : Fin 3, design cols i (1 : Fin 3) = i.1 := fun i => by
      show ((i.1 : ℝ)) ^ 1 = i.1; simp
    have d2 : ∀ i : Fin 3, design cols i (2 : Fin 3) = if 1 ≤ i.1 then (i.1 : ℝ) - 1 else 0 := fun i => by
      show (if 1 ≤ i.1 then (i.1 : ℝ) - ((1 : ℕ) : ℝ) else 0) = _; simp
    rw [d0, d1, d2] at h0 h1 h2
    norm_num at h0 h1 h2
    have v0 : v (0 : Fin 3) = 0 := h0
    have v1 : v (1 : Fin 3) = 0 := by linarith
    have v2 : v (2 : Fin 3) = 0 := by linarith
    funext j
    change Fin 3 at j
    fin_cases j
    · exact v0
    · exact v1
    · exact v2
  have := (piecewiseFit_core erf tppf eps (design cols) d false (.scalar 0) o).1
  have h2 := (regressFit_none erf tppf eps (design cols) d 3 o).2.2 0
  cases hr : piecewiseFit erf tppf eps (design cols) d false (.scalar 0) o with
  | none => exact absurd hX (h2.1 (this.1 hr))
  | some r => exact ⟨_, rfl⟩

/-! ## Amplitude and phase -/

/-- C54: `A >= 0`, `A^2 = bsin^2 + bcos^2`, the phase is in (-180, 180] and the wave is reproduced at every time -/
theorem amplitude_spec (bsin bcos : ℝ) :
    0 ≤ (amplitude bsin bcos).1 ∧ (amplitude bsin bcos).1 ^ 2 = bsin ^ 2 + bcos ^ 2 ∧
    -180 < (amplitude bsin bcos).2 ∧ (amplitude bsin bcos).2 ≤ 180 ∧
    ∀ t, bsin * Real.sin t + bcos * Real.cos t =
      (amplitude bsin bcos).1 * Real.sin (t + (amplitude bsin bcos).2 * Real.pi / 180) := by
  have hpi := Real.pi_pos
  set z : ℂ := ⟨bsin, bcos⟩ with hz
  have hnorm : Real.sqrt (bsin ^ 2 + bcos ^ 2) = ‖z‖ := by
    rw [Complex.norm_def, Complex.normSq_mk]; congr 1; ring
  have hph : (amplitude bsin bcos).2 * Real.pi / 180 = Complex.arg z := by
    unfold amplitude; simp only; rw [← hz]; field_simp
  refine ⟨Real.sqrt_nonneg _, Real.sq_sqrt (by positivity), ?_, ?_, fun t => ?_⟩
  · unfold amplitude; simp only; rw [← hz]
    have := Complex.neg_pi_lt_arg z
    rw [lt_div_iff₀ hpi]; linarith
  · unfold amplitude; simp only; rw [← hz]
    have := Complex.arg_le_pi z
    rw [div_le_iff₀ hpi]; linarith
  · rw [hph, Real.sin_add]
    have h1 : (amplitude bsin bcos).1 = ‖z‖ := hnorm
    have hc := Complex.norm_mul_cos_arg z
    have hs := Complex.norm_mul_sin_arg z
    rw [h1]
    have e1 : z.re = bsin := rfl
    have e2 : z.im = bcos := rfl
    rw [e1] at hc; rw [e2] at hs
    calc bsin * Real.sin t + bcos * Real.cos t = (‖z‖ * Real.cos z.arg) * Real.sin t + (‖z‖ * Real.sin z.arg) * Real.cos t := by
          rw [hc, hs]
      _ = _ := by ring

/-! ## Tidal aliasing terms -/

/-- C65: four columns; the first pair is the wave of the period (days, times in years) before 2018, the second
from 2018 on; each pair is zero where the other is not, and their sum is the wave at every time -/
theorem aliasing_spec (t : Fin n → ℝ) (period : ℝ) :
    ∃ s1 c1 s2 c2, aliasingTerms t period = [s1, c1, s2, c2] ∧
      (∀ i, s1 i + s2 i = Real.sin (2 * Real.pi * (t i / (period / 365.25)))) ∧
      (∀ i, c1 i + c2 i = Real.cos (2 * Real.pi * (t i / (period / 365.25)))) ∧
      (∀ i, t i < 2018 → s2 i = 0 ∧ c2 i = 0) ∧ (∀ i, 2018 ≤ t i → s1 i = 0 ∧ c1 i = 0) ∧
      (∑ i, s1 i * s2 i = 0 ∧ ∑ i, s1 i * c2 i = 0 ∧ ∑ i, c1 i * s2 i = 0 ∧ ∑ i, c1 i * c2 i = 0) := by
  have e : ∀ i, Real.pi * t i * 730.5 / period = 2 * Real.pi * (t i / (period / 365.25)) := by
    intro i; rw [div_div_eq_mul_div]; ring
  refine ⟨_, _, _, _, rfl, fun i => ?_, fun i => ?_, fun i hi => ?_, fun i hi => ?_, ?_⟩
  · by_cases h : t i < 2018
    · rw [if_pos h, if_neg (not_le.2 h), add_zero, e]
    · rw [if_neg h, if_pos (not_lt.1 h), zero_add, e]
  · by_cases h : t i < 2018
    · rw [if_pos h, if_neg (not_le.2 h), add_zero, e]
    · rw [if_neg h, if_pos (not_lt.1 h), zero_add, e]
  · exact ⟨if_neg (not_le.2 hi), if_neg (not_le.2 hi)⟩
  · exact ⟨if_neg (not_lt.2 hi), if_neg (not_lt.2 hi)⟩
  · refine ⟨?_, ?_, ?_, ?_⟩ <;>
    · refine sum_eq_zero fun i _ => ?_
      by_cases h : t i < 2018
      · rw [if_neg (not_le.2 h), mul_zero]
      · rw [if_neg h, zero_mul]

end Verif.TimeSeries
