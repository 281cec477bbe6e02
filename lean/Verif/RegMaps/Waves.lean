import Verif.RegMaps.Props
import Verif.RegMaps.Measures
import Mathlib.Analysis.SpecialFunctions.Complex.LogDeriv
import Mathlib.Analysis.SpecialFunctions.Sqrt

/-!
# C94: amplitudes, phases and measures of fit
-/
namespace Verif.RegMaps
open Verif.TimeSeries Finset

/-! ## Positions of files -/

theorem flatMap_pair {α β : Type*} (f g : α → β) (xs : List α) (i : ℕ) :
    (xs.flatMap fun x => [f x, g x])[2 * i]? = (xs[i]?).map f ∧
    (xs.flatMap fun x => [f x, g x])[2 * i + 1]? = (xs[i]?).map g := by
  induction xs generalizing i with
  | nil => simp
  | cons x r ih =>
    cases i with
    | zero => simp
    | succ i =>
      have e1 : 2 * (i + 1) = 2 * i + 1 + 1 := by ring
      rw [e1]
      simpa using ih i

theorem flatMap_pair_length {α β : Type*} (f g : α → β) (xs : List α) : (xs.flatMap fun x => [f x, g x]).length = 2 * xs.length := by
  induction xs with
  | nil => rfl
  | cons x r ih => simp only [List.flatMap_cons, List.length_append, ih, List.length_cons, List.length_nil]; ring

/-- the cell of all files and the files by number -/
theorem layout (lib : Lib) (disk : List Char → Option InMap) (j : Job) (ORDER : ℕ) (cycles : List ℚ) (files : List Out)
    (h : regressMaps lib disk j ORDER (some cycles) = .ok files) :
    ∃ suffix xs l nlat nlon cell, suffixOf j.DATAFORM = .ok suffix ∧ Stored disk j suffix xs ∧ ORDER ≤ 2 ∧
      List.Perm (l.map (·.2)) xs ∧ (∀ x ∈ xs, x.nlat = nlat ∧ x.nlon = nlon) ∧
      cells (gridFrom nlat nlon l) (fitCell lib (gridFrom nlat nlon l) ORDER cycles (plan (polyPlan ORDER) cycles)) = .ok cell ∧
      (∀ k < (comps ORDER (labelled cycles)).length, ∃ u, files[k]? = some
        ⟨outName j suffix ((comps ORDER (labelled cycles)).getD k (.power 0)).label j.START j.END, u,
          fun a b => (cell a b).beta k, some fun a b => (cell a b).error k⟩) ∧
      (∀ f < (labelled cycles).length,
        files[(comps ORDER (labelled cycles)).length + 2 * f]? = some
          ⟨outName j suffix (((labelled cycles).getD f (.cycle 1)).label ++ "_AMPL".toList) j.START j.END, j.unitsName,
            fun a b => ampOf (cell a b) (ORDER + 1 + 2 * f), some fun a b => ampError (cell a b) (ORDER + 1 + 2 * f)⟩ ∧
        files[(comps ORDER (labelled cycles)).length + 2 * f + 1]? = some
          ⟨outName j suffix (((labelled cycles).getD f (.cycle 1)).label ++ "_PHASE".toList) j.START j.END, "degrees".toList,
            fun a b => phaseOf (cell a b) (ORDER + 1 + 2 * f), some fun a b => phaseError (cell a b) (ORDER + 1 + 2 * f)⟩) ∧
      ∀ i, files[(comps ORDER (labelled cycles)).length + 2 * (labelled cycles).length + i]? =
        (fitFiles j suffix ('x' :: num 0 ORDER) cell)[i]? := by
  obtain ⟨suffix, g, cell, hi, ho, hc, rfl⟩ := regressMaps_ok lib disk j ORDER cycles files h
  obtain ⟨hs, -, xs, l, nlat, nlon, hst, -, rfl, -, hl, -, -, hsame⟩ := input_ok disk j suffix g hi
  have hco := coef_length ORDER cycles
  have hlen : (plan (polyPlan ORDER) cycles).coef.length = (comps ORDER (labelled cycles)).length := by
    rw [hco, List.length_map]
  have hcl : (coefFiles j suffix (plan (polyPlan ORDER) cycles) (fun _ => (j.START, j.END)) cell).length =
      (comps ORDER (labelled cycles)).length := by
    unfold coefFiles; rw [List.length_map, List.length_range, hlen]
  have hamp : (plan (polyPlan ORDER) cycles).amp = (labelled cycles).map Wave.label := (plan_eq _ cycles).2.1
  have hal : (ampFiles j suffix "_AMPL".toList (plan (polyPlan ORDER) cycles) (1 + ORDER) cell).length =
      2 * (labelled cycles).length := by
    unfold ampFiles
    rw [flatMap_pair_length, List.length_zipIdx, hamp, List.length_map]
  have hzip : ∀ f < (labelled cycles).length, (plan (polyPlan ORDER) cycles).amp.zipIdx[f]? =
      some (((labelled cycles).getD f (.cycle 1)).label, f) := by
    intro f hf
    rw [List.getElem?_zipIdx, hamp, List.getElem?_map]
    simp [hf]
  refine ⟨suffix, xs, l, nlat, nlon, cell, hs, hst, ho, hl, hsame, hc, ?_, ?_, ?_⟩
  · intro k hk
    rw [List.append_assoc, List.getElem?_append_left (by rw [hcl]; exact hk), coefFiles_get _ _ _ _ _ _ (by rw [hlen]; exact hk)]
    refine ⟨j.unitsName ++ (plan (polyPlan ORDER) cycles).unit.getD k [], ?_⟩
    rw [hco]
    simp only [List.getD_eq_getElem?_getD, List.getElem?_map]
    simp [hk]
  · intro f hf
    have hpair := flatMap_pair (fun fi : List Char × ℕ => (⟨outName j suffix (fi.1 ++ "_AMPL".toList) j.START j.END, j.unitsName,
        fun a b => ampOf (cell a b) (1 + ORDER + 2 * fi.2),
        some fun a b => ampError (cell a b) (1 + ORDER + 2 * fi.2)⟩ : Out))
      (fun fi : List Char × ℕ => (⟨outName j suffix (fi.1 ++ "_PHASE".toList) j.START j.END, "degrees".toList,
        fun a b => phaseOf (cell a b) (1 + ORDER + 2 * fi.2),
        some fun a b => phaseError (cell a b) (1 + ORDER + 2 * fi.2)⟩ : Out)) (plan (polyPlan ORDER) cycles).amp.zipIdx f
    rw [hzip f hf, Nat.add_comm 1 ORDER] at hpair
    constructor
    · rw [List.append_assoc, List.getElem?_append_right (by rw [hcl]; omega), hcl,
        List.getElem?_append_left (by rw [hal]; omega), Nat.add_sub_cancel_left]
      unfold ampFiles
      rw [Nat.add_comm 1 ORDER]
      exact hpair.1
    · rw [List.append_assoc, List.getElem?_append_right (by rw [hcl]; omega), hcl,
        List.getElem?_append_left (by rw [hal]; omega), Nat.add_assoc, Nat.add_sub_cancel_left]
      unfold ampFiles
      rw [Nat.add_comm 1 ORDER]
      exact hpair.2
  · intro i
    rw [List.getElem?_append_right (by rw [List.length_append, hcl, hal]; omega), List.length_append, hcl, hal]
    congr 1
    omega

/-! ## Partial derivatives of amplitude and phase -/

theorem deriv_amp (s c : ℝ) (h : s ≠ 0 ∨ c ≠ 0) :
    HasDerivAt (fun x => Real.sqrt (x ^ 2 + c ^ 2)) (s / Real.sqrt (s ^ 2 + c ^ 2)) s := by
  have hp : s ^ 2 + c ^ 2 ≠ 0 := by
    rcases h with h | h <;> positivity
  have h1 : HasDerivAt (fun x : ℝ => x ^ 2 + c ^ 2) (2 * s) s := by
    have := (hasDerivAt_pow 2 s).add_const (c ^ 2)
    simpa using this
  have h2 := h1.sqrt hp
  convert h2 using 1
  rw [mul_div_mul_left _ _ (two_ne_zero)]

theorem deriv_arg (z w : ℂ) (hz : z ∈ Complex.slitPlane) (f : ℝ → ℂ) (x : ℝ) (hf : HasDerivAt f w x) (hx : f x = z) :
    HasDerivAt (fun t => Complex.arg (f t)) (w / z).im x := by
  have h1 := hf.clog_real (by rw [hx]; exact hz)
  have h2 := Complex.imCLM.hasFDerivAt.comp_hasDerivAt x h1
  rw [hx] at h2
  simpa [Function.comp_def, Complex.log_im] using h2

theorem deriv_phase (s c : ℝ) (h : ¬ (s ≤ 0 ∧ c = 0)) :
    HasDerivAt (fun x => 180 / Real.pi * Complex.arg ⟨x, c⟩) (180 / Real.pi * (-c / (s ^ 2 + c ^ 2))) s ∧
    HasDerivAt (fun x => 180 / Real.pi * Complex.arg ⟨s, x⟩) (180 / Real.pi * (s / (s ^ 2 + c ^ 2))) c := by
  have hz : (⟨s, c⟩ : ℂ) ∈ Complex.slitPlane := by
    rw [Complex.mem_slitPlane_iff]
    by_contra hn
    push Not at hn
    exact h ⟨hn.1, hn.2⟩
  have hn : Complex.normSq ⟨s, c⟩ = s ^ 2 + c ^ 2 := by rw [Complex.normSq_mk]; ring
  constructor
  · refine HasDerivAt.const_mul _ ?_
    have hf : HasDerivAt (fun x : ℝ => (⟨x, c⟩ : ℂ)) 1 s := by
      have : (fun x : ℝ => (⟨x, c⟩ : ℂ)) = fun x : ℝ => (x : ℂ) + (⟨0, c⟩ : ℂ) := by
        funext x; apply Complex.ext <;> simp
      rw [this]
      exact (Complex.ofRealCLM.hasDerivAt (x := s)).add_const _
    have := deriv_arg ⟨s, c⟩ 1 hz _ s hf rfl
    have e : (1 / (⟨s, c⟩ : ℂ)).im = -c / (s ^ 2 + c ^ 2) := by
      rw [Complex.div_im, hn]; simp; ring
    rw [e] at this
    exact this
  · refine HasDerivAt.const_mul _ ?_
    have hf : HasDerivAt (fun x : ℝ => (⟨s, x⟩ : ℂ)) Complex.I c := by
      have : (fun x : ℝ => (⟨s, x⟩ : ℂ)) = fun x : ℝ => (s : ℂ) + (x : ℂ) * Complex.I := by
        funext x; apply Complex.ext <;> simp
      rw [this]
      have := ((Complex.ofRealCLM.hasDerivAt (x := c)).mul_const Complex.I).const_add (s : ℂ)
      simpa using this
    have := deriv_arg ⟨s, c⟩ Complex.I hz _ c hf rfl
    have e : (Complex.I / (⟨s, c⟩ : ℂ)).im = s / (s ^ 2 + c ^ 2) := by
      rw [Complex.div_im, hn]; simp
    rw [e] at this
    exact this

/-- a map `A` of an amplitude and a map `P` of a phase in degrees from 0 to 360 show at a cell the wave with coefficients `s`
and `c` of sine and cosine; their errors are `es` and `ec` propagated with the partial derivatives, wherever amplitude and angle
are differentiable -/
structure IsWave (s c es ec : ℝ) (A P : Out) (a b : ℕ) : Prop where
  nonneg : 0 ≤ A.data a b
  circle : 0 ≤ P.data a b ∧ P.data a b < 360
  same : ∀ x, s * Real.sin x + c * Real.cos x = A.data a b * Real.sin (x + P.data a b * Real.pi / 180)
  amp : s ≠ 0 ∨ c ≠ 0 → ∃ ds dc e, HasDerivAt (fun x => Real.sqrt (x ^ 2 + c ^ 2)) ds s ∧
          HasDerivAt (fun x => Real.sqrt (s ^ 2 + x ^ 2)) dc c ∧ A.error = some e ∧
          e a b = Real.sqrt ((ds * es) ^ 2 + (dc * ec) ^ 2)
  phase : ¬ (s ≤ 0 ∧ c = 0) → ∃ ds dc e, HasDerivAt (fun x => 180 / Real.pi * Complex.arg ⟨x, c⟩) ds s ∧
          HasDerivAt (fun x => 180 / Real.pi * Complex.arg ⟨s, x⟩) dc c ∧ P.error = some e ∧
          e a b = Real.sqrt ((ds * es) ^ 2 + (dc * ec) ^ 2)

theorem isWave_cell (cell : ℕ → ℕ → Cell) (k : ℕ) (n1 u1 n2 u2 : List Char) {a b : ℕ} :
    IsWave ((cell a b).beta k) ((cell a b).beta (k + 1)) ((cell a b).error k) ((cell a b).error (k + 1))
      ⟨n1, u1, fun a b => ampOf (cell a b) k, some fun a b => ampError (cell a b) k⟩
      ⟨n2, u2, fun a b => phaseOf (cell a b) k, some fun a b => phaseError (cell a b) k⟩ a b := by
  set s := (cell a b).beta k
  set c := (cell a b).beta (k + 1)
  set es := (cell a b).error k
  set ec := (cell a b).error (k + 1)
  obtain ⟨q1, q2, q3, q4, q5⟩ := amplitude_spec s c
  have hpi := Real.pi_pos
  have eA : ampOf (cell a b) k = Real.sqrt (s ^ 2 + c ^ 2) := rfl
  have hsq : Real.sqrt (s ^ 2 + c ^ 2) ^ 2 = s ^ 2 + c ^ 2 := Real.sq_sqrt (by positivity)
  refine ⟨q1, ⟨?_, ?_⟩, fun x => ?_, fun hne => ?_, fun hne => ?_⟩
  · simp only [phaseOf]
    split_ifs with hneg
    · change (amplitude s c).2 < 0 at hneg; change 0 ≤ (amplitude s c).2 + 360; linarith
    · change ¬ (amplitude s c).2 < 0 at hneg; change 0 ≤ (amplitude s c).2; linarith
  · simp only [phaseOf]
    split_ifs with hneg
    · change (amplitude s c).2 < 0 at hneg; change (amplitude s c).2 + 360 < 360; linarith
    · change (amplitude s c).2 < 360; linarith
  · simp only [phaseOf]
    rw [q5 x]
    split_ifs with hneg
    · change _ = (amplitude s c).1 * Real.sin (x + ((amplitude s c).2 + 360) * Real.pi / 180)
      rw [show x + ((amplitude s c).2 + 360) * Real.pi / 180 = x + (amplitude s c).2 * Real.pi / 180 + 2 * Real.pi by ring,
        Real.sin_add_two_pi]
    · rfl
  · refine ⟨s / Real.sqrt (s ^ 2 + c ^ 2), c / Real.sqrt (c ^ 2 + s ^ 2), _, deriv_amp s c hne, ?_, rfl, ?_⟩
    · have := deriv_amp c s hne.symm
      simp only [add_comm (s ^ 2)]
      exact this
    · simp only [ampError]
      rw [eA]
      change Real.sqrt ((es * s / Real.sqrt (s ^ 2 + c ^ 2)) ^ 2 + (ec * c / Real.sqrt (s ^ 2 + c ^ 2)) ^ 2) = _
      rw [add_comm (c ^ 2)]
      congr 1
      ring
  · obtain ⟨d1, d2⟩ := deriv_phase s c hne
    refine ⟨_, _, _, d1, d2, rfl, ?_⟩
    simp only [phaseError]
    rw [eA, hsq]
    change 180 / Real.pi * Real.sqrt ((es * c / (s ^ 2 + c ^ 2)) ^ 2 + (ec * s / (s ^ 2 + c ^ 2)) ^ 2) = _
    have h0 : (0 : ℝ) ≤ 180 / Real.pi := by positivity
    rw [← Real.sqrt_sq h0, ← Real.sqrt_mul (sq_nonneg _), Real.sqrt_sq h0]
    congr 1
    ring

/-- C94: for each wave with a label there is a map of the amplitude and a map of the phase; they show the same wave as the maps
of sine and cosine -/
theorem regress_waves (lib : Lib) (disk : List Char → Option InMap) (j : Job) (ORDER : ℕ) (cycles : List ℚ) (files : List Out)
    (h : regressMaps lib disk j ORDER (some cycles) = .ok files) :
    ∃ suffix, suffixOf j.DATAFORM = .ok suffix ∧ ∀ f < (labelled cycles).length, ∃ A P : Out,
      files[(comps ORDER (labelled cycles)).length + 2 * f]? = some A ∧
      files[(comps ORDER (labelled cycles)).length + 2 * f + 1]? = some P ∧
      A.name = outName j suffix (((labelled cycles).getD f (.cycle 1)).label ++ "_AMPL".toList) j.START j.END ∧
      P.name = outName j suffix (((labelled cycles).getD f (.cycle 1)).label ++ "_PHASE".toList) j.START j.END ∧
      A.units = j.unitsName ∧ P.units = "degrees".toList ∧
      ∀ a b, IsWave (mapAt files (ORDER + 1 + 2 * f) a b) (mapAt files (ORDER + 1 + 2 * f + 1) a b)
        (errorAt files (ORDER + 1 + 2 * f) a b) (errorAt files (ORDER + 1 + 2 * f + 1) a b) A P a b := by
  obtain ⟨suffix, xs, l, nlat, nlon, cell, hs, -, -, -, -, -, hco, hwa, -⟩ := layout lib disk j ORDER cycles files h
  refine ⟨suffix, hs, fun f hf => ?_⟩
  obtain ⟨hA, hP⟩ := hwa f hf
  refine ⟨_, _, hA, hP, rfl, rfl, rfl, rfl, fun a b => ?_⟩
  have hk : ORDER + 1 + 2 * f + 1 < (comps ORDER (labelled cycles)).length := by rw [comps_length]; omega
  obtain ⟨u, h1⟩ := hco (ORDER + 1 + 2 * f) (by omega)
  obtain ⟨u', h2⟩ := hco (ORDER + 1 + 2 * f + 1) hk
  unfold mapAt errorAt
  rw [h1, h2]
  exact isWave_cell _ _ _ _ _ _

end Verif.RegMaps
