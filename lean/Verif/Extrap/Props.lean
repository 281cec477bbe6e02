import Verif.Extrap.Spec
import Verif.Common.Sum
import Mathlib.Algebra.Polynomial.Eval.Degree
import Mathlib.Algebra.Polynomial.Degree.Lemmas
import Mathlib.Algebra.Polynomial.Coeff

/-!
# C99: extrapolation with a regression model
-/
namespace Verif.Extrap
open Verif.TimeSeries

/-! ## The signals of the model -/

theorem isModel_add {o : ℤ} {cs : List ℝ} {f g : ℝ → ℝ} (hf : IsModel o cs f) (hg : IsModel o cs g) (s u : ℝ) :
    IsModel o cs fun t => s * f t + u * g t := by
  obtain ⟨p, hp, a, b, h⟩ := hf
  obtain ⟨q, hq, a', b', h'⟩ := hg
  refine ⟨Polynomial.C s * p + Polynomial.C u * q, ?_, fun k => s * a k + u * a' k, fun k => s * b k + u * b' k, ?_⟩
  · intro k hk
    rw [Polynomial.coeff_add, Polynomial.coeff_C_mul, Polynomial.coeff_C_mul, hp k hk, hq k hk]; ring
  · intro t
    beta_reduce
    rw [h, h', mul_add, mul_add, Finset.mul_sum, Finset.mul_sum, Polynomial.eval_add, Polynomial.eval_mul, Polynomial.eval_mul,
      Polynomial.eval_C, Polynomial.eval_C]
    have : ∑ k ∈ Finset.range cs.length, ((s * a k + u * a' k) * Real.sin (2 * Real.pi * t / cs.getD k 0) +
        (s * b k + u * b' k) * Real.cos (2 * Real.pi * t / cs.getD k 0)) =
        (∑ k ∈ Finset.range cs.length, s * (a k * Real.sin (2 * Real.pi * t / cs.getD k 0) + b k * Real.cos (2 * Real.pi * t / cs.getD k 0))) +
        ∑ k ∈ Finset.range cs.length, u * (a' k * Real.sin (2 * Real.pi * t / cs.getD k 0) + b' k * Real.cos (2 * Real.pi * t / cs.getD k 0)) := by
      rw [← Finset.sum_add_distrib]
      exact Finset.sum_congr rfl fun k _ => by ring
    rw [this]; ring

theorem isModel_sub {o : ℤ} {cs : List ℝ} {f g : ℝ → ℝ} (hf : IsModel o cs f) (hg : IsModel o cs g) :
    IsModel o cs fun t => f t - g t := by
  have := isModel_add hf hg 1 (-1)
  convert this using 2
  ring

theorem isModel_zero (o : ℤ) (cs : List ℝ) : IsModel o cs fun _ => 0 :=
  ⟨0, fun _ _ => by simp, fun _ => 0, fun _ => 0, fun t => by simp⟩

/-- polynomials keep their degree when the origin moves -/
theorem coeff_shift (p : Polynomial ℝ) (o : ℤ) (hp : ∀ k : ℕ, o < k → p.coeff k = 0) (R : ℝ) :
    ∀ k : ℕ, o < k → (p.comp (Polynomial.X + Polynomial.C R)).coeff k = 0 := by
  intro k hk
  by_cases hz : p = 0
  · simp [hz]
  apply Polynomial.coeff_eq_zero_of_natDegree_lt
  rw [Polynomial.natDegree_comp, Polynomial.natDegree_X_add_C, mul_one]
  have h1 : p.coeff p.natDegree ≠ 0 := by rwa [← Polynomial.leadingCoeff, Polynomial.leadingCoeff_ne_zero]
  have h2 : ¬ o < (p.natDegree : ℤ) := fun h => h1 (hp _ h)
  omega

theorem isModel_poly (o : ℤ) (cs : List ℝ) (R : ℝ) (k : ℕ) (hk : (k : ℤ) ≤ o) : IsModel o cs fun t => (t - R) ^ k := by
  refine ⟨(Polynomial.X ^ k : Polynomial ℝ).comp (Polynomial.X + Polynomial.C (-R)), ?_, fun _ => 0, fun _ => 0, fun t => ?_⟩
  · apply coeff_shift
    intro j hj
    rw [Polynomial.coeff_X_pow, if_neg (by omega)]
  · simp [sub_eq_add_neg]

theorem isModel_wave (o : ℤ) (cs : List ℝ) (a b c : ℝ) (hc : c ∈ cs) :
    IsModel o cs fun t => a * Real.sin (2 * Real.pi * t / c) + b * Real.cos (2 * Real.pi * t / c) := by
  obtain ⟨k, hk, rfl⟩ := List.getElem_of_mem hc
  refine ⟨0, fun _ _ => by simp, fun j => if j = k then a else 0, fun j => if j = k then b else 0, fun t => ?_⟩
  rw [Finset.sum_eq_single k]
  · simp [hk]
  · intro j _ hj; simp [hj]
  · intro h; exact absurd (Finset.mem_range.2 hk) h

theorem basis_isModel (R : ℝ) (o : ℤ) (cs : List ℝ) (φ : ℝ → ℝ) (h : φ ∈ basis R o cs) : IsModel o cs φ := by
  unfold basis at h
  rw [List.mem_append] at h
  rcases h with h | h
  · rw [List.mem_map] at h
    obtain ⟨k, hk, rfl⟩ := h
    exact isModel_poly o cs R k (by have := List.mem_range.1 hk; omega)
  · rw [List.mem_flatMap] at h
    obtain ⟨c, hc, h⟩ := h
    simp only [List.mem_cons, List.not_mem_nil, or_false] at h
    rcases h with rfl | rfl
    · have := isModel_wave o cs 1 0 c hc
      simpa using this
    · have := isModel_wave o cs 0 1 c hc
      simpa using this

/-- combinations of columns -/
theorem combo_isModel (R : ℝ) (o : ℤ) (cs : List ℝ) (b : Fin (basis R o cs).length → ℝ) :
    IsModel o cs fun x => ∑ j : Fin (basis R o cs).length, (basis R o cs)[j] x * b j := by
  have key : ∀ s : Finset (Fin (basis R o cs).length), IsModel o cs fun x => ∑ j ∈ s, (basis R o cs)[j] x * b j := by
    intro s
    classical
    induction s using Finset.induction_on with
    | empty => simpa using isModel_zero o cs
    | insert j s hj ih =>
      have := isModel_add (basis_isModel R o cs _ (List.getElem_mem j.2)) ih (b j) 1
      convert this using 2
      rw [Finset.sum_insert hj]
      simp only [Fin.getElem_fin]
      ring
  exact key Finset.univ

/-- the columns reach a signal -/
def Reach (B : List (ℝ → ℝ)) (f : ℝ → ℝ) : Prop := ∃ b : Fin B.length → ℝ, ∀ x, f x = ∑ j : Fin B.length, B[j] x * b j

theorem reach_zero (B : List (ℝ → ℝ)) : Reach B fun _ => 0 := ⟨fun _ => 0, fun _ => by simp⟩

theorem reach_add {B : List (ℝ → ℝ)} {f g : ℝ → ℝ} (hf : Reach B f) (hg : Reach B g) : Reach B fun x => f x + g x := by
  obtain ⟨b, hb⟩ := hf
  obtain ⟨c, hc⟩ := hg
  refine ⟨fun j => b j + c j, fun x => ?_⟩
  beta_reduce
  rw [hb, hc, ← Finset.sum_add_distrib]
  exact Finset.sum_congr rfl fun j _ => by ring

theorem reach_smul {B : List (ℝ → ℝ)} {f : ℝ → ℝ} (a : ℝ) (hf : Reach B f) : Reach B fun x => a * f x := by
  obtain ⟨b, hb⟩ := hf
  refine ⟨fun j => a * b j, fun x => ?_⟩
  beta_reduce
  rw [hb, Finset.mul_sum]
  exact Finset.sum_congr rfl fun j _ => by ring

theorem reach_mem {B : List (ℝ → ℝ)} {φ : ℝ → ℝ} (h : φ ∈ B) : Reach B φ := by
  obtain ⟨k, hk, rfl⟩ := List.getElem_of_mem h
  refine ⟨fun j => if j = ⟨k, hk⟩ then 1 else 0, fun x => ?_⟩
  simp

theorem reach_sum {B : List (ℝ → ℝ)} (n : ℕ) (f : ℕ → ℝ → ℝ) (h : ∀ k < n, Reach B (f k)) :
    Reach B fun x => ∑ k ∈ Finset.range n, f k x := by
  induction n with
  | zero => simpa using reach_zero B
  | succ n ih =>
    have := reach_add (ih fun k hk => h k (by omega)) (h n (by omega))
    simpa [Finset.sum_range_succ] using this

theorem model_reach (R : ℝ) (o : ℤ) (cs : List ℝ) (f : ℝ → ℝ) (hf : IsModel o cs f) : Reach (basis R o cs) f := by
  obtain ⟨p, hp, a, b, h⟩ := hf
  have h1 : Reach (basis R o cs) fun x => p.eval x := by
    have e : ∀ x, p.eval x = ∑ k ∈ Finset.range (o + 1).toNat, (p.comp (Polynomial.X + Polynomial.C R)).coeff k * (x - R) ^ k := by
      intro x
      have : p.eval x = (p.comp (Polynomial.X + Polynomial.C R)).eval (x - R) := by
        rw [Polynomial.eval_comp]; simp
      rw [this, Polynomial.eval_eq_sum_range' (n := max (o + 1).toNat ((p.comp (Polynomial.X + Polynomial.C R)).natDegree + 1))
        (lt_of_lt_of_le (Nat.lt_succ_self _) (le_max_right _ _))]
      symm
      apply Finset.sum_subset
      · intro k hk
        have := Finset.mem_range.1 hk
        exact Finset.mem_range.2 (lt_of_lt_of_le this (le_max_left _ _))
      · intro k _ hk
        have : ¬ k < (o + 1).toNat := fun h => hk (Finset.mem_range.2 h)
        rw [coeff_shift p o hp R k (by omega), zero_mul]
    have := reach_sum (B := basis R o cs) (o + 1).toNat (fun k x => (p.comp (Polynomial.X + Polynomial.C R)).coeff k * (x - R) ^ k)
      (fun k hk => reach_smul _ (reach_mem (by
        unfold basis
        rw [List.mem_append]
        left
        exact List.mem_map.2 ⟨k, List.mem_range.2 hk, rfl⟩)))
    convert this using 2
    exact e _
  have h2 := reach_sum (B := basis R o cs) cs.length
    (fun k x => a k * Real.sin (2 * Real.pi * x / cs.getD k 0) + b k * Real.cos (2 * Real.pi * x / cs.getD k 0))
    (fun k hk => by
      have hm : cs.getD k 0 ∈ cs := by rw [List.getD_eq_getElem?_getD, List.getElem?_eq_getElem hk]; exact List.getElem_mem hk
      apply reach_add
      · apply reach_smul
        apply reach_mem
        unfold basis
        rw [List.mem_append]
        right
        exact List.mem_flatMap.2 ⟨_, hm, by simp⟩
      · apply reach_smul
        apply reach_mem
        unfold basis
        rw [List.mem_append]
        right
        exact List.mem_flatMap.2 ⟨_, hm, by simp⟩)
  have := reach_add h1 h2
  convert this using 2
  exact h _

/-! ## What is returned -/

/-- **C99** the values returned are those of one signal of the model, the same for all output dates, and none fits the data better -/
theorem regress_best {n : ℕ} (t d : Fin n → ℝ) (tout : List ℝ) (o : ℤ) (cs : List ℝ) (R : ℝ) (hv : Valid n o cs) :
    ∃ f, IsBest o cs t d f ∧ regressModel t d tout o (some cs) R = .ok (tout.map f) := by
  set B := basis (relative t R) o cs with hB
  have hlen : B.length ≠ 0 := by
    rw [hB]
    unfold basis
    rcases hv.columns with h | h
    · simp only [List.length_append, List.length_map, List.length_range]
      omega
    · obtain ⟨c, cs', rfl⟩ := List.exists_cons_of_ne_nil h
      simp
  refine ⟨fun x => ∑ j : Fin B.length, B[j] x * lstsq (design B t) d j, ⟨combo_isModel _ o cs _, ?_⟩, ?_⟩
  · intro g hg
    obtain ⟨b, hb⟩ := model_reach (relative t R) o cs g hg
    have := (lstsq_spec (design B t) d).1 b
    unfold sse at this
    unfold misfit
    simp only [hb]
    exact this
  · unfold regressModel
    simp only
    rw [if_neg]
    rintro (h | h | h)
    · exact hv.many h
    · exact hlen h
    · exact hv.periods h

/-- **C99** what is refused: no list of periods (the default), a single date, no term at all, a period of zero -/
theorem regress_refused {n : ℕ} (t d : Fin n → ℝ) (tout : List ℝ) (o : ℤ) (R : ℝ) :
    regressModel t d tout o none R = .error .typeError ∧
    ∀ cs, (n = 1 ∨ (o < 0 ∧ cs = []) ∨ 0 ∈ cs) → regressModel t d tout o (some cs) R = .error .linAlgError := by
  refine ⟨rfl, ?_⟩
  intro cs h
  unfold regressModel
  simp only
  rw [if_pos]
  rcases h with h | ⟨h, rfl⟩ | h
  · exact Or.inl h
  · right; left
    unfold basis
    rw [show (o + 1).toNat = 0 by omega]
    rfl
  · exact Or.inr (Or.inr h)

/-! ## Best signals -/

/-- the misfit of a best signal is orthogonal to all signals -/
theorem best_orth {o : ℤ} {cs : List ℝ} {n : ℕ} {t d : Fin n → ℝ} {f : ℝ → ℝ} (h : IsBest o cs t d f) (g : ℝ → ℝ)
    (hg : IsModel o cs g) : ∑ i, (d i - f (t i)) * g (t i) = 0 := by
  set c := ∑ i, (d i - f (t i)) * g (t i) with hc
  set q := ∑ i, g (t i) ^ 2 with hq
  have key : ∀ s : ℝ, 0 ≤ -2 * s * c + s ^ 2 * q := by
    intro s
    have h1 := h.2 _ (isModel_add h.1 hg 1 s)
    have h2 : misfit t d (fun x => 1 * f x + s * g x) = misfit t d f + (-2 * s * c + s ^ 2 * q) := by
      unfold misfit
      rw [hc, hq, Finset.mul_sum, Finset.mul_sum, ← Finset.sum_add_distrib, ← Finset.sum_add_distrib]
      exact Finset.sum_congr rfl fun i _ => by ring
    linarith
  by_contra hne
  have hq0 : 0 ≤ q := Finset.sum_nonneg fun i _ => sq_nonneg _
  have h1 := key (c / (q + 1))
  have hpos : 0 < q + 1 := by linarith
  have e : -2 * (c / (q + 1)) * c + (c / (q + 1)) ^ 2 * q = c ^ 2 * (-(q + 2)) / (q + 1) ^ 2 := by
    field_simp
    ring
  rw [e] at h1
  have h2 : c ^ 2 * (-(q + 2)) / (q + 1) ^ 2 < 0 := by
    apply div_neg_of_neg_of_pos
    · have : 0 < c ^ 2 := by positivity
      nlinarith
    · positivity
  linarith

/-- orthogonality is enough -/
theorem best_of_orth {o : ℤ} {cs : List ℝ} {n : ℕ} {t d : Fin n → ℝ} {f : ℝ → ℝ} (hf : IsModel o cs f)
    (h : ∀ g, IsModel o cs g → ∑ i, (d i - f (t i)) * g (t i) = 0) : IsBest o cs t d f := by
  refine ⟨hf, fun g hg => ?_⟩
  have h1 := h _ (isModel_sub hf hg)
  have h2 : misfit t d g = misfit t d f + 2 * (∑ i, (d i - f (t i)) * (f (t i) - g (t i))) + ∑ i, (f (t i) - g (t i)) ^ 2 := by
    unfold misfit
    rw [Finset.mul_sum, ← Finset.sum_add_distrib, ← Finset.sum_add_distrib]
    exact Finset.sum_congr rfl fun i _ => by ring
  have h3 : 0 ≤ ∑ i, (f (t i) - g (t i)) ^ 2 := Finset.sum_nonneg fun i _ => sq_nonneg _
  rw [h2, h1]
  linarith

/-- **C99** if the dates determine the signals there is only one best signal -/
theorem best_unique {o : ℤ} {cs : List ℝ} {n : ℕ} {t d : Fin n → ℝ} (hd : Determines o cs t) {f g : ℝ → ℝ}
    (hf : IsBest o cs t d f) (hg : IsBest o cs t d g) : f = g := by
  have hm := isModel_sub hf.1 hg.1
  have h1 := best_orth hf _ hm
  have h2 := best_orth hg _ hm
  have h3 : ∑ i, (f (t i) - g (t i)) ^ 2 = 0 := by
    have : ∑ i, (f (t i) - g (t i)) ^ 2 =
        ∑ i, (d i - g (t i)) * (f (t i) - g (t i)) - ∑ i, (d i - f (t i)) * (f (t i) - g (t i)) := by
      rw [← Finset.sum_sub_distrib]
      exact Finset.sum_congr rfl fun i _ => by ring
    rw [this, h1, h2]; ring
  have h4 := (Finset.sum_eq_zero_iff_of_nonneg fun i _ => sq_nonneg (f (t i) - g (t i))).1 h3
  have h5 := hd _ hm fun i => by
    have := h4 i (Finset.mem_univ i)
    exact pow_eq_zero_iff two_ne_zero |>.1 this
  funext x
  linarith [h5 x]

/-- a best signal is what is returned -/
theorem regress_is {n : ℕ} (t d : Fin n → ℝ) (tout : List ℝ) (o : ℤ) (cs : List ℝ) (R : ℝ) (hv : Valid n o cs)
    (hd : Determines o cs t) (f : ℝ → ℝ) (hf : IsBest o cs t d f) : regressModel t d tout o (some cs) R = .ok (tout.map f) := by
  obtain ⟨g, hg, h⟩ := regress_best t d tout o cs R hv
  rw [h, best_unique hd hf hg]

/-- **C99** a signal of the model is continued exactly, at all dates, however far -/
theorem regress_exact {n : ℕ} (t : Fin n → ℝ) (tout : List ℝ) (o : ℤ) (cs : List ℝ) (R : ℝ) (hv : Valid n o cs)
    (hd : Determines o cs t) (f : ℝ → ℝ) (hf : IsModel o cs f) :
    regressModel t (fun i => f (t i)) tout o (some cs) R = .ok (tout.map f) := by
  apply regress_is t _ tout o cs R hv hd f
  refine ⟨hf, fun g _ => ?_⟩
  unfold misfit
  simp only [sub_self]
  simpa using Finset.sum_nonneg fun i _ => sq_nonneg (f (t i) - g (t i))

/-- **C99** the reference date has no effect, whether given or not -/
theorem regress_relative {n : ℕ} (t d : Fin n → ℝ) (tout : List ℝ) (o : ℤ) (cs : List ℝ) (R R' : ℝ) (hv : Valid n o cs)
    (hd : Determines o cs t) : regressModel t d tout o (some cs) R = regressModel t d tout o (some cs) R' := by
  obtain ⟨f, hf, h⟩ := regress_best t d tout o cs R hv
  rw [h, regress_is t d tout o cs R' hv hd f hf]

/-- **C99** the result is linear in the data -/
theorem regress_linear {n : ℕ} (t d e : Fin n → ℝ) (tout : List ℝ) (o : ℤ) (cs : List ℝ) (R : ℝ) (hv : Valid n o cs)
    (hd : Determines o cs t) (a b : ℝ) : ∃ f g : ℝ → ℝ, regressModel t d tout o (some cs) R = .ok (tout.map f) ∧
      regressModel t e tout o (some cs) R = .ok (tout.map g) ∧
      regressModel t (fun i => a * d i + b * e i) tout o (some cs) R = .ok (tout.map fun x => a * f x + b * g x) := by
  obtain ⟨f, hf, h1⟩ := regress_best t d tout o cs R hv
  obtain ⟨g, hg, h2⟩ := regress_best t e tout o cs R hv
  refine ⟨f, g, h1, h2, regress_is t _ tout o cs R hv hd _ (best_of_orth (isModel_add hf.1 hg.1 a b) fun k hk => ?_)⟩
  have e1 := best_orth hf k hk
  have e2 := best_orth hg k hk
  have : ∑ i, (a * d i + b * e i - (a * f (t i) + b * g (t i))) * k (t i) =
      a * ∑ i, (d i - f (t i)) * k (t i) + b * ∑ i, (e i - g (t i)) * k (t i) := by
    rw [Finset.mul_sum, Finset.mul_sum, ← Finset.sum_add_distrib]
    exact Finset.sum_congr rfl fun i _ => by ring
  rw [this, e1, e2]; ring

theorem isModel_shift {o : ℤ} {cs : List ℝ} {f : ℝ → ℝ} (hf : IsModel o cs f) (s : ℝ) : IsModel o cs fun t => f (t + s) := by
  obtain ⟨p, hp, a, b, h⟩ := hf
  refine ⟨p.comp (Polynomial.X + Polynomial.C s), coeff_shift p o hp s,
    fun k => a k * Real.cos (2 * Real.pi * s / cs.getD k 0) - b k * Real.sin (2 * Real.pi * s / cs.getD k 0),
    fun k => a k * Real.sin (2 * Real.pi * s / cs.getD k 0) + b k * Real.cos (2 * Real.pi * s / cs.getD k 0), fun t => ?_⟩
  beta_reduce
  rw [h, Polynomial.eval_comp]
  congr 1
  · simp
  · apply Finset.sum_congr rfl
    intro k _
    rw [show 2 * Real.pi * (t + s) / cs.getD k 0 = 2 * Real.pi * t / cs.getD k 0 + 2 * Real.pi * s / cs.getD k 0 by ring,
      Real.sin_add, Real.cos_add]
    ring

/-- **C99** the origin of time has no effect: moving all dates, of data and of output, gives the same values -/
theorem regress_shift {n : ℕ} (t d : Fin n → ℝ) (tout : List ℝ) (o : ℤ) (cs : List ℝ) (R R' : ℝ) (hv : Valid n o cs)
    (hd : Determines o cs t) (s : ℝ) :
    regressModel (fun i => t i + s) d (tout.map fun x => x + s) o (some cs) R' = regressModel t d tout o (some cs) R := by
  obtain ⟨f, hf, h⟩ := regress_best t d tout o cs R hv
  have hd' : Determines o cs fun i => t i + s := by
    intro g hg h0 x
    have := hd _ (isModel_shift hg s) h0 (x - s)
    simpa using this
  have hb : IsBest o cs (fun i => t i + s) d fun x => f (x + -s) := by
    refine ⟨isModel_shift hf.1 (-s), fun g hg => ?_⟩
    have := hf.2 _ (isModel_shift hg s)
    unfold misfit at this ⊢
    simpa using this
  rw [regress_is _ d _ o cs R' hv hd' _ hb, h, List.map_map]
  congr 2
  funext x
  simp

end Verif.Extrap
