import Verif.Extrap.Props
import Verif.Input.Replace
import Mathlib.Tactic.IntervalCases
import Mathlib.Tactic.NormNum

/-!
# C99: modelled degree one coefficients, and a case that meets the hypotheses
-/
namespace Verif.Extrap
open Verif.TimeSeries Verif.Input

theorem seasonal_valid (n : ℕ) (hn : n ≠ 1) : Valid n 2 [0.5, 1.0] :=
  ⟨hn, Or.inl (by decide), by norm_num⟩

/-- **C99** `MODEL_DEG1`: months of the degree one file get its coefficients, all other months the values, at the date of the data, of
the best signals (quadratic, annual, semi-annual) of the whole file; nothing else changes -/
theorem modelled_spec {n : ℕ} (hn : n ≠ 1) (L M : ℕ) (g : Geo n) (months : List ℤ) (times : List ℝ)
    (f f' : Fields ℝ) (h : modelledStage L M g months times f = .ok f') :
    ∃ b10 b11 d11, IsBest 2 [0.5, 1.0] g.time g.c10 b10 ∧ IsBest 2 [0.5, 1.0] g.time g.c11 b11 ∧ IsBest 2 [0.5, 1.0] g.time g.s11 d11 ∧
    (∀ i m t, months[i]? = some m → times[i]? = some t →
      (∃ k, g.month k = m ∧ f'.clm 1 0 i = g.c10 k ∧ f'.clm 1 1 i = g.c11 k ∧ f'.slm 1 1 i = g.s11 k) ∨
      ((∀ k, g.month k ≠ m) ∧ f'.clm 1 0 i = b10 t ∧ f'.clm 1 1 i = b11 t ∧ f'.slm 1 1 i = d11 t)) ∧
    (∀ l m, ¬ (l = 1 ∧ m = 0) → ¬ (l = 1 ∧ m = 1) → ∀ i, f'.clm l m i = f.clm l m i ∧ f'.slm l m i = f.slm l m i) ∧
    f'.eclm = f.eclm ∧ f'.eslm = f.eslm ∧ ∀ i, f'.slm 1 0 i = f.slm 1 0 i := by
  have hv := seasonal_valid n hn
  obtain ⟨b10, h10, e10⟩ := regress_best g.time g.c10 times 2 [0.5, 1.0] 2003.3 hv
  obtain ⟨b11, h11, e11⟩ := regress_best g.time g.c11 times 2 [0.5, 1.0] 2003.3 hv
  obtain ⟨d11, hs, es⟩ := regress_best g.time g.s11 times 2 [0.5, 1.0] 2003.3 hv
  refine ⟨b10, b11, d11, h10, h11, hs, ?_⟩
  unfold modelledStage deg1Models at h
  rw [e10, e11, es] at h
  simp only at h
  rcases hst : deg1Stage L M (some fun i => ((times.map b10).getD i 0, (times.map b11).getD i 0, (times.map d11).getD i 0)) (records g)
    months f with e | f''
  · rw [hst] at h; simp at h
  rw [hst] at h
  simp only [Except.ok.injEq] at h
  subst h
  obtain ⟨q1, q2, q3, q4, q5⟩ := deg1Stage_spec L M _ (records g) months f f'' hst
  refine ⟨?_, ?_, q3, q4, q2⟩
  · intro i m t hm ht
    rcases q5 i m hm with ⟨r, hr, r1, r2, r3⟩ | ⟨md, hmd, hno, r1, r2, r3⟩
    · left
      have : r ∈ (records g).filter fun r => r.month = m := by rw [hr]; simp
      rw [List.mem_filter] at this
      obtain ⟨w1, w2⟩ := this
      unfold records at w1
      rw [List.mem_map] at w1
      obtain ⟨k, -, rfl⟩ := w1
      exact ⟨k, by simpa using w2, r1, r2, r3⟩
    · right
      simp only [Option.some.injEq] at hmd
      subst hmd
      refine ⟨?_, ?_, ?_, ?_⟩
      · intro k hk
        apply hno
        rw [List.mem_map]
        exact ⟨⟨g.month k, g.c10 k, g.c11 k, g.s11 k⟩, List.mem_map.2 ⟨k, List.mem_finRange k, rfl⟩, hk⟩
      · rw [r1]; simp [List.getD_eq_getElem?_getD, ht]
      · rw [r2]; simp [List.getD_eq_getElem?_getD, ht]
      · rw [r3]; simp [List.getD_eq_getElem?_getD, ht]
  · intro l m h1 h2 i
    have := q1 l m h1 h2 i
    simp only [Fields.at, Prod.mk.injEq] at this
    exact ⟨this.1, this.2.1⟩

/-- **C99** every month has a value if the degree one file has no month twice -/
theorem modelled_ok {n : ℕ} (hn : n ≠ 1) (L M : ℕ) (hL : 1 ≤ L) (hM : 1 ≤ M) (g : Geo n) (hg : Function.Injective g.month)
    (months : List ℤ) (times : List ℝ) (f : Fields ℝ) : ∃ f', modelledStage L M g months times f = .ok f' := by
  have hv := seasonal_valid n hn
  obtain ⟨b10, h10, e10⟩ := regress_best g.time g.c10 times 2 [0.5, 1.0] 2003.3 hv
  obtain ⟨b11, h11, e11⟩ := regress_best g.time g.c11 times 2 [0.5, 1.0] 2003.3 hv
  obtain ⟨d11, hs, es⟩ := regress_best g.time g.s11 times 2 [0.5, 1.0] 2003.3 hv
  unfold modelledStage deg1Models
  rw [e10, e11, es]
  simp only
  set md : ℕ → ℝ × ℝ × ℝ := fun i => ((times.map b10).getD i 0, (times.map b11).getD i 0, (times.map d11).getD i 0) with hmd
  have key : ∃ f', deg1Stage L M (some md) (records g) months f = .ok f' := by
    unfold deg1Stage
    simp only [Option.isNone_some, Bool.false_eq_true, false_and, if_false]
    apply enumLoop_ok
    intro f i m _
    have hfil : (records g).filter (fun r => r.month = m) = [] ∨ ∃ r, (records g).filter (fun r => r.month = m) = [r] := by
      by_cases hex : ∃ k, g.month k = m
      · obtain ⟨k, hk⟩ := hex
        right
        unfold records
        rw [List.filter_map]
        have : (List.finRange n).filter ((fun r : GeoRec ℝ => decide (r.month = m)) ∘
            fun i => (⟨g.month i, g.c10 i, g.c11 i, g.s11 i⟩ : GeoRec ℝ)) = (List.finRange n).filter fun i => i = k := by
          apply List.filter_congr
          intro i _
          simp only [Function.comp]
          rw [decide_eq_decide, ← hk]
          exact hg.eq_iff
        rw [this, List.filter_eq, (List.nodup_finRange n).count, if_pos (List.mem_finRange k)]
        exact ⟨_, rfl⟩
      · left
        unfold records
        rw [List.filter_map, List.map_eq_nil_iff, List.filter_eq_nil_iff]
        intro k _
        simp only [Function.comp, decide_eq_true_eq]
        exact fun h => hex ⟨k, h⟩
    unfold deg1Step
    rcases hfil with hfil | ⟨r, hfil⟩
    · simp [hfil, hL, hM]
    · simp [hfil, hL, hM]
  obtain ⟨f', hf'⟩ := key
  rw [hf']
  exact ⟨f', rfl⟩

/-- **C99** if the coefficients of the file follow a signal of the model and its dates determine such signals, the months it lacks
get exactly the values of the signal -/
theorem modelled_exact {n : ℕ} (hn : n ≠ 1) (L M : ℕ) (g : Geo n) (hd : Determines 2 [0.5, 1.0] g.time) (months : List ℤ) (times : List ℝ)
    (f f' : Fields ℝ) (h : modelledStage L M g months times f = .ok f') (p : ℝ → ℝ)
    (hp : IsModel 2 [0.5, 1.0] p) (hc : ∀ k, g.c10 k = p (g.time k)) (i : ℕ) (m : ℤ) (t : ℝ) (hm : months[i]? = some m)
    (ht : times[i]? = some t) (hno : ∀ k, g.month k ≠ m) : f'.clm 1 0 i = p t := by
  obtain ⟨b10, b11, d11, h10, -, -, hall, -⟩ := modelled_spec hn L M g months times f f' h
  have hb : IsBest 2 [0.5, 1.0] g.time g.c10 p := by
    refine ⟨hp, fun q _ => ?_⟩
    unfold misfit
    simp only [hc, sub_self]
    simpa using Finset.sum_nonneg fun k _ => sq_nonneg (p (g.time k) - q (g.time k))
  rcases hall i m t hm ht with ⟨k, hk, -⟩ | ⟨-, h1, -⟩
  · exact absurd hk (hno k)
  · rw [h1, best_unique hd h10 hb]

/-! ## A case that meets the hypotheses -/

/-- two years of dates, eight per year -/
noncomputable def eighths (k : Fin 16) : ℝ := (k : ℝ) / 8

theorem eighths_determine : Determines 2 [0.5, 1.0] eighths := by
  intro f hf h0 x
  obtain ⟨p, hp, a, b, h⟩ := hf
  have hev : ∀ t : ℝ, f t = p.coeff 0 + p.coeff 1 * t + p.coeff 2 * t ^ 2 +
      (a 0 * Real.sin (4 * Real.pi * t) + b 0 * Real.cos (4 * Real.pi * t) + (a 1 * Real.sin (2 * Real.pi * t) + b 1 * Real.cos (2 * Real.pi * t))) := by
    intro t
    have hdeg : p.natDegree < 3 := by
      by_contra hge
      have hne : p ≠ 0 := by rintro rfl; simp at hge
      have := hp p.natDegree (by push Not at hge; omega)
      exact hne (Polynomial.leadingCoeff_eq_zero.1 this)
    rw [h, Polynomial.eval_eq_sum_range' hdeg]
    simp only [Finset.sum_range_succ, Finset.sum_range_zero, List.length_cons, List.length_nil, List.getD_cons_zero,
      List.getD_cons_succ]
    rw [show (0.5 : ℝ) = 1 / 2 by norm_num, show (1.0 : ℝ) = 1 by norm_num, div_one,
      show 2 * Real.pi * t / (1 / 2) = 4 * Real.pi * t by ring]
    ring
  have hk : ∀ k : ℕ, k < 16 → f ((k : ℝ) / 8) = 0 := fun k hk => h0 ⟨k, hk⟩
  have per : ∀ t : ℝ, f (t + 1) - f t = p.coeff 1 + p.coeff 2 * (2 * t + 1) := by
    intro t
    rw [hev, hev, show 4 * Real.pi * (t + 1) = 4 * Real.pi * t + 2 * Real.pi + 2 * Real.pi by ring,
      show 2 * Real.pi * (t + 1) = 2 * Real.pi * t + 2 * Real.pi by ring, Real.sin_add_two_pi, Real.sin_add_two_pi,
      Real.cos_add_two_pi, Real.cos_add_two_pi, Real.sin_add_two_pi, Real.cos_add_two_pi]
    ring
  have at' : ∀ (k : ℕ) (y : ℝ), k < 16 → (k : ℝ) / 8 = y → f y = 0 := fun k y h1 h2 => h2 ▸ hk k h1
  have e0 : f 0 = 0 := at' 0 0 (by decide) (by norm_num)
  have e1 : f (1 / 8) = 0 := at' 1 _ (by decide) (by norm_num)
  have e2 : f (1 / 4) = 0 := at' 2 _ (by decide) (by norm_num)
  have e4 : f (1 / 2) = 0 := at' 4 _ (by decide) (by norm_num)
  have e6 : f (3 / 4) = 0 := at' 6 _ (by decide) (by norm_num)
  have e8 : f (0 + 1) = 0 := at' 8 _ (by decide) (by norm_num)
  have e9 : f (1 / 2 + 1) = 0 := at' 12 _ (by decide) (by norm_num)
  have p0 := per 0
  have p4 := per (1 / 2)
  rw [e8, e0] at p0
  rw [e9, e4] at p4
  have c2 : p.coeff 2 = 0 := by linarith
  have c1 : p.coeff 1 = 0 := by rw [c2] at p4; linarith
  rw [hev, c1, c2] at e0 e1 e2 e4 e6
  have v0 : 4 * Real.pi * 0 = 0 := by ring
  have v1 : 4 * Real.pi * (1 / 8) = Real.pi / 2 := by ring
  have v2 : 4 * Real.pi * (1 / 4) = Real.pi := by ring
  have v4 : 4 * Real.pi * (1 / 2) = 2 * Real.pi := by ring
  have v6 : 4 * Real.pi * (3 / 4) = Real.pi + 2 * Real.pi := by ring
  have w0 : 2 * Real.pi * 0 = 0 := by ring
  have w2 : 2 * Real.pi * (1 / 4) = Real.pi / 2 := by ring
  have w4 : 2 * Real.pi * (1 / 2) = Real.pi := by ring
  have w6 : 2 * Real.pi * (3 / 4) = Real.pi / 2 + Real.pi := by ring
  rw [v0, w0, Real.sin_zero, Real.cos_zero] at e0
  rw [v1, Real.sin_pi_div_two, Real.cos_pi_div_two] at e1
  rw [v2, w2, Real.sin_pi, Real.cos_pi, Real.sin_pi_div_two, Real.cos_pi_div_two] at e2
  rw [v4, w4, Real.sin_two_pi, Real.cos_two_pi, Real.sin_pi, Real.cos_pi] at e4
  rw [v6, w6, Real.sin_add_two_pi, Real.cos_add_two_pi, Real.sin_pi, Real.cos_pi, Real.sin_add_pi, Real.cos_add_pi,
    Real.sin_pi_div_two, Real.cos_pi_div_two] at e6
  have b1 : b 1 = 0 := by linarith
  have a1 : a 1 = 0 := by linarith
  have c0 : p.coeff 0 = 0 := by linarith
  have b0 : b 0 = 0 := by linarith
  have a0 : a 0 = 0 := by rw [a1, b1, c0] at e1; linarith
  rw [hev, c0, c1, c2, a0, a1, b0, b1]
  ring

/-- the signal `1 + t²` with an annual wave is continued exactly to any date -/
example (x : ℝ) : regressModel eighths (fun k => 1 + eighths k ^ 2 + 3 * Real.cos (2 * Real.pi * eighths k / 1.0)) [x] 2 (some [0.5, 1.0]) 2003.3 =
    .ok [1 + x ^ 2 + 3 * Real.cos (2 * Real.pi * x / 1.0)] := by
  have h1 := isModel_add (isModel_add (isModel_poly 2 [0.5, 1.0] 0 0 (by decide)) (isModel_poly 2 [0.5, 1.0] 0 2 (by decide)) 1 1)
    (isModel_wave 2 [0.5, 1.0] 0 3 1.0 (by norm_num)) 1 1
  have h2 := regress_exact eighths [x] 2 [0.5, 1.0] 2003.3 (seasonal_valid 16 (by decide)) eighths_determine _ h1
  simpa using h2

/-- a degree one file with these dates; month 17 is missing and gets the value of the signal -/
example (f : Fields ℝ) : ∃ f', modelledStage 60 60 ⟨fun k => (k : ℤ), eighths, fun k => eighths k ^ 2, fun _ => 1, fun _ => 0⟩ [3, 17] [3/8, 17/8] f =
    .ok f' ∧ f'.clm 1 0 1 = (17 / 8) ^ 2 := by
  obtain ⟨f', hf⟩ := modelled_ok (n := 16) (by decide) 60 60 (by decide) (by decide)
    ⟨fun k => (k : ℤ), eighths, fun k => eighths k ^ 2, fun _ => 1, fun _ => 0⟩
    (by intro a b h; simp only [Int.natCast_inj] at h; exact Fin.ext h) [3, 17] [3/8, 17/8] f
  refine ⟨f', hf, ?_⟩
  have h1 := isModel_poly 2 [0.5, 1.0] 0 2 (by decide)
  have := modelled_exact (n := 16) (by decide) 60 60 _ eighths_determine [3, 17] [3/8, 17/8] f f' hf _ h1 (fun k => by simp) 1 17 (17 / 8)
    rfl rfl (fun k => by have := k.2; simp only; omega)
  simpa using this

end Verif.Extrap
