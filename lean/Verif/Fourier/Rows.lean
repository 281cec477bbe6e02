import Verif.Fourier.Series
import Mathlib.Tactic.Linarith

/-!
# Rows of order 0 and 1

Helper lemmas for `Verif.Fourier.Props`: the Fourier rows computed by the code for orders 0 and 1
are positive multiples of the Fourier series of the Legendre functions.
-/
namespace Verif.Fourier
open Verif.Legendre Finset

/-- the Fourier series with coefficients `r`: cosines for even orders, sines for odd orders -/
noncomputable def ser (lmax m : ℕ) (r : ℕ → ℝ) (t : ℝ) : ℝ :=
  ∑ j ∈ range (lmax + 1), r j * (if m % 2 = 0 then Real.cos ((j : ℝ) * t) else Real.sin ((j : ℝ) * t))

theorem split_parity (L : ℕ) (f : ℕ → ℝ) :
    ∑ j ∈ range (2 * L + 1), f j = ∑ i ∈ range (L + 1), f (2 * i) + ∑ i ∈ range L, f (2 * i + 1) := by
  induction L with
  | zero => simp
  | succ L ih =>
    rw [show 2 * (L + 1) + 1 = 2 * L + 1 + 1 + 1 by ring, sum_range_succ, sum_range_succ, ih,
      sum_range_succ (fun i => f (2 * i)) (L + 1), sum_range_succ (fun i => f (2 * i + 1)) L]
    rw [show 2 * L + 1 + 1 = 2 * (L + 1) by ring]
    ring

theorem sum_even (L : ℕ) (f : ℕ → ℝ) (h : ∀ j, j % 2 = 1 → f j = 0) :
    ∑ j ∈ range (2 * L + 1), f j = ∑ i ∈ range (L + 1), f (0 + 2 * i) := by
  rw [split_parity, sum_eq_zero (s := range L) (fun i _ => h _ (by omega)), add_zero]
  simp only [Nat.zero_add]

theorem sum_odd (L : ℕ) (f : ℕ → ℝ) (h : ∀ j, j % 2 = 0 → f j = 0) :
    ∑ j ∈ range (2 * L + 1), f j = ∑ i ∈ range L, f (1 + 2 * i) := by
  rw [split_parity, sum_eq_zero (s := range (L + 1)) (fun i _ => h _ (by omega)), zero_add]
  exact sum_congr rfl fun i _ => by rw [add_comm]

/-- columns `p, p+2, ...` -/
def cols (p N : ℕ) : List ℕ := (List.range N).map fun i => p + 2 * i

theorem arange2_cols (a b N : ℕ) (h : (b - a + 1) / 2 = N) : arange2 a b = cols a N := by
  unfold arange2 cols; rw [h]

theorem mem_cols (p N j : ℕ) : j ∈ cols p N ↔ ∃ i < N, j = p + 2 * i := by
  unfold cols
  simp only [List.mem_map, List.mem_range]
  exact ⟨fun ⟨i, h, e⟩ => ⟨i, h, e.symm⟩, fun ⟨i, h, e⟩ => ⟨i, h, e.symm⟩⟩

theorem sum_cols (p N : ℕ) (f : ℕ → ℝ) : ((cols p N).map f).sum = ∑ i ∈ range N, f (p + 2 * i) := by
  unfold cols
  rw [List.map_map]
  induction N with
  | zero => simp
  | succ N ih => rw [List.range_succ, List.map_append, List.sum_append, ih, sum_range_succ]; simp

/-! ## normalisation integrals -/

theorem dbl_integral (p N : ℕ) (r : ℕ → ℝ) (tr : ℕ → ℝ → ℝ) (hc : ∀ j, Continuous (tr j)) :
    ∫ t in (0 : ℝ)..Real.pi, (∑ i ∈ range N, r (p + 2 * i) * tr (p + 2 * i) t) ^ 2 * Real.sin t =
      ∑ i ∈ range N, ∑ k ∈ range N, r (p + 2 * i) * r (p + 2 * k) *
        ∫ t in (0 : ℝ)..Real.pi, tr (p + 2 * i) t * tr (p + 2 * k) t * Real.sin t := by
  have e : ∀ t, (∑ i ∈ range N, r (p + 2 * i) * tr (p + 2 * i) t) ^ 2 * Real.sin t =
      ∑ i ∈ range N, ∑ k ∈ range N, r (p + 2 * i) * r (p + 2 * k) *
        (tr (p + 2 * i) t * tr (p + 2 * k) t * Real.sin t) := by
    intro t
    rw [sq, sum_mul_sum, sum_mul]
    apply sum_congr rfl
    intro i _
    rw [sum_mul]
    apply sum_congr rfl
    intro k _
    ring
  simp only [e]
  rw [intervalIntegral.integral_finsetSum]
  · apply sum_congr rfl
    intro i _
    rw [intervalIntegral.integral_finsetSum]
    · apply sum_congr rfl
      intro k _
      rw [intervalIntegral.integral_const_mul]
    · intro k _
      apply Continuous.intervalIntegrable
      have := hc (p + 2 * i); have := hc (p + 2 * k)
      fun_prop
  · intro i _
    apply Continuous.intervalIntegrable
    apply continuous_finsetSum
    intro k _
    have := hc (p + 2 * i); have := hc (p + 2 * k)
    fun_prop

theorem norm0_integral (p N : ℕ) (r : ℕ → ℝ) :
    norm0 (cols p N) (cols p N) r =
      ∫ t in (0 : ℝ)..Real.pi,
        (∑ i ∈ range N, r (p + 2 * i) * Real.cos (((p + 2 * i : ℕ) : ℝ) * t)) ^ 2 * Real.sin t := by
  rw [dbl_integral p N r (fun j t => Real.cos ((j : ℝ) * t)) (by intro j; fun_prop)]
  unfold norm0
  rw [sum_cols]
  apply sum_congr rfl
  intro i _
  rw [sum_cols, mul_sum, sum_div]
  apply sum_congr rfl
  intro k _
  rw [integral_cos_cos _ _ (by omega)]
  ring

theorem norm1_integral (p N : ℕ) (r : ℕ → ℝ) :
    norm1 (cols p N) (cols p N) r =
      ∫ t in (0 : ℝ)..Real.pi,
        (∑ i ∈ range N, r (p + 2 * i) * Real.sin (((p + 2 * i : ℕ) : ℝ) * t)) ^ 2 * Real.sin t := by
  rw [dbl_integral p N r (fun j t => Real.sin ((j : ℝ) * t)) (by intro j; fun_prop)]
  unfold norm1
  rw [sum_cols]
  apply sum_congr rfl
  intro i _
  rw [sum_cols, mul_sum, sum_div]
  apply sum_congr rfl
  intro k _
  rw [integral_sin_sin _ _ (by omega)]
  ring

/-- a series that is a positive multiple of a Legendre function is normalised to it -/
theorem normalise (l m : ℕ) (hm : m ≤ l) (f : ℝ → ℝ) (c : ℝ) (hc : 0 < c)
    (h : ∀ t, f t = c * Plm l m (Real.cos t) (Real.sin t)) (t : ℝ) :
    f t / Real.sqrt ((∫ t in (0 : ℝ)..Real.pi, f t ^ 2 * Real.sin t) / (2 * dlt m)) =
      Plm l m (Real.cos t) (Real.sin t) := by
  have e : ∫ t in (0 : ℝ)..Real.pi, f t ^ 2 * Real.sin t = c ^ 2 * (2 * dlt m) := by
    have := Plm_orthogonal l l m hm
    rw [if_pos rfl] at this
    rw [← this, ← intervalIntegral.integral_const_mul]
    congr 1
    funext t
    rw [h t]; ring
  have hd := dlt_pos m
  rw [e, mul_div_assoc, div_self (by positivity), mul_one, Real.sqrt_sq hc.le, h t]
  field_simp

/-! ## the loops -/

theorem fold_rows (p : ℕ) (body : (ℕ → ℝ) → ℕ → (ℕ → ℝ)) (a : ℕ → ℝ) (r0 : ℕ → ℝ) (h0 : r0 p = a 0)
    (h1 : r0 (p + 2) = a 1)
    (hb : ∀ (r : ℕ → ℝ) (i : ℕ), r (p + 2 * i) = a i → r (p + 2 * (i + 1)) = a (i + 1) →
      body r (p + 2 * (i + 1)) = set1 r (p + 2 * (i + 2)) (a (i + 2))) (n : ℕ) :
    ∀ i ≤ n + 1, (cols (p + 2) n).foldl body r0 (p + 2 * i) = a i := by
  induction n with
  | zero =>
    intro i hi
    have : i = 0 ∨ i = 1 := by omega
    rcases this with rfl | rfl
    · simpa [cols] using h0
    · simpa [cols] using h1
  | succ n ih =>
    intro i hi
    have e : cols (p + 2) (n + 1) = cols (p + 2) n ++ [p + 2 * (n + 1)] := by
      unfold cols
      rw [List.range_succ, List.map_append]
      simp only [List.map_cons, List.map_nil]
      rw [show p + 2 + 2 * n = p + 2 * (n + 1) by ring]
    rw [e, List.foldl_append, List.foldl_cons, List.foldl_nil, hb _ n (ih n (by omega)) (ih (n + 1) (by omega))]
    unfold set1
    by_cases hi2 : i = n + 2
    · rw [if_pos (by omega), hi2]
    · rw [if_neg (by omega)]
      exact ih i (by omega)

theorem fold_parity (q : ℕ) (body : (ℕ → ℝ) → ℕ → (ℕ → ℝ))
    (hb : ∀ (r : ℕ → ℝ) (j : ℕ), ∃ v, body r j = set1 r (j + 2) v) (p N : ℕ) (hp : p % 2 ≠ q % 2)
    (r0 : ℕ → ℝ) (c : ℕ) (hc : c % 2 = q % 2) : (cols p N).foldl body r0 c = r0 c := by
  induction N with
  | zero => rfl
  | succ n ih =>
    have e : cols p (n + 1) = cols p n ++ [p + 2 * n] := by
      unfold cols; rw [List.range_succ, List.map_append]; rfl
    rw [e, List.foldl_append, List.foldl_cons, List.foldl_nil]
    obtain ⟨v, hv⟩ := hb ((cols p n).foldl body r0) (p + 2 * n)
    rw [hv]
    unfold set1
    rw [if_neg (by omega), ih]

/-- columns below the first write are kept -/
theorem fold_low (body : (ℕ → ℝ) → ℕ → (ℕ → ℝ))
    (hb : ∀ (r : ℕ → ℝ) (j : ℕ), ∃ v, body r j = set1 r (j + 2) v) (p N : ℕ)
    (r0 : ℕ → ℝ) (c : ℕ) (hc : c < p + 2) : (cols p N).foldl body r0 c = r0 c := by
  induction N with
  | zero => rfl
  | succ n ih =>
    have e : cols p (n + 1) = cols p n ++ [p + 2 * n] := by
      unfold cols; rw [List.range_succ, List.map_append]; rfl
    rw [e, List.foldl_append, List.foldl_cons, List.foldl_nil]
    obtain ⟨v, hv⟩ := hb ((cols p n).foldl body r0) (p + 2 * n)
    rw [hv]
    unfold set1
    rw [if_neg (by omega), ih]

/-! ## the four kinds of row -/

theorem row0e_val (L n : ℕ) (hL : 2 ≤ L) : ∀ i ≤ L,
    row0e (2 * L) (2 * n) (0 + 2 * i) = (if i = 0 then Te n 0 / 2 else Te n i) / Te n 0 := by
  have hT0 : Te n 0 ≠ 0 := (Te_pos n 0 (Nat.zero_le _)).ne'
  have hf := fold_rows 0 (rec0 (2 * n)) (fun i => Te n i / Te n 0)
    (set1 (set1 (fun _ => 0) 0 1) 2 (((2 * n : ℕ) : ℝ) * ((2 * n : ℕ) + 1) * 1 / (((2 * n : ℕ) : ℝ) * ((2 * n : ℕ) + 1) - 2)))
    (by simp [set1, hT0]) (by
      simp only [set1]
      have h := Te_rec n 0
      have h1 := odd_ne n 0
      push_cast at h h1 ⊢
      have h2 : (2 * (n:ℝ) * (2 * n + 1) - 2) ≠ 0 := by
        rw [show (2 * (n:ℝ) * (2 * n + 1) - 2) = (2 * n - 2 * 0 - 1) * (2 * n + 2) by ring]
        exact mul_ne_zero h1 (by positivity)
      rw [div_eq_div_iff h2 hT0]
      linear_combination -h) (by
      intro r i h0 h1
      unfold rec0
      congr 1
      rw [show 0 + 2 * (i + 1) - 2 = 0 + 2 * i by omega, h0, h1]
      have r0 := Te_rec n i
      have r1 := Te_rec n (i + 1)
      have n1 := odd_ne n (i + 1)
      push_cast at r0 r1 n1 ⊢
      have h2 : (2 * (n:ℝ) * (2 * n + 1) - (0 + 2 * ((i:ℝ) + 1) + 2) * (0 + 2 * (i + 1) + 1)) ≠ 0 := by
        rw [show (2 * (n:ℝ) * (2 * n + 1) - (0 + 2 * ((i:ℝ) + 1) + 2) * (0 + 2 * (i + 1) + 1)) =
          (2 * n - 2 * ((i:ℝ) + 1) - 1) * (2 * n + 2 * (i + 1) + 2) by ring]
        exact mul_ne_zero n1 (by positivity)
      rw [div_eq_iff h2]
      field_simp
      linear_combination -r1 + r0) (L - 1)
  intro i hi
  unfold row0e
  rw [arange2_cols 2 (2 * L) (L - 1) (by omega)]
  have e0 : (set1 (fun _ => 0) 0 1 : ℕ → ℝ) 0 = 1 := by simp [set1]
  rw [e0]
  unfold set1 at hf ⊢
  by_cases h : i = 0
  · subst h
    rw [if_pos rfl, if_pos rfl]
    have := hf 0 (by omega)
    simp only [Nat.zero_add, Nat.mul_zero] at this
    rw [this]; ring
  · rw [if_neg h, if_neg (by omega)]
    exact hf i (by omega)

theorem rec0_set (l : ℕ) (r : ℕ → ℝ) (j : ℕ) : ∃ v, rec0 l r j = set1 r (j + 2) v := ⟨_, rfl⟩
theorem rec1_set (l : ℕ) (r : ℕ → ℝ) (j : ℕ) : ∃ v, rec1 l r j = set1 r (j + 2) v := ⟨_, rfl⟩

theorem row0e_odd (L l c : ℕ) (hL : 2 ≤ L) (hc : c % 2 = 1) : row0e (2 * L) l c = 0 := by
  unfold row0e
  rw [arange2_cols 2 (2 * L) (L - 1) (by omega)]
  rw [set1, if_neg (by omega), fold_parity 1 _ (rec0_set l) 2 (L - 1) (by omega) _ c (by omega), set1,
    if_neg (by omega), set1, if_neg (by omega)]

theorem row0o_val (L n : ℕ) (hL : 2 ≤ L) : ∀ i < L,
    row0o (2 * L) (2 * n + 1) (1 + 2 * i) = To n i / To n 0 := by
  have hT0 : To n 0 ≠ 0 := (To_pos n 0 (Nat.zero_le _)).ne'
  have hf := fold_rows 1 (rec0 (2 * n + 1)) (fun i => To n i / To n 0)
    (set1 (set1 (fun _ => 0) 1 1) 3 ((2 - ((2 * n + 1 : ℕ) : ℝ) * ((2 * n + 1 : ℕ) + 1)) * 1 / (6 - ((2 * n + 1 : ℕ) : ℝ) * ((2 * n + 1 : ℕ) + 1))))
    (by simp [set1, hT0]) (by
      simp only [set1]
      have h := To_rec n 0
      have h1 := odd_ne n 0
      push_cast at h h1 ⊢
      have h2 : (6 - (2 * (n:ℝ) + 1) * (2 * n + 1 + 1)) ≠ 0 := by
        rw [show (6 - (2 * (n:ℝ) + 1) * (2 * n + 1 + 1)) = -((2 * n - 2 * 0 - 1) * (2 * n + 4)) by ring]
        exact neg_ne_zero.2 (mul_ne_zero h1 (by positivity))
      rw [div_eq_div_iff h2 hT0]
      linear_combination h) (by
      intro r i h0 h1
      unfold rec0
      congr 1
      rw [show 1 + 2 * (i + 1) - 2 = 1 + 2 * i by omega, h0, h1]
      have r0 := To_rec n i
      have r1 := To_rec n (i + 1)
      have n1 := odd_ne n (i + 1)
      push_cast at r0 r1 n1 ⊢
      have h2 : ((2 * (n:ℝ) + 1) * (2 * n + 1 + 1) - (1 + 2 * ((i:ℝ) + 1) + 2) * (1 + 2 * (i + 1) + 1)) ≠ 0 := by
        rw [show ((2 * (n:ℝ) + 1) * (2 * n + 1 + 1) - (1 + 2 * ((i:ℝ) + 1) + 2) * (1 + 2 * (i + 1) + 1)) =
          (2 * n - 2 * ((i:ℝ) + 1) - 1) * (2 * n + 2 * (i + 1) + 4) by ring]
        exact mul_ne_zero n1 (by positivity)
      rw [div_eq_iff h2]
      field_simp
      linear_combination -r1 + r0) (L - 2)
  intro i hi
  unfold row0o
  rw [arange2_cols 3 (2 * L - 1) (L - 2) (by omega)]
  have e0 : (set1 (fun _ => 0) 1 1 : ℕ → ℝ) 1 = 1 := by simp [set1]
  rw [e0]
  exact hf i (by omega)

theorem row0o_even (L l c : ℕ) (hL : 2 ≤ L) (hc : c % 2 = 0) : row0o (2 * L) l c = 0 := by
  unfold row0o
  rw [arange2_cols 3 (2 * L - 1) (L - 2) (by omega)]
  rw [fold_parity 0 _ (rec0_set l) 3 (L - 2) (by omega) _ c (by omega), set1,
    if_neg (by omega), set1, if_neg (by omega)]

theorem row1e_val (L n : ℕ) (hL : 2 ≤ L) (hn : 1 ≤ n) : ∀ i ≤ L,
    row1e (2 * L) (2 * n) (0 + 2 * i) = i * Te n i / Te n 1 := by
  have hT0 : Te n 1 ≠ 0 := (Te_pos n 1 hn).ne'
  have hf := fold_rows 0 (rec1 (2 * n)) (fun i => i * Te n i / Te n 1)
    (set1 (set1 (fun _ => 0) 0 0) 2 1) (by simp [set1]) (by simp [set1, hT0]) (by
      intro r i h0 h1
      unfold rec1
      congr 1
      rw [show 0 + 2 * (i + 1) - 2 = 0 + 2 * i by omega, h0, h1]
      have r0 := Te_rec n i
      have r1 := Te_rec n (i + 1)
      have n1 := odd_ne n (i + 1)
      push_cast at r0 r1 n1 ⊢
      have h2 : (2 * (n:ℝ) * (2 * n + 1) - (0 + 2 * ((i:ℝ) + 1) + 2) * (0 + 2 * (i + 1) + 1)) ≠ 0 := by
        rw [show (2 * (n:ℝ) * (2 * n + 1) - (0 + 2 * ((i:ℝ) + 1) + 2) * (0 + 2 * (i + 1) + 1)) =
          (2 * n - 2 * ((i:ℝ) + 1) - 1) * (2 * n + 2 * (i + 1) + 2) by ring]
        exact mul_ne_zero n1 (by positivity)
      rw [div_eq_iff h2]
      field_simp
      linear_combination -(i + 2 : ℝ) * r1 + (i : ℝ) * r0) (L - 1)
  intro i hi
  unfold row1e
  rw [arange2_cols 2 (2 * L) (L - 1) (by omega)]
  exact hf i (by omega)

theorem row1e_odd (L l c : ℕ) (hL : 2 ≤ L) (hc : c % 2 = 1) : row1e (2 * L) l c = 0 := by
  unfold row1e
  rw [arange2_cols 2 (2 * L) (L - 1) (by omega)]
  rw [fold_parity 1 _ (rec1_set l) 2 (L - 1) (by omega) _ c (by omega), set1,
    if_neg (by omega), set1, if_neg (by omega)]

theorem row1o_val (L n : ℕ) (hL : 2 ≤ L) : ∀ i < L,
    row1o (2 * L) (2 * n + 1) (1 + 2 * i) = (2 * i + 1) * To n i / To n 0 := by
  have hT0 : To n 0 ≠ 0 := (To_pos n 0 (Nat.zero_le _)).ne'
  have hf := fold_rows 1 (rec1 (2 * n + 1)) (fun i => (2 * i + 1) * To n i / To n 0)
    (set1 (set1 (fun _ => 0) 1 1) 3 (3 * (((2 * n + 1 : ℕ) : ℝ) * ((2 * n + 1 : ℕ) + 1) - 2) * 1 / (((2 * n + 1 : ℕ) : ℝ) * ((2 * n + 1 : ℕ) + 1) - 6)))
    (by simp [set1, hT0]) (by
      simp only [set1]
      have h := To_rec n 0
      have h1 := odd_ne n 0
      push_cast at h h1 ⊢
      have h2 : ((2 * (n:ℝ) + 1) * (2 * n + 1 + 1) - 6) ≠ 0 := by
        rw [show ((2 * (n:ℝ) + 1) * (2 * n + 1 + 1) - 6) = ((2 * n - 2 * 0 - 1) * (2 * n + 4)) by ring]
        exact mul_ne_zero h1 (by positivity)
      rw [div_eq_div_iff h2 hT0]
      linear_combination -3 * h) (by
      intro r i h0 h1
      unfold rec1
      congr 1
      rw [show 1 + 2 * (i + 1) - 2 = 1 + 2 * i by omega, h0, h1]
      have r0 := To_rec n i
      have r1 := To_rec n (i + 1)
      have n1 := odd_ne n (i + 1)
      push_cast at r0 r1 n1 ⊢
      have h2 : ((2 * (n:ℝ) + 1) * (2 * n + 1 + 1) - (1 + 2 * ((i:ℝ) + 1) + 2) * (1 + 2 * (i + 1) + 1)) ≠ 0 := by
        rw [show ((2 * (n:ℝ) + 1) * (2 * n + 1 + 1) - (1 + 2 * ((i:ℝ) + 1) + 2) * (1 + 2 * (i + 1) + 1)) =
          (2 * n - 2 * ((i:ℝ) + 1) - 1) * (2 * n + 2 * (i + 1) + 4) by ring]
        exact mul_ne_zero n1 (by positivity)
      rw [div_eq_iff h2]
      field_simp
      linear_combination -(2 * i + 5 : ℝ) * r1 + (2 * i + 1 : ℝ) * r0) (L - 2)
  intro i hi
  unfold row1o
  rw [arange2_cols 3 (2 * L - 1) (L - 2) (by omega)]
  have e0 : (set1 (fun _ => 0) 1 1 : ℕ → ℝ) 1 = 1 := by simp [set1]
  rw [e0]
  exact hf i (by omega)

theorem row1o_even (L l c : ℕ) (hL : 2 ≤ L) (hc : c % 2 = 0) : row1o (2 * L) l c = 0 := by
  unfold row1o
  rw [arange2_cols 3 (2 * L - 1) (L - 2) (by omega)]
  rw [fold_parity 0 _ (rec1_set l) 3 (L - 2) (by omega) _ c (by omega), set1,
    if_neg (by omega), set1, if_neg (by omega)]

end Verif.Fourier
