import Verif.Legendre.Holmes

/-!
# Lemmas: `plm_mohlenkamp` computes the specified functions
-/
namespace Verif.Legendre
open Nat

/-- normalisation of a column of the Jacobi polynomials -/
noncomputable def jc (m : ℕ) : ℝ := if m = 0 then Real.sqrt 2 else 2

theorem jc_ne (m : ℕ) : jc m ≠ 0 := by
  unfold jc; split
  · positivity
  · norm_num

theorem mcoef1 (m k : ℕ) (hk : 1 ≤ k) :
    2 * (Real.sqrt (1 + ((m : ℝ) - 0.5) / k) * Real.sqrt (1 - ((m : ℝ) - 0.5) / (k + 2 * m))) = alm (m + k) m := by
  have hk' : (1 : ℝ) ≤ k := by exact_mod_cast hk
  have hm := (m.cast_nonneg : (0:ℝ) ≤ m)
  have e1 : 1 + ((m : ℝ) - 0.5) / k = (k + m - 0.5) / k := by field_simp; ring
  have e2 : 1 - ((m : ℝ) - 0.5) / (k + 2 * m) = (k + m + 0.5) / (k + 2 * m) := by
    have : (k + 2 * m : ℝ) ≠ 0 := by positivity
    field_simp; ring
  rw [e1, e2, ← Real.sqrt_mul (div_nonneg (by norm_num; linarith) (by linarith))]
  have e3 : (2 : ℝ) = Real.sqrt (2 ^ 2) := by rw [Real.sqrt_sq]; norm_num
  nth_rewrite 1 [e3]
  rw [← Real.sqrt_mul (by norm_num)]
  unfold alm
  congr 1
  push_cast
  rw [show (m + k - m : ℝ) = k by ring]
  have : (k + 2 * m : ℝ) ≠ 0 := by positivity
  have h2 : (m + k + m : ℝ) ≠ 0 := by positivity
  field_simp
  ring

theorem mcoef2 (m k : ℕ) (hk : 2 ≤ k) :
    Real.sqrt (1 + 4 / (2 * (k : ℝ) + 2 * m - 3)) * Real.sqrt (1 - 1 / (k : ℝ)) *
      Real.sqrt (1 - 1 / ((k : ℝ) + 2 * m)) = blm (m + k) m := by
  have hk' : (2 : ℝ) ≤ k := by exact_mod_cast hk
  have hm := (m.cast_nonneg : (0:ℝ) ≤ m)
  have h0 : (0 : ℝ) < 2 * (k : ℝ) + 2 * m - 3 := by linarith
  have h1 : (0 : ℝ) < (k : ℝ) + 2 * m := by linarith
  have h3 : (0 : ℝ) ≤ 1 - 1 / (k : ℝ) := by
    rw [sub_nonneg, div_le_one (by linarith)]; linarith
  rw [← Real.sqrt_mul (by positivity), ← Real.sqrt_mul (by positivity)]
  unfold blm
  congr 1
  push_cast
  rw [show (m + k - m : ℝ) = k by ring, show (m + k + m : ℝ) = k + 2 * m by ring]
  rw [show (2 * (m + k) - 3 : ℝ) = 2 * (k : ℝ) + 2 * m - 3 by ring]
  obtain ⟨w, hw⟩ : ∃ w : ℝ, w = 2 * (k : ℝ) + 2 * m - 3 := ⟨_, rfl⟩
  have hm' : (m : ℝ) = (w - 2 * k + 3) / 2 := by rw [hw]; ring
  rw [← hw] at h0 ⊢
  have h4 := h0.ne'
  have h5 := h1.ne'
  have h6 : (k : ℝ) ≠ 0 := by positivity
  obtain ⟨v, hv⟩ : ∃ v : ℝ, v = (k : ℝ) + 2 * m := ⟨_, rfl⟩
  have hkv : (k : ℝ) = w + 3 - v := by rw [hw, hv]; ring
  have e1 : 1 + 4 / w = (w + 4) / w := by field_simp
  have e2 : 1 - 1 / (k : ℝ) = (k - 1) / k := by field_simp
  have e3 : 1 - 1 / v = (v - 1) / v := by rw [← hv] at h5; field_simp
  rw [← hv] at h5 ⊢
  rw [e1, e2, e3, _root_.div_mul_div_comm, _root_.div_mul_div_comm, show w * k * v = k * v * w by ring]
  congr 1
  rw [hw]
  ring

theorem j0_eq (m : ℕ) (x : ℝ) :
    (if 0 < m then
      ((List.range m).map fun i : ℕ => Real.sqrt (1 + 1 / (2 * ((i : ℝ) + 1)))).prod / Real.sqrt 2
    else 1 / Real.sqrt 2) = Plm m m x 1 / jc m := by
  have h : ∀ n, ((List.range (n + 1)).map fun i : ℕ => Real.sqrt (1 + 1 / (2 * ((i : ℝ) + 1)))).prod =
      Plm (n + 1) (n + 1) x 1 / Real.sqrt 2 := by
    intro n
    induction n with
    | zero =>
      rw [Plm_one_one]
      simp only [Nat.zero_add, List.range_one, List.map_cons, List.map_nil, List.prod_cons, List.prod_nil]
      rw [mul_one, mul_one, ← Real.sqrt_div (by norm_num)]
      norm_num
    | succ n ih =>
      rw [List.range_succ, List.map_append, List.prod_append, ih, Plm_sectoral (n + 1) (by omega)]
      simp only [List.map_cons, List.map_nil, List.prod_cons, List.prod_nil, mul_one, one_mul]
      have : (1 : ℝ) + 1 / (2 * (((n + 1 : ℕ) : ℝ) + 1)) = (2 * ((n + 1 + 1 : ℕ) : ℝ) + 1) / (2 * ((n + 1 + 1 : ℕ) : ℝ)) := by
        push_cast
        have : (n + 1 + 1 : ℝ) ≠ 0 := by positivity
        field_simp
      rw [this]; ring
  have h2 : Real.sqrt 2 ≠ 0 := by positivity
  cases m with
  | zero => simp [jc, Plm_zero_zero]
  | succ n =>
    rw [if_pos (by omega), h n, jc, if_neg (by omega), div_div, Real.mul_self_sqrt (by norm_num)]

theorem mColumn_good (x : ℝ) (LMAX m k : ℕ) (hk : k ≤ LMAX) :
    mColumn x LMAX m k = Plm (m + k) m x 1 / jc m := by
  unfold mColumn
  have h : ∀ n, ∀ k ≤ n, (List.range' 1 n).foldl (mStep x m) (set1 (fun _ => 0) 0
      (if 0 < m then
      ((List.range m).map fun i : ℕ => Real.sqrt (1 + 1 / (2 * ((i : ℝ) + 1)))).prod / Real.sqrt 2
    else 1 / Real.sqrt 2)) k = Plm (m + k) m x 1 / jc m := by
    intro n
    induction n with
    | zero =>
      intro k hk
      obtain rfl : k = 0 := by omega
      simp only [List.range'_zero, List.foldl_nil, set1, if_true]
      exact j0_eq m x
    | succ n ih =>
      intro k hk
      rw [List.range'_concat, List.foldl_append, Nat.one_mul, Nat.add_comm 1 n]
      set t := (List.range' 1 n).foldl (mStep x m) _
      simp only [List.foldl_cons, List.foldl_nil, mStep]
      have hc := mcoef1 m (n + 1) (by omega)
      by_cases c : k = n + 1
      · subst c
        by_cases c1 : n + 1 = 1
        · obtain rfl : n = 0 := by omega
          rw [if_pos c1]
          simp only [set1, if_true]
          rw [ih _ (by omega)]
          have hr := Plm_sub m x 1
          have ha : alm (m + (0 + 1)) m = Real.sqrt (2 * m + 3) := by
            unfold alm
            congr 1
            rw [Nat.zero_add]
            push_cast
            have h1 : (m + 1 + m : ℝ) ≠ 0 := by positivity
            have h2 : (m + 1 - m : ℝ) = 1 := by ring
            rw [h2]
            field_simp
            ring
          rw [ha] at hc
          simp only [Nat.zero_add, Nat.sub_self, Nat.add_zero] at *
          rw [hr, ← hc]
          ring
        · rw [if_neg c1]
          simp only [set1, if_true]
          have hr := colRec x 1 (m + (n + 1)) m (by omega) (by omega)
          have hd := mcoef2 m (n + 1) (by omega)
          rw [ih _ (by omega), ih _ (by omega), ← hr, ← hc, ← hd]
          rw [show m + (n + 1) - 1 = m + (n + 1 - 1) by omega, show m + (n + 1) - 2 = m + (n + 1 - 2) by omega]
          ring
      · by_cases c1 : n + 1 = 1
        · rw [if_pos c1]; simp only [set1, if_neg c]; exact ih k (by omega)
        · rw [if_neg c1]; simp only [set1, if_neg c]; exact ih k (by omega)
  exact h LMAX k hk

/-- `plm_mohlenkamp` in closed form -/
theorem mohlenkamp_closed (eps : ℝ) (LMAX MMAX : ℕ) (x : ℝ) (l m : ℕ) :
    ((mohlenkamp eps LMAX MMAX x).p l m =
      if m ≤ MMAX ∧ l ≤ LMAX then Plm l m x (codeU eps x) else 0) ∧
    ((mohlenkamp eps LMAX MMAX x).d l m =
      if m ≤ MMAX ∧ l ≤ LMAX then Dlm x (codeU eps x) l m else 0) := by
  have hp : ∀ l, (mohlenkamp eps LMAX MMAX x).p l m =
      if m ≤ MMAX ∧ l ≤ LMAX then Plm l m x (codeU eps x) else 0 := by
    intro l
    unfold mohlenkamp
    dsimp only
    by_cases c : m ≤ MMAX ∧ m ≤ l ∧ l ≤ LMAX
    · have hj := mColumn_good x LMAX m (l - m) (by omega)
      rw [Nat.add_sub_cancel' c.2.1] at hj
      have hne := jc_ne m
      rw [if_pos c, if_pos (⟨c.1, c.2.2⟩ : m ≤ MMAX ∧ l ≤ LMAX), hj, Plm_pow l m x (codeU eps x)]
      by_cases d : m = 0
      · rw [if_pos d]
        unfold jc at *
        rw [if_pos d] at *
        subst d
        field_simp
      · rw [if_neg d]
        unfold jc at *
        rw [if_neg d] at *
        ring
    · rw [if_neg c]
      by_cases d : m ≤ MMAX ∧ l ≤ LMAX
      · rw [if_pos d, Plm_zero_of_lt _ _ (by omega)]
      · rw [if_neg d]
  refine ⟨hp l, ?_⟩
  have e : (mohlenkamp eps LMAX MMAX x).d l m = if m ≤ MMAX ∧ m ≤ l ∧ l ≤ LMAX then
        if l = m then m * (x / codeU eps x) * (mohlenkamp eps LMAX MMAX x).p l m
        else 1 / codeU eps x * (l * x * (mohlenkamp eps LMAX MMAX x).p l m -
          flm l m * (mohlenkamp eps LMAX MMAX x).p (l - 1) m)
      else 0 := rfl
  rw [e, hp l, hp (l - 1)]
  unfold Dlm
  by_cases c : m ≤ MMAX ∧ l ≤ LMAX
  · rw [if_pos c, if_pos (⟨c.1, by omega⟩ : m ≤ MMAX ∧ l - 1 ≤ LMAX), if_pos c]
    by_cases d : l < m
    · rw [if_pos d, if_neg (by omega)]
    · rw [if_neg d, if_pos ⟨c.1, by omega, c.2⟩]
  · rw [if_neg c, if_neg (by omega), if_neg c]

end Verif.Legendre
