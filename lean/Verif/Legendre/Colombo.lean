import Verif.Legendre.Model
import Verif.Legendre.Spec

/-!
# Lemmas: `plm_colombo` computes the specified functions
-/
namespace Verif.Legendre
open Nat

/-- the value the routines store as derivative, in terms of the functions -/
noncomputable def Dlm (x u : ℝ) (l m : ℕ) : ℝ :=
  if l < m then 0
  else if l = m then m * (x / u) * Plm l m x u
  else 1 / u * (l * x * Plm l m x u - flm l m * Plm (l - 1) m x u)

theorem colRec (x u : ℝ) (l m : ℕ) (hl : 2 ≤ l) (hm : m < l) :
    alm l m * x * Plm (l - 1) m x u - blm l m * Plm (l - 2) m x u = Plm l m x u := by
  by_cases h : m + 2 ≤ l
  · obtain ⟨j, rfl⟩ : ∃ j, l = m + j + 2 := ⟨l - m - 2, by omega⟩
    rw [Plm_rec, show m + j + 2 - 1 = m + j + 1 from rfl, show m + j + 2 - 2 = m + j from rfl]
    rfl
  · obtain rfl : l = m + 1 := by omega
    rw [show m + 1 - 1 = m from rfl, Plm_zero_of_lt (m + 1 - 2) m (by omega), Plm_sub]
    have : alm (m + 1) m = Real.sqrt (2 * m + 3) := by
      unfold alm
      congr 1
      push_cast
      have h1 : (m + 1 + m : ℝ) ≠ 0 := by positivity
      have h2 : (m + 1 - m : ℝ) = 1 := by ring
      rw [h2]
      field_simp
      ring
    rw [this]; ring

/-- rows below `L` complete, row `L` complete up to order `M` (exclusive), zero elsewhere -/
def Good (x u : ℝ) (L M : ℕ) (s : PD) : Prop :=
  ∀ l m, (s.p l m = if l < L ∨ (l = L ∧ m < M) then Plm l m x u else 0) ∧
    (s.d l m = if l < L ∨ (l = L ∧ m < M) then Dlm x u l m else 0)

theorem colInit_good (x u : ℝ) : Good x u 2 0 (colInit x u) := by
  intro l m
  have e : (l < 2 ∨ (l = 2 ∧ m < 0)) ↔ l < 2 := by omega
  simp only [e]
  rcases l with _ | _ | l
  · rcases m with _ | m
    · simp [colInit, set2, Plm_zero_zero, Dlm]
    · simp [colInit, set2, Plm_zero_of_lt, Dlm]
  · rcases m with _ | _ | m
    · simp only [colInit, set2, Dlm, flm]
      norm_num
      simp [Plm_zero_zero, Plm_one_zero]
    · simp [colInit, set2, Plm_one_one, Dlm]
    · simp [colInit, set2, Plm_zero_of_lt, Dlm]
  · simp [colInit, set2]

theorem colInner_good (x u : ℝ) (L M : ℕ) (hL : 2 ≤ L) (hM : M < L) (s : PD) (h : Good x u L M s) :
    Good x u L (M + 1) (colInner x u L s M) := by
  have hp1 : s.p (L - 1) M = Plm (L - 1) M x u := by rw [(h _ _).1, if_pos (by omega)]
  have hp2 : s.p (L - 2) M = Plm (L - 2) M x u := by rw [(h _ _).1, if_pos (by omega)]
  have hv := colRec x u L M hL hM
  have hne : ¬ (L - 1 = L) := by omega
  intro l m
  unfold colInner
  simp only [hp1, hp2, hv]
  by_cases hlm : l = L ∧ m = M
  · obtain ⟨rfl, rfl⟩ := hlm
    simp only [set2]
    simp only [and_self, if_true, hne, false_and, if_false, hp1]
    simp only [Nat.lt_irrefl, Nat.lt_succ_self, and_self, or_true, if_true, true_and]
    rw [Dlm, if_neg (by omega), if_neg (by omega)]
  · have e : (l < L ∨ (l = L ∧ m < M + 1)) ↔ (l < L ∨ (l = L ∧ m < M)) := by omega
    simp only [set2, if_neg hlm, e]
    exact h l m

theorem colOuter_good (x u : ℝ) (L : ℕ) (hL : 2 ≤ L) (s : PD) (h : Good x u L 0 s) :
    Good x u (L + 1) 0 (colOuter x u s L) := by
  have h1 : ∀ n, n ≤ L → Good x u L n ((List.range n).foldl (colInner x u L) s) := by
    intro n
    induction n with
    | zero => intro _; exact h
    | succ n ih =>
      intro hn
      rw [List.range_succ, List.foldl_append]
      exact colInner_good x u L n hL (by omega) _ (ih (by omega))
  have h2 := h1 L le_rfl
  set t := (List.range L).foldl (colInner x u L) s with ht
  have hp : t.p (L - 1) (L - 1) = Plm (L - 1) (L - 1) x u := by
    rw [(h2 _ _).1, if_pos (by omega)]
  have hv : u * Real.sqrt ((2 * L + 1) / (2 * L)) * Plm (L - 1) (L - 1) x u = Plm L L x u := by
    obtain ⟨k, rfl⟩ : ∃ k, L = k + 1 := ⟨L - 1, by omega⟩
    rw [Plm_sectoral k (by omega)]; rfl
  intro l m
  unfold colOuter
  simp only [← ht, hp, hv]
  by_cases hlm : l = L ∧ m = L
  · obtain ⟨rfl, rfl⟩ := hlm
    simp [set2, Dlm]
  · have h3 := h2 l m
    simp only [set2, if_neg hlm]
    by_cases h4 : l < L ∨ (l = L ∧ m < L)
    · rw [if_pos h4, if_pos h4] at h3
      rw [if_pos (by omega), if_pos (by omega)]
      exact h3
    · rw [if_neg h4, if_neg h4] at h3
      by_cases h5 : l = L
      · rw [if_pos (by omega), if_pos (by omega), Plm_zero_of_lt _ _ (by omega), Dlm, if_pos (by omega)]
        exact h3
      · rw [if_neg (by omega), if_neg (by omega)]
        exact h3

/-- the two output arrays in closed form, whatever `x` -/
theorem colombo_closed (eps : ℝ) (LMAX : ℕ) (hL : 1 ≤ LMAX) (x : ℝ) :
    ∃ s, colombo eps LMAX x = some s ∧ Good x (codeU eps x) (LMAX + 1) 0 s := by
  refine ⟨_, if_neg (by omega), ?_⟩
  have h : ∀ n, Good x (codeU eps x) (n + 2) 0
      ((List.range' 2 n).foldl (colOuter x (codeU eps x)) (colInit x (codeU eps x))) := by
    intro n
    induction n with
    | zero => exact colInit_good _ _
    | succ n ih =>
      rw [List.range'_concat, List.foldl_append]
      have := colOuter_good _ _ (n + 2) (by omega) _ ih
      rw [Nat.mul_comm, Nat.mul_one, Nat.add_comm 2 n]
      exact this
  have := h (LMAX - 1)
  rwa [show LMAX - 1 + 2 = LMAX + 1 by omega] at this

end Verif.Legendre
