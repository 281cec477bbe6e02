import Verif.MasconFit.Spec
import Mathlib.Tactic.Linarith
import Mathlib.Tactic.Ring
import Mathlib.Algebra.BigOperators.Intervals

/-!
# The positions of the column arrays: their number, their sums (helper lemmas for C75)
-/
namespace Verif.MasconFit
open Verif.Units Verif.Analysis Finset

theorem mem_positions (LMIN LMAX MMAX : ℕ) (p : Pos) : p ∈ positions LMIN LMAX MMAX ↔ InRange LMIN LMAX MMAX p := by
  obtain ⟨cs, l, m⟩ := p
  unfold positions orders InRange
  simp only [List.flatMap_cons, List.flatMap_nil, List.append_nil, List.mem_append, List.mem_flatMap, List.mem_range'_1,
    List.mem_map, Prod.mk.injEq, Bool.toNat_false, Bool.toNat_true]
  cases cs
  · constructor
    · rintro (⟨l', h1, m', h2, _, rfl, rfl⟩ | ⟨l', h1, m', h2, h, _⟩)
      · refine ⟨by omega, by omega, by omega, by omega, by simp⟩
      · simp at h
    · rintro ⟨h1, h2, h3, h4, _⟩
      exact Or.inl ⟨l, by omega, m, by omega, rfl, rfl, rfl⟩
  · constructor
    · rintro (⟨l', h1, m', h2, h, _⟩ | ⟨l', h1, m', h2, _, rfl, rfl⟩)
      · simp at h
      · refine ⟨by omega, by omega, by omega, by omega, fun _ => by omega⟩
    · rintro ⟨h1, h2, h3, h4, h5⟩
      have := h5 rfl
      exact Or.inr ⟨l, by omega, m, by omega, rfl, rfl, rfl⟩

theorem sum_flatMap' {A B : Type} (l : List A) (f : A → List B) (h : B → ℝ) :
    ((l.flatMap f).map h).sum = (l.map fun x => ((f x).map h).sum).sum := by
  induction l with
  | nil => rfl
  | cons x xs ih => simp [List.flatMap_cons, ih]

theorem sum_range' (s n : ℕ) (g : ℕ → ℝ) : ((List.range' s n).map g).sum = ∑ i ∈ Ico s (s + n), g i := by
  induction n with
  | zero => simp
  | succ n ih => rw [List.range'_concat, List.map_append, List.sum_append, ih, ← add_assoc, sum_Ico_succ_top (by omega)]; simp

theorem positions_sum (LMIN LMAX MMAX : ℕ) (f : Pos → ℝ) :
    ((positions LMIN LMAX MMAX).map f).sum = coefSum LMIN LMAX MMAX f := by
  unfold positions orders coefSum
  simp only [List.flatMap_cons, List.flatMap_nil, List.append_nil, List.map_append, List.sum_append, sum_flatMap',
    List.map_map, Bool.toNat_false, Bool.toNat_true, sum_range', sum_add_distrib]
  have e : Ico LMIN (LMIN + (LMAX + 1 - LMIN)) = Icc LMIN LMAX := by
    ext x; simp only [mem_Ico, mem_Icc]; omega
  rw [e]
  congr 1
  · apply sum_congr rfl; intro l _
    rw [range_eq_Ico]
    apply sum_congr
    · ext x; simp only [mem_Ico]; omega
    · intro m _; rfl
  · apply sum_congr rfl; intro l _
    apply sum_congr
    · ext x; simp only [mem_Ico, mem_Icc]; omega
    · intro m _; rfl

theorem list_sum_range (l : List Pos) (f : Pos → ℝ) : (l.map f).sum = ∑ i ∈ range l.length, (l[i]?.map f).getD 0 := by
  induction l with
  | nil => rfl
  | cons x xs ih => rw [List.length_cons, sum_range_succ', List.map_cons, List.sum_cons, ih, add_comm]; rfl

/-- partial sums of the number of coefficients per degree -/
def cnt (M n : ℕ) : ℕ := ∑ l ∈ range n, (2 * min M l + 1)

theorem cnt_low (M n : ℕ) (h : n ≤ M + 1) : cnt M n = n ^ 2 := by
  induction n with
  | zero => rfl
  | succ n ih =>
    have := ih (by omega)
    unfold cnt at *
    rw [sum_range_succ, this, min_eq_right (by omega)]; ring

theorem cnt_high (M d : ℕ) : cnt M (M + 1 + d) = (M + 1) ^ 2 + d * (2 * M + 1) := by
  induction d with
  | zero => rw [cnt_low _ _ (by omega)]; ring
  | succ d ih =>
    unfold cnt at *
    rw [← add_assoc, sum_range_succ, ih, min_eq_left (by omega)]; ring

theorem cnt_le (M n : ℕ) : cnt M n ≤ n ^ 2 := by
  induction n with
  | zero => exact le_refl _
  | succ n ih =>
    unfold cnt at *
    rw [sum_range_succ]
    have : min M n ≤ n := min_le_right _ _
    nlinarith

theorem cnt_lt (M n : ℕ) (h : M + 1 < n) : cnt M n < n ^ 2 := by
  obtain ⟨d, rfl⟩ : ∃ d, n = M + 1 + (d + 1) := ⟨n - (M + 2), by omega⟩
  rw [cnt_high]
  nlinarith

theorem length_flatMap_range' (s n : ℕ) (f : ℕ → List Pos) :
    ((List.range' s n).flatMap f).length = ∑ i ∈ Ico s (s + n), (f i).length := by
  induction n with
  | zero => simp
  | succ n ih =>
    rw [List.range'_concat, List.flatMap_append, List.length_append, ih, ← add_assoc, sum_Ico_succ_top (by omega)]; simp

theorem positions_length (LMIN LMAX MMAX : ℕ) (h : LMIN ≤ LMAX + 1) :
    (positions LMIN LMAX MMAX).length + cnt MMAX LMIN = cnt MMAX (LMAX + 1) := by
  unfold positions orders
  simp only [List.flatMap_cons, List.flatMap_nil, List.append_nil, List.length_append, length_flatMap_range',
    List.length_map, List.length_range', Bool.toNat_false, Bool.toNat_true]
  rw [← sum_add_distrib, show LMIN + (LMAX + 1 - LMIN) = LMAX + 1 by omega]
  unfold cnt
  rw [add_comm, range_eq_Ico, range_eq_Ico, ← sum_Ico_consecutive _ (Nat.zero_le LMIN) h]
  congr 1
  apply sum_congr rfl; intro l _
  omega

theorem positions_empty (LMIN LMAX MMAX : ℕ) (h : LMAX < LMIN) : positions LMIN LMAX MMAX = [] := by
  unfold positions
  rw [show LMAX + 1 - LMIN = 0 by omega]; rfl

/-- the arrays are never larger than the number of coefficients -/
theorem nHarm_le (LMIN LMAX MMAX : ℕ) : nHarm LMIN LMAX MMAX ≤ (positions LMIN LMAX MMAX).length := by
  have hT : nHarm LMIN LMAX MMAX ≤ (cnt MMAX (LMAX + 1) : ℤ) - (LMIN : ℤ) ^ 2 := by
    unfold nHarm
    rcases le_or_gt MMAX LMAX with h | h
    · obtain ⟨d, rfl⟩ : ∃ d, LMAX = MMAX + d := ⟨LMAX - MMAX, by omega⟩
      rw [show MMAX + d + 1 = MMAX + 1 + d by omega, cnt_high]
      push_cast; ring_nf; exact le_refl _
    · obtain ⟨d, rfl⟩ : ∃ d, MMAX = LMAX + 1 + d := ⟨MMAX - LMAX - 1, by omega⟩
      rw [cnt_low _ _ (by omega)]
      push_cast; nlinarith
  rcases le_or_gt LMIN (LMAX + 1) with h | h
  · have h1 := positions_length LMIN LMAX MMAX h
    have h2 := cnt_le MMAX LMIN
    have h1' : ((positions LMIN LMAX MMAX).length : ℤ) + cnt MMAX LMIN = cnt MMAX (LMAX + 1) := by exact_mod_cast h1
    have h2' : (cnt MMAX LMIN : ℤ) ≤ (LMIN : ℤ) ^ 2 := by exact_mod_cast h2
    linarith
  · have h2 : ((cnt MMAX (LMAX + 1) : ℕ) : ℤ) ≤ ((LMAX : ℤ) + 1) ^ 2 := by exact_mod_cast cnt_le MMAX (LMAX + 1)
    have h3 : ((LMAX : ℤ) + 1) ≤ LMIN := by exact_mod_cast h.le
    rw [positions_empty _ _ _ (by omega)]
    simp only [List.length_nil, Nat.cast_zero]
    nlinarith

/-- exactly enough room, if and only if there is a coefficient of order `LMIN` or `LMIN` is the next one -/
theorem nHarm_eq_iff (LMIN LMAX MMAX : ℕ) (h : LMIN ≤ LMAX + 1) (hM : MMAX ≤ LMAX) :
    nHarm LMIN LMAX MMAX = (positions LMIN LMAX MMAX).length ↔ LMIN ≤ MMAX + 1 := by
  obtain ⟨d, rfl⟩ : ∃ d, LMAX = MMAX + d := ⟨LMAX - MMAX, by omega⟩
  have h1 := positions_length LMIN (MMAX + d) MMAX h
  rw [show MMAX + d + 1 = MMAX + 1 + d by omega, cnt_high] at h1
  have h1' : ((positions LMIN (MMAX + d) MMAX).length : ℤ) + cnt MMAX LMIN = (MMAX + 1) ^ 2 + d * (2 * MMAX + 1) := by
    exact_mod_cast h1
  have hT : nHarm LMIN (MMAX + d : ℕ) MMAX = (MMAX + 1) ^ 2 + d * (2 * MMAX + 1) - (LMIN : ℤ) ^ 2 := by
    unfold nHarm; push_cast; ring
  rw [hT]
  constructor
  · intro e
    by_contra hc
    have := cnt_lt MMAX LMIN (by omega)
    have : (cnt MMAX LMIN : ℤ) < (LMIN : ℤ) ^ 2 := by exact_mod_cast this
    linarith
  · intro e
    have := cnt_low MMAX LMIN e
    have : (cnt MMAX LMIN : ℤ) = (LMIN : ℤ) ^ 2 := by exact_mod_cast this
    linarith

theorem positions_nodup (LMIN LMAX MMAX : ℕ) : (positions LMIN LMAX MMAX).Nodup := by
  unfold positions orders
  rw [List.nodup_flatMap]
  constructor
  · intro cs _
    rw [List.nodup_flatMap]
    constructor
    · intro l _
      exact (List.nodup_range').map fun x y h => by simpa using h
    · refine List.Pairwise.imp_of_mem ?_ (List.nodup_range' (s := LMIN) (n := LMAX + 1 - LMIN) (step := 1))
      intro x y _ _ hxy
      simp only [Function.onFun, List.Disjoint, List.mem_map]
      rintro p ⟨m, _, rfl⟩ ⟨m', _, h⟩
      simp at h; exact hxy h.1.symm
  · simp only [List.pairwise_cons, List.mem_singleton, forall_eq, List.not_mem_nil, false_implies, implies_true,
      List.Pairwise.nil, and_true]
    simp only [Function.onFun, List.Disjoint, List.mem_flatMap, List.mem_map]
    rintro p ⟨l, _, m, _, rfl⟩ ⟨l', _, m', _, h⟩
    simp at h

end Verif.MasconFit
