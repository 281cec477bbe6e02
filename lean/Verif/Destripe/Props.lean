import Verif.Destripe.Model
import Mathlib.Tactic.LinearCombination
import Mathlib.Tactic.Linarith
import Mathlib.Tactic.FieldSimp
import Mathlib.LinearAlgebra.Matrix.ToLinearEquiv
import Mathlib.Tactic.FinCases

/-!
# C39: the destriping filter
-/
namespace Verif.Destripe
open Finset

/-! ## Specification -/

/-- `q` is a quadratic with the least squared distance to the `2 n + 1` coefficients at the degrees
`K - 2 n, K - 2 n + 2, ..., K + 2 n`; the argument of `q` counts steps of two degrees from `K` -/
def IsFit (c : ℕ → ℝ) (n K : ℕ) (q : ℝ → ℝ) : Prop :=
  (∃ a b d : ℝ, ∀ t, q t = a + b * t + d * t ^ 2) ∧
  ∀ a b d : ℝ, ∑ i ∈ range (2 * n + 1), (c (K + 2 * i - 2 * n) - q ((i : ℝ) - n)) ^ 2 ≤
    ∑ i ∈ range (2 * n + 1), (c (K + 2 * i - 2 * n) - (a + b * ((i : ℝ) - n) + d * ((i : ℝ) - n) ^ 2)) ^ 2

/-! ## Normal equations -/

theorem foldl_add {M : Type*} [AddCommMonoid M] (f : ℕ → M) (N : ℕ) :
    (List.range N).foldl (fun r i => r + f i) 0 = ∑ i ∈ range N, f i := by
  induction N with
  | zero => simp
  | succ N ih => rw [List.range_succ, List.foldl_append, ih, sum_range_succ]; rfl

theorem rmat_apply (n : ℕ) (a b : Fin 3) :
    rmat n a b = ∑ i ∈ range (2 * n + 1), offset i n ^ (a.1 + b.1) := by
  unfold rmat
  rw [foldl_add, Matrix.sum_apply]
  refine sum_congr rfl fun i _ => ?_
  fin_cases a <;> fin_cases b <;> simp

theorem rhs_apply (n : ℕ) (y : ℕ → ℝ) (l : ℕ) (a : Fin 3) :
    rhs n y l a = ∑ i ∈ range (2 * n + 1), y (l + i - n) * offset i n ^ a.1 := by
  unfold rhs
  rw [foldl_add, Finset.sum_apply]
  refine sum_congr rfl fun i _ => ?_
  fin_cases a <;> simp

theorem rmat_mulVec (n : ℕ) (v : Fin 3 → ℝ) (a : Fin 3) :
    (rmat n).mulVec v a =
      ∑ i ∈ range (2 * n + 1), (v 0 + v 1 * offset i n + v 2 * offset i n ^ 2) * offset i n ^ a.1 := by
  simp only [Matrix.mulVec, dotProduct, Fin.sum_univ_three, rmat_apply]
  rw [sum_mul, sum_mul, sum_mul, ← sum_add_distrib, ← sum_add_distrib]
  refine sum_congr rfl fun i _ => ?_
  simp only [Fin.isValue, Fin.val_zero, Fin.val_one, Fin.val_two, pow_add]
  ring

/-- the design matrix is regular for every window (so the least-squares solution is unique) -/
theorem rmat_unit (n : ℕ) (hn : 1 ≤ n) : IsUnit (rmat n).det := by
  rw [isUnit_iff_ne_zero]
  intro h0
  obtain ⟨v, hv, hm⟩ := Matrix.exists_mulVec_eq_zero_iff.2 h0
  have key : ∑ i ∈ range (2 * n + 1), (v 0 + v 1 * offset i n + v 2 * offset i n ^ 2) ^ 2 = 0 := by
    have h := fun a => (rmat_mulVec n v a).symm.trans (congrFun hm a)
    have h0 := h 0; have h1 := h 1; have h2 := h 2
    simp only [Fin.isValue, Fin.val_zero, Fin.val_one, Fin.val_two, Pi.zero_apply] at h0 h1 h2
    have : ∑ i ∈ range (2 * n + 1), (v 0 + v 1 * offset i n + v 2 * offset i n ^ 2) ^ 2 =
        v 0 * ∑ i ∈ range (2 * n + 1), (v 0 + v 1 * offset i n + v 2 * offset i n ^ 2) * offset i n ^ 0 +
        v 1 * ∑ i ∈ range (2 * n + 1), (v 0 + v 1 * offset i n + v 2 * offset i n ^ 2) * offset i n ^ 1 +
        v 2 * ∑ i ∈ range (2 * n + 1), (v 0 + v 1 * offset i n + v 2 * offset i n ^ 2) * offset i n ^ 2 := by
      rw [mul_sum, mul_sum, mul_sum, ← sum_add_distrib, ← sum_add_distrib]
      exact sum_congr rfl fun i _ => by ring
    rw [this, h0, h1, h2]; ring
  have hz := (sum_eq_zero_iff_of_nonneg (fun i _ => sq_nonneg _)).1 key
  have e0 := hz n (mem_range.2 (by omega))
  have e1 := hz (n + 1) (mem_range.2 (by omega))
  have e2 := hz (n - 1) (mem_range.2 (by omega))
  have o0 : offset n n = 0 := by unfold offset; ring
  have o1 : offset (n + 1) n = 1 := by unfold offset; push_cast; ring
  have o2 : offset (n - 1) n = -1 := by unfold offset; rw [Nat.cast_sub hn]; push_cast; ring
  rw [o0] at e0; rw [o1] at e1; rw [o2] at e2
  have e0 := pow_eq_zero_iff (two_ne_zero) |>.1 e0
  have e1 := pow_eq_zero_iff (two_ne_zero) |>.1 e1
  have e2 := pow_eq_zero_iff (two_ne_zero) |>.1 e2
  apply hv
  funext a
  fin_cases a
  · show v 0 = 0; linarith
  · show v 1 = 0; linarith
  · show v 2 = 0; linarith

theorem beta_normal (n : ℕ) (hn : 1 ≤ n) (y : ℕ → ℝ) (l : ℕ) (a : Fin 3) :
    ∑ i ∈ range (2 * n + 1), (y (l + i - n) -
      (beta n y l 0 + beta n y l 1 * offset i n + beta n y l 2 * offset i n ^ 2)) * offset i n ^ a.1 = 0 := by
  have h : (rmat n).mulVec (beta n y l) = rhs n y l := by
    unfold beta
    rw [Matrix.mulVec_mulVec, Matrix.mul_nonsing_inv _ (rmat_unit n hn), Matrix.one_mulVec]
  have h1 := congrFun h a
  rw [rmat_mulVec, rhs_apply] at h1
  rw [← sub_eq_zero.2 h1.symm, ← sum_sub_distrib]
  exact sum_congr rfl fun i _ => by ring

/-- squared error decomposition of Pythagoras -/
theorem pythagoras (N : ℕ) (y x : ℕ → ℝ) (p : ℝ → ℝ → ℝ → ℝ → ℝ)
    (hp : ∀ a b d t, p a b d t = a + b * t + d * t ^ 2) (a0 b0 d0 : ℝ)
    (h0 : ∑ i ∈ range N, (y i - p a0 b0 d0 (x i)) * x i ^ 0 = 0)
    (h1 : ∑ i ∈ range N, (y i - p a0 b0 d0 (x i)) * x i ^ 1 = 0)
    (h2 : ∑ i ∈ range N, (y i - p a0 b0 d0 (x i)) * x i ^ 2 = 0) (a b d : ℝ) :
    ∑ i ∈ range N, (y i - p a b d (x i)) ^ 2 =
      ∑ i ∈ range N, (y i - p a0 b0 d0 (x i)) ^ 2 + ∑ i ∈ range N, (p (a0 - a) (b0 - b) (d0 - d) (x i)) ^ 2 := by
  have e : ∑ i ∈ range N, (y i - p a b d (x i)) ^ 2 =
      ∑ i ∈ range N, (y i - p a0 b0 d0 (x i)) ^ 2 + ∑ i ∈ range N, (p (a0 - a) (b0 - b) (d0 - d) (x i)) ^ 2 +
      2 * ((a0 - a) * ∑ i ∈ range N, (y i - p a0 b0 d0 (x i)) * x i ^ 0 +
        (b0 - b) * ∑ i ∈ range N, (y i - p a0 b0 d0 (x i)) * x i ^ 1 +
        (d0 - d) * ∑ i ∈ range N, (y i - p a0 b0 d0 (x i)) * x i ^ 2) := by
    simp only [mul_sum, ← sum_add_distrib]
    refine sum_congr rfl fun i _ => ?_
    simp only [hp]; ring
  rw [e, h0, h1, h2]; ring

/-! ## The loop over window centres -/

theorem foldl_put (n s : ℕ) (f : ℕ → ℝ) (a : ℕ → ℝ) (j : ℕ) :
    (List.range n).foldl (fun a i => put a (s + i) (f i)) a j = if s ≤ j ∧ j < s + n then f (j - s) else a j := by
  induction n with
  | zero => rw [if_neg (by omega)]; rfl
  | succ n ih =>
    rw [List.range_succ, List.foldl_append]
    simp only [List.foldl_cons, List.foldl_nil, put, ih]
    by_cases h : j = s + n
    · rw [if_pos h, if_pos (by omega)]; congr 1; omega
    · rw [if_neg h]
      by_cases h2 : s ≤ j ∧ j < s + n
      · rw [if_pos h2, if_pos (by omega)]
      · rw [if_neg h2, if_neg (by omega)]

/-- value at index `i` of the quadratic fitted at centre `k` -/
noncomputable def quadAt (n : ℕ) (y : ℕ → ℝ) (k i : ℕ) : ℝ :=
  beta n y k 0 + beta n y k 1 * ((i : ℝ) - k) + beta n y k 2 * ((i : ℝ) - k) ^ 2

theorem centreStep_eq (n last : ℕ) (y a : ℕ → ℝ) (l i : ℕ) :
    centreStep n last y a l i =
      if (l = n ∧ i < n) ∨ i = l ∨ (l + n = last ∧ l < i ∧ i ≤ l + n) then quadAt n y l i else a i := by
  have hc : put a l (beta n y l 0) i = if i = l then quadAt n y l i else a i := by
    unfold put
    by_cases h : i = l
    · rw [if_pos h, if_pos h, h]; unfold quadAt; ring
    · rw [if_neg h, if_neg h]
  have hfirst : ∀ b : ℕ → ℝ, l = n → (List.range n).foldl (fun a i => put a (l + i - n)
      (beta n y l 0 + beta n y l 1 * offset i n + beta n y l 2 * offset i n ^ 2)) b i =
      if i < n then quadAt n y l i else b i := by
    intro b h
    have e : (fun (a : ℕ → ℝ) (i : ℕ) => put a (l + i - n)
        (beta n y l 0 + beta n y l 1 * offset i n + beta n y l 2 * offset i n ^ 2)) =
        fun a i => put a (0 + i) (beta n y l 0 + beta n y l 1 * offset i n + beta n y l 2 * offset i n ^ 2) := by
      funext a i; congr 1; omega
    rw [e, foldl_put]
    by_cases h2 : i < n
    · rw [if_pos h2, if_pos (by omega)]; unfold quadAt offset; rw [h]; simp only [Nat.sub_zero]
    · rw [if_neg h2, if_neg (by omega)]
  have hlast : ∀ b : ℕ → ℝ, (List.range n).foldl (fun a i => put a (l + (i + 1))
      (beta n y l 0 + beta n y l 1 * ((i + 1 : ℕ) : ℝ) + beta n y l 2 * ((i + 1 : ℕ) : ℝ) ^ 2)) b i =
      if l < i ∧ i ≤ l + n then quadAt n y l i else b i := by
    intro b
    have e : (fun (a : ℕ → ℝ) (i : ℕ) => put a (l + (i + 1))
        (beta n y l 0 + beta n y l 1 * ((i + 1 : ℕ) : ℝ) + beta n y l 2 * ((i + 1 : ℕ) : ℝ) ^ 2)) =
        fun a i => put a (l + 1 + i)
        (beta n y l 0 + beta n y l 1 * ((i + 1 : ℕ) : ℝ) + beta n y l 2 * ((i + 1 : ℕ) : ℝ) ^ 2) := by
      funext a i; congr 1; omega
    rw [e, foldl_put]
    by_cases h2 : l < i ∧ i ≤ l + n
    · rw [if_pos h2, if_pos (by omega)]
      unfold quadAt
      rw [show i - (l + 1) + 1 = i - l by omega, Nat.cast_sub (by omega)]
    · rw [if_neg h2, if_neg (by omega)]
  unfold centreStep
  by_cases h1 : l = n
  · simp only [if_pos h1]
    by_cases h2 : l + n = last
    · rw [if_pos h2, hlast, hfirst _ h1, hc]
      split_ifs <;> first | rfl | omega
    · rw [if_neg h2, hfirst _ h1, hc]
      split_ifs <;> first | rfl | omega
  · simp only [if_neg h1]
    by_cases h2 : l + n = last
    · rw [if_pos h2, hlast, hc]
      split_ifs <;> first | rfl | omega
    · rw [if_neg h2, hc]
      split_ifs <;> first | rfl | omega

theorem smoothSeq_eq (n num : ℕ) (NARROW : Bool) (y : ℕ → ℝ) (h : 2 * n + 1 ≤ num) (i : ℕ) (hi : i < num) :
    smoothSeq n num NARROW y i = quadAt n y (max n (min i (num - 1 - n))) i := by
  unfold smoothSeq
  rw [if_neg (by omega)]
  have inv : ∀ j, 1 ≤ j → j ≤ num - 2 * n → ∀ i, (i < n + j ∨ (j = num - 2 * n ∧ i < num)) →
      (List.range' n j).foldl (centreStep n (num - 1) y) (fun _ => 0) i =
        quadAt n y (max n (min i (num - 1 - n))) i := by
    intro j
    induction j with
    | zero => intro h; omega
    | succ j ih =>
      intro _ hj i hi
      rw [← List.range'_append_1 (m := j), List.foldl_append]
      simp only [List.range'_one, List.foldl_cons, List.foldl_nil, centreStep_eq]
      by_cases hc : (n + j = n ∧ i < n) ∨ i = n + j ∨ (n + j + n = num - 1 ∧ n + j < i ∧ i ≤ n + j + n)
      · rw [if_pos hc]
        have : max n (min i (num - 1 - n)) = n + j := by omega
        rw [this]
      · rw [if_neg hc]
        have hj1 : 1 ≤ j := by omega
        exact ih hj1 (by omega) i (by omega)
  exact inv (num - 2 * n) (by omega) le_rfl i (Or.inr ⟨rfl, hi⟩)

/-! ## The degrees of one parity -/

theorem degs_succ (m L par : ℕ) (h : m ≤ L + 1) :
    degs m (L + 1) par = degs m L par ++ (if (L + 1) % 2 = par then [L + 1] else []) := by
  unfold degs
  rw [show L + 1 + 1 - m = (L + 1 - m) + 1 by omega, ← List.range'_append_1, List.filter_append]
  congr 1
  simp only [List.range'_one, show m + (L + 1 - m) = L + 1 by omega]
  by_cases h2 : (L + 1) % 2 = par <;> simp [h2]

/-- first degree of the parity at or above `m` -/
def first (m par : ℕ) : ℕ := if m % 2 = par then m else m + 1

theorem degs_eq (m LMAX par : ℕ) (hpar : par < 2) :
    degs m LMAX par = (List.range ((LMAX + 2 - first m par) / 2)).map fun i : ℕ => first m par + 2 * i := by
  have hbase : ∀ L, L < m → degs m L par = [] ∧ (L + 2 - first m par) / 2 = 0 := by
    intro L hL
    constructor
    · unfold degs; rw [show L + 1 - m = 0 by omega]; rfl
    · unfold first; split_ifs <;> omega
  induction LMAX with
  | zero =>
    by_cases hm : 0 < m
    · obtain ⟨h1, h2⟩ := hbase 0 hm
      rw [h1, h2]; rfl
    · have : m = 0 := by omega
      subst this
      interval_cases par <;> decide
  | succ L ih =>
    by_cases hm : L + 1 < m
    · obtain ⟨h1, h2⟩ := hbase (L + 1) hm
      rw [h1, h2]; rfl
    · rw [degs_succ m L par (by omega), ih]
      by_cases h2 : (L + 1) % 2 = par
      · rw [if_pos h2]
        have e : (L + 1 + 2 - first m par) / 2 = (L + 2 - first m par) / 2 + 1 := by
          unfold first; split_ifs <;> omega
        have e2 : first m par + 2 * ((L + 2 - first m par) / 2) = L + 1 := by
          unfold first; split_ifs <;> omega
        rw [e, List.range_succ, List.map_append, List.map_singleton, e2]
      · rw [if_neg h2, List.append_nil]
        have e : (L + 1 + 2 - first m par) / 2 = (L + 2 - first m par) / 2 := by
          unfold first; split_ifs <;> omega
        rw [e]

theorem idxOf_map_range (f N k : ℕ) (hk : k < N) :
    ((List.range N).map fun i : ℕ => f + 2 * i).idxOf (f + 2 * k) = k := by
  have hn : ((List.range N).map fun i : ℕ => f + 2 * i).Nodup :=
    List.Nodup.map (fun a b h => by simpa using h) List.nodup_range
  have hl : k < ((List.range N).map fun i : ℕ => f + 2 * i).length := by simpa using hk
  have := hn.idxOf_getElem k hl
  simpa using this

/-- the smoothed value of a coefficient in terms of its position among the degrees of its parity -/
theorem smoothed_eq (ROUND NARROW : Bool) (LMAX : ℕ) (c : ℕ → ℕ → ℝ) (l m : ℕ) (h1 : m ≤ l) (h2 : l ≤ LMAX) :
    smoothed ROUND NARROW LMAX c l m =
      smoothSeq (nsmooth ROUND m) ((LMAX + 2 - first m (l % 2)) / 2) NARROW
        (fun i => if i < (LMAX + 2 - first m (l % 2)) / 2 then c (first m (l % 2) + 2 * i) m else c 0 m)
        ((l - first m (l % 2)) / 2) := by
  unfold smoothed
  dsimp only
  rw [degs_eq m LMAX (l % 2) (Nat.mod_lt _ (by omega))]
  have hl : l = first m (l % 2) + 2 * ((l - first m (l % 2)) / 2) := by
    unfold first; split_ifs <;> omega
  have hlt : (l - first m (l % 2)) / 2 < (LMAX + 2 - first m (l % 2)) / 2 := by
    unfold first; split_ifs <;> omega
  have hi := idxOf_map_range (first m (l % 2)) _ _ hlt
  rw [← hl] at hi
  rw [hi]
  congr 1
  · simp
  · funext i
    by_cases h : i < (LMAX + 2 - first m (l % 2)) / 2
    · rw [if_pos h]; simp [List.getD_eq_getElem?_getD, h]
    · rw [if_neg h]; simp [List.getD_eq_getElem?_getD, h]

theorem nsmooth_ge (ROUND : Bool) (m : ℕ) : 2 ≤ nsmooth ROUND m := by
  unfold nsmooth; dsimp only
  generalize (if ROUND = true then around (Real.exp (-(m : ℝ) / 10) * 15) else ⌊Real.exp (-(m : ℝ) / 10) * 15⌋) = z
  split_ifs with h
  · exact le_rfl
  · omega

/-! ## The property -/

/-- the fitted quadratic is unique as soon as the window has three points -/
theorem fit_unique (c : ℕ → ℝ) (n K : ℕ) (hn : 1 ≤ n) (q q' : ℝ → ℝ) (h : IsFit c n K q) (h' : IsFit c n K q') :
    ∀ t, q t = q' t := by
  set y : ℕ → ℝ := fun i => c (K + 2 * i - 2 * n)
  -- compare both with the solution of the normal equations
  set B : Fin 3 → ℝ := beta n (fun j => y j) n
  have hb := fun a => beta_normal n hn (fun j => y j) n a
  have e : ∀ i, n + i - n = i := fun i => by omega
  have h0 := hb 0; have h1 := hb 1; have h2 := hb 2
  simp only [e, Fin.isValue, Fin.val_zero, Fin.val_one, Fin.val_two] at h0 h1 h2
  have py := pythagoras (2 * n + 1) y (fun i => offset i n) (fun a b d t => a + b * t + d * t ^ 2) (fun _ _ _ _ => rfl)
    (B 0) (B 1) (B 2) h0 h1 h2
  have one : ∀ q, IsFit c n K q → ∀ t, q t = B 0 + B 1 * t + B 2 * t ^ 2 := by
    intro q ⟨⟨a, b, d, hq⟩, hmin⟩ t
    have hle := hmin (B 0) (B 1) (B 2)
    simp only [hq] at hle
    have hpy := py a b d
    have hz : ∑ i ∈ range (2 * n + 1), (B 0 - a + (B 1 - b) * offset i n + (B 2 - d) * offset i n ^ 2) ^ 2 = 0 := by
      refine le_antisymm ?_ (sum_nonneg fun i _ => sq_nonneg _)
      have hle' : ∑ i ∈ range (2 * n + 1), (y i - (a + b * offset i n + d * offset i n ^ 2)) ^ 2 ≤
        ∑ i ∈ range (2 * n + 1), (y i - (B 0 + B 1 * offset i n + B 2 * offset i n ^ 2)) ^ 2 := hle
      linarith
    have hz := (sum_eq_zero_iff_of_nonneg (fun i _ => sq_nonneg _)).1 hz
    have e0 := pow_eq_zero_iff (two_ne_zero) |>.1 (hz n (mem_range.2 (by omega)))
    have e1 := pow_eq_zero_iff (two_ne_zero) |>.1 (hz (n + 1) (mem_range.2 (by omega)))
    have e2 := pow_eq_zero_iff (two_ne_zero) |>.1 (hz (n - 1) (mem_range.2 (by omega)))
    have o0 : offset n n = 0 := by unfold offset; ring
    have o1 : offset (n + 1) n = 1 := by unfold offset; push_cast; ring
    have o2 : offset (n - 1) n = -1 := by unfold offset; rw [Nat.cast_sub hn]; push_cast; ring
    rw [o0] at e0; rw [o1] at e1; rw [o2] at e2
    have hA : a = B 0 := by linarith
    have hB : b = B 1 := by linarith
    have hD : d = B 2 := by linarith
    rw [hq, hA, hB, hD]
  intro t
  rw [one q h t, one q' h' t]

/-- C39 (full description of the filtered coefficients): an order from 5 to `MMAX` with enough degrees of
the parity of `l` (`first` to `last`, at least `2 n + 1` of them): the coefficient minus the
least-squares quadratic through the `2 n + 1` coefficients of the same parity around it; near
either end the window stays inside and the quadratic is evaluated off centre. -/
theorem column_window (ROUND NARROW : Bool) (LMAX MMAX : ℕ) (c : ℕ → ℕ → ℝ) (l m n f g K : ℕ)
    (hm : 5 ≤ m) (hM : m ≤ MMAX) (h1 : m ≤ l) (h2 : l ≤ LMAX) (hn : n = nsmooth ROUND m)
    (hf : f % 2 = l % 2) (hf1 : m ≤ f) (hf2 : f ≤ m + 1)
    (hg : g % 2 = l % 2) (hg1 : g ≤ LMAX) (hg2 : LMAX ≤ g + 1)
    (hw : f + 4 * n ≤ g) (hK : K = max (f + 2 * n) (min l (g - 2 * n))) :
    ∃ q, IsFit (fun d => c d m) n K q ∧
      destripeColumn ROUND NARROW LMAX MMAX c l m = c l m - q (((l : ℝ) - K) / 2) := by
  have hff : first m (l % 2) = f := by unfold first; split_ifs <;> omega
  have hnum : (LMAX + 2 - f) / 2 = (g - f) / 2 + 1 := by omega
  have hn1 : 1 ≤ n := by have := nsmooth_ge ROUND m; omega
  unfold destripeColumn
  rw [if_pos ⟨hM, h1, h2⟩, if_pos hm, smoothed_eq ROUND NARROW LMAX c l m h1 h2, hff, ← hn,
    smoothSeq_eq n _ NARROW _ (by omega) _ (by omega)]
  set k := max n (min ((l - f) / 2) ((LMAX + 2 - f) / 2 - 1 - n)) with hk
  have hKk : K = f + 2 * k := by omega
  set y : ℕ → ℝ := fun i => if i < (LMAX + 2 - f) / 2 then c (f + 2 * i) m else c 0 m with hy
  set B := beta n y k with hB
  refine ⟨fun t => B 0 + B 1 * t + B 2 * t ^ 2, ⟨⟨B 0, B 1, B 2, fun t => rfl⟩, ?_⟩, ?_⟩
  · intro a b d
    have hb := fun a => beta_normal n hn1 y k a
    have h0 := hb 0; have h1' := hb 1; have h2' := hb 2
    simp only [Fin.isValue, Fin.val_zero, Fin.val_one, Fin.val_two] at h0 h1' h2'
    have py := pythagoras (2 * n + 1) (fun i => y (k + i - n)) (fun i => offset i n) (fun a b d t => a + b * t + d * t ^ 2)
      (fun _ _ _ _ => rfl) (B 0) (B 1) (B 2) h0 h1' h2' a b d
    have hyc : ∀ i ∈ range (2 * n + 1), y (k + i - n) = c (K + 2 * i - 2 * n) m := by
      intro i hi
      rw [mem_range] at hi
      rw [hy]; dsimp only
      rw [if_pos (by omega)]
      congr 1; omega
    have e1 : ∑ i ∈ range (2 * n + 1), (c (K + 2 * i - 2 * n) m - (B 0 + B 1 * ((i : ℝ) - n) + B 2 * ((i : ℝ) - n) ^ 2)) ^ 2 =
        ∑ i ∈ range (2 * n + 1), (y (k + i - n) - (B 0 + B 1 * offset i n + B 2 * offset i n ^ 2)) ^ 2 :=
      sum_congr rfl fun i hi => by rw [hyc i hi]; rfl
    have e2 : ∑ i ∈ range (2 * n + 1), (c (K + 2 * i - 2 * n) m - (a + b * ((i : ℝ) - n) + d * ((i : ℝ) - n) ^ 2)) ^ 2 =
        ∑ i ∈ range (2 * n + 1), (y (k + i - n) - (a + b * offset i n + d * offset i n ^ 2)) ^ 2 :=
      sum_congr rfl fun i hi => by rw [hyc i hi]; rfl
    rw [e1, e2, py]
    have : 0 ≤ ∑ i ∈ range (2 * n + 1), (B 0 - a + (B 1 - b) * offset i n + (B 2 - d) * offset i n ^ 2) ^ 2 :=
      sum_nonneg fun i _ => sq_nonneg _
    linarith
  · have hl : l = f + 2 * ((l - f) / 2) := by omega
    have : ((l : ℝ) - K) / 2 = (((l - f) / 2 : ℕ) : ℝ) - k := by
      rw [hKk]
      conv_lhs => rw [hl]
      push_cast; ring
    rw [this]
    rfl

/-- C39: too few degrees of the parity for a window: the coefficient is set to zero by default and left
alone with `NARROW` -/
theorem column_short (ROUND NARROW : Bool) (LMAX MMAX : ℕ) (c : ℕ → ℕ → ℝ) (l m f g : ℕ)
    (hm : 5 ≤ m) (hM : m ≤ MMAX) (h1 : m ≤ l) (h2 : l ≤ LMAX)
    (hf : f % 2 = l % 2) (hf1 : m ≤ f) (hf2 : f ≤ m + 1)
    (hg : g % 2 = l % 2) (hg1 : g ≤ LMAX) (hg2 : LMAX ≤ g + 1) (hw : g < f + 4 * nsmooth ROUND m) :
    destripeColumn ROUND NARROW LMAX MMAX c l m = if NARROW then c l m else 0 := by
  have hff : first m (l % 2) = f := by unfold first; split_ifs <;> omega
  unfold destripeColumn
  rw [if_pos ⟨hM, h1, h2⟩, if_pos hm, smoothed_eq ROUND NARROW LMAX c l m h1 h2, hff]
  unfold smoothSeq
  rw [if_pos (by omega), if_pos (by omega)]
  cases NARROW with
  | true => simp
  | false =>
    simp only [Bool.false_eq_true, if_false]
    rw [if_pos (by omega), show f + 2 * ((l - f) / 2) = l by omega, sub_self]

/-- C39: everything outside the orders 5 to `MMAX` and the degrees `m` to `LMAX` is unchanged -/
theorem column_outside (ROUND NARROW : Bool) (LMAX MMAX : ℕ) (c : ℕ → ℕ → ℝ) (l m : ℕ)
    (h : m < 5 ∨ MMAX < m ∨ l < m ∨ LMAX < l) : destripeColumn ROUND NARROW LMAX MMAX c l m = c l m := by
  unfold destripeColumn
  by_cases h1 : m ≤ MMAX ∧ m ≤ l ∧ l ≤ LMAX
  · rw [if_pos h1, if_neg (by omega)]
  · rw [if_neg h1]

/-- C39: every coefficient sequence that is a quadratic in the degree, within one parity of one order,
is removed entirely (when the window fits; the order is filtered) -/
theorem column_quadratic (ROUND NARROW : Bool) (LMAX MMAX : ℕ) (c : ℕ → ℕ → ℝ) (l m f g : ℕ) (a b d : ℝ)
    (hm : 5 ≤ m) (hM : m ≤ MMAX) (h1 : m ≤ l) (h2 : l ≤ LMAX)
    (hf : f % 2 = l % 2) (hf1 : m ≤ f) (hf2 : f ≤ m + 1)
    (hg : g % 2 = l % 2) (hg1 : g ≤ LMAX) (hg2 : LMAX ≤ g + 1) (hw : f + 4 * nsmooth ROUND m ≤ g)
    (hq : ∀ j : ℕ, m ≤ j → j ≤ LMAX → j % 2 = l % 2 → c j m = a + b * j + d * (j : ℝ) ^ 2) :
    destripeColumn ROUND NARROW LMAX MMAX c l m = 0 := by
  obtain ⟨K, hK⟩ : ∃ K, K = max (f + 2 * nsmooth ROUND m) (min l (g - 2 * nsmooth ROUND m)) := ⟨_, rfl⟩
  obtain ⟨q, hfit, hv⟩ := column_window ROUND NARROW LMAX MMAX c l m _ f g K hm hM h1 h2 rfl hf hf1 hf2 hg hg1 hg2 hw hK
  have hn : 1 ≤ nsmooth ROUND m := by have := nsmooth_ge ROUND m; omega
  have hzero : IsFit (fun j => c j m) (nsmooth ROUND m) K
      (fun t => a + b * (K + 2 * t) + d * (K + 2 * t) ^ 2) := by
    refine ⟨⟨a + b * K + d * (K : ℝ) ^ 2, 2 * b + 4 * d * K, 4 * d, fun t => by ring⟩, ?_⟩
    intro a' b' d'
    have : ∑ i ∈ range (2 * nsmooth ROUND m + 1), (c (K + 2 * i - 2 * nsmooth ROUND m) m -
        (a + b * (K + 2 * ((i : ℝ) - nsmooth ROUND m)) + d * (K + 2 * ((i : ℝ) - nsmooth ROUND m)) ^ 2)) ^ 2 = 0 := by
      refine sum_eq_zero fun i hi => ?_
      rw [mem_range] at hi
      rw [hq _ (by omega) (by omega) (by omega), Nat.cast_sub (by omega)]
      push_cast; ring
    rw [this]
    exact sum_nonneg fun i _ => sq_nonneg _
  rw [hv, fit_unique _ _ K hn q _ hfit hzero, hq l h1 h2 rfl]
  ring

/-- C39: the filter is linear -/
theorem column_linear (ROUND NARROW : Bool) (LMAX MMAX : ℕ) (c e : ℕ → ℕ → ℝ) (s t : ℝ) (l m : ℕ) :
    destripeColumn ROUND NARROW LMAX MMAX (fun i j => s * c i j + t * e i j) l m =
      s * destripeColumn ROUND NARROW LMAX MMAX c l m + t * destripeColumn ROUND NARROW LMAX MMAX e l m := by
  have hbeta : ∀ n (y z : ℕ → ℝ) k, beta n (fun i => s * y i + t * z i) k =
      s • beta n y k + t • beta n z k := by
    intro n y z k
    unfold beta
    have : rhs n (fun i => s * y i + t * z i) k = s • rhs n y k + t • rhs n z k := by
      funext a
      simp only [rhs_apply, Pi.add_apply, Pi.smul_apply, smul_eq_mul, mul_sum, ← sum_add_distrib]
      exact sum_congr rfl fun i _ => by ring
    rw [this, Matrix.mulVec_add, Matrix.mulVec_smul, Matrix.mulVec_smul]
  by_cases hc : m ≤ MMAX ∧ m ≤ l ∧ l ≤ LMAX
  · by_cases hm : 5 ≤ m
    · unfold destripeColumn
      simp only [if_pos hc, if_pos hm]
      rw [smoothed_eq _ _ _ _ l m hc.2.1 hc.2.2, smoothed_eq _ _ _ c l m hc.2.1 hc.2.2, smoothed_eq _ _ _ e l m hc.2.1 hc.2.2]
      have key : ∀ (n N i : ℕ) (y z : ℕ → ℝ), i < N → smoothSeq n N NARROW (fun i => s * y i + t * z i) i =
          s * smoothSeq n N NARROW y i + t * smoothSeq n N NARROW z i := by
        intro n N i y z hi
        by_cases hN : 2 * n + 1 ≤ N
        · rw [smoothSeq_eq n N NARROW _ hN i hi, smoothSeq_eq n N NARROW y hN i hi, smoothSeq_eq n N NARROW z hN i hi]
          unfold quadAt
          rw [hbeta]
          simp only [Pi.add_apply, Pi.smul_apply, smul_eq_mul]
          ring
        · unfold smoothSeq
          simp only [if_pos (show N < 2 * n + 1 by omega), if_pos hi]
          cases NARROW <;> simp
      have hfun : (fun i => if i < (LMAX + 2 - first m (l % 2)) / 2 then
          s * c (first m (l % 2) + 2 * i) m + t * e (first m (l % 2) + 2 * i) m else s * c 0 m + t * e 0 m) =
          fun i => s * (if i < (LMAX + 2 - first m (l % 2)) / 2 then c (first m (l % 2) + 2 * i) m else c 0 m) +
            t * (if i < (LMAX + 2 - first m (l % 2)) / 2 then e (first m (l % 2) + 2 * i) m else e 0 m) := by
        funext i; split_ifs <;> rfl
      rw [hfun, key _ _ _ _ _ (by unfold first; split_ifs <;> omega)]
      ring
    · rw [column_outside _ _ _ _ _ l m (by omega), column_outside _ _ _ _ c l m (by omega), column_outside _ _ _ _ e l m (by omega)]
  · rw [column_outside _ _ _ _ _ l m (by omega), column_outside _ _ _ _ c l m (by omega), column_outside _ _ _ _ e l m (by omega)]

/-- C39: a filtered coefficient depends only on coefficients of its own order and degree parity, at
degrees from the order to `LMAX` -/
theorem column_local (ROUND NARROW : Bool) (LMAX MMAX : ℕ) (c e : ℕ → ℕ → ℝ) (l m : ℕ) (hl : c l m = e l m)
    (h : ∀ j, m ≤ j → j ≤ LMAX → j % 2 = l % 2 → c j m = e j m) :
    destripeColumn ROUND NARROW LMAX MMAX c l m = destripeColumn ROUND NARROW LMAX MMAX e l m := by
  by_cases hc : m ≤ MMAX ∧ m ≤ l ∧ l ≤ LMAX
  · by_cases hm : 5 ≤ m
    · obtain ⟨f, hf, hf1, hf2⟩ : ∃ f, f % 2 = l % 2 ∧ m ≤ f ∧ f ≤ m + 1 := by
        by_cases hp : m % 2 = l % 2
        · exact ⟨m, hp, by omega, by omega⟩
        · exact ⟨m + 1, by omega, by omega, by omega⟩
      obtain ⟨g, hg, hg1, hg2⟩ : ∃ g, g % 2 = l % 2 ∧ g ≤ LMAX ∧ LMAX ≤ g + 1 := by
        by_cases hp : LMAX % 2 = l % 2
        · exact ⟨LMAX, hp, by omega, by omega⟩
        · exact ⟨LMAX - 1, by omega, by omega, by omega⟩
      by_cases hw : f + 4 * nsmooth ROUND m ≤ g
      · obtain ⟨K, hK⟩ : ∃ K, K = max (f + 2 * nsmooth ROUND m) (min l (g - 2 * nsmooth ROUND m)) := ⟨_, rfl⟩
        obtain ⟨q, hq, hv⟩ := column_window ROUND NARROW LMAX MMAX c l m _ f g K hm hc.1 hc.2.1 hc.2.2 rfl hf hf1 hf2 hg hg1 hg2 hw hK
        obtain ⟨q', hq', hv'⟩ := column_window ROUND NARROW LMAX MMAX e l m _ f g K hm hc.1 hc.2.1 hc.2.2 rfl hf hf1 hf2 hg hg1 hg2 hw hK
        have hn : 1 ≤ nsmooth ROUND m := by have := nsmooth_ge ROUND m; omega
        have : IsFit (fun d => c d m) (nsmooth ROUND m) K q' := by
          refine ⟨hq'.1, fun a b d => ?_⟩
          have e1 : ∀ i ∈ range (2 * nsmooth ROUND m + 1), c (K + 2 * i - 2 * nsmooth ROUND m) m =
              e (K + 2 * i - 2 * nsmooth ROUND m) m := by
            intro i hi
            rw [mem_range] at hi
            exact h _ (by omega) (by omega) (by omega)
          have := hq'.2 a b d
          refine le_trans (le_of_eq (sum_congr rfl fun i hi => ?_)) (le_trans this (le_of_eq (sum_congr rfl fun i hi => ?_)))
          · simp only [e1 i hi]
          · simp only [e1 i hi]
        rw [hv, hv', fit_unique _ _ K hn q q' hq this, hl]
      · rw [column_short ROUND NARROW LMAX MMAX c l m f g hm hc.1 hc.2.1 hc.2.2 hf hf1 hf2 hg hg1 hg2 (by omega),
          column_short ROUND NARROW LMAX MMAX e l m f g hm hc.1 hc.2.1 hc.2.2 hf hf1 hf2 hg hg1 hg2 (by omega), hl]
    · rw [column_outside _ _ _ _ c l m (by omega), column_outside _ _ _ _ e l m (by omega), hl]
  · rw [column_outside _ _ _ _ c l m (by omega), column_outside _ _ _ _ e l m (by omega), hl]

/-- `np.around` is within one half -/
theorem around_spec (x : ℝ) : |(around x : ℝ) - x| ≤ 1 / 2 := by
  have h1 := Int.floor_le x
  have h2 := Int.lt_floor_add_one x
  unfold around
  rw [abs_le]
  split_ifs <;> push_cast <;> constructor <;> linarith

/-- C39: half width of the window: `15 exp(-m/10)` rounded to the nearest integer or truncated, never
below 2 and never above 15 -/
theorem nsmooth_spec (ROUND : Bool) (m : ℕ) :
    nsmooth ROUND m ≤ 15 ∧ (2 < nsmooth ROUND m →
      (ROUND = true → |(nsmooth ROUND m : ℝ) - 15 * Real.exp (-(m : ℝ) / 10)| ≤ 1 / 2) ∧
      (ROUND = false → nsmooth ROUND m ≤ 15 * Real.exp (-(m : ℝ) / 10) ∧
        15 * Real.exp (-(m : ℝ) / 10) < nsmooth ROUND m + 1)) := by
  have hexp : Real.exp (-(m : ℝ) / 10) ≤ 1 := by
    rw [← Real.exp_zero]; apply Real.exp_le_exp.2
    have : (0 : ℝ) ≤ m := Nat.cast_nonneg _
    linarith
  obtain ⟨s, hs⟩ : ∃ s, s = Real.exp (-(m : ℝ) / 10) * 15 := ⟨_, rfl⟩
  have hs15 : s ≤ 15 := by rw [hs]; linarith
  have key : ∀ z : ℤ, z ≤ 15 → (if z < 2 then 2 else z.toNat) ≤ 15 := by
    intro z hz; split_ifs <;> omega
  cases ROUND with
  | true =>
    have ha := around_spec s
    rw [abs_le] at ha
    have hz : around s ≤ 15 := by
      have : (around s : ℝ) < 16 := by linarith
      have : around s < 16 := by exact_mod_cast this
      omega
    have hn : nsmooth true m = if around s < 2 then 2 else (around s).toNat := by
      unfold nsmooth; simp only [if_true, ← hs]
    refine ⟨by rw [hn]; exact key _ hz, fun h2 => ⟨fun _ => ?_, fun h => by cases h⟩⟩
    rw [hn] at h2 ⊢
    by_cases hlt : around s < 2
    · rw [if_pos hlt] at h2; omega
    · rw [if_neg hlt]
      have hc : (((around s).toNat : ℕ) : ℝ) = (around s : ℝ) := by
        have : (((around s).toNat : ℕ) : ℤ) = around s := Int.toNat_of_nonneg (by omega)
        exact_mod_cast congrArg (Int.cast : ℤ → ℝ) this
      rw [hc, mul_comm, ← hs, abs_le]
      exact ha
  | false =>
    have hz : ⌊s⌋ ≤ 15 := by
      have : (⌊s⌋ : ℝ) ≤ 15 := (Int.floor_le s).trans hs15
      exact_mod_cast this
    have hn : nsmooth false m = if ⌊s⌋ < 2 then 2 else (⌊s⌋).toNat := by
      unfold nsmooth; simp only [Bool.false_eq_true, if_false, ← hs]
    refine ⟨by rw [hn]; exact key _ hz, fun h2 => ⟨fun h => (by cases h), fun _ => ?_⟩⟩
    rw [hn] at h2 ⊢
    by_cases hlt : ⌊s⌋ < 2
    · rw [if_pos hlt] at h2; omega
    · rw [if_neg hlt]
      have hc : (((⌊s⌋).toNat : ℕ) : ℝ) = (⌊s⌋ : ℝ) := by
        have : (((⌊s⌋).toNat : ℕ) : ℤ) = ⌊s⌋ := Int.toNat_of_nonneg (by omega)
        exact_mod_cast congrArg (Int.cast : ℤ → ℝ) this
      rw [hc, mul_comm, ← hs]
      exact ⟨Int.floor_le s, Int.lt_floor_add_one s⟩

/-- C39: arrays that hold the degrees and orders are filtered, both by the same operator, and keep their
shape; a single row, missing rows or columns and `LMAX = 0` raise -/
theorem destripe_spec (c s : Arr) (LMAX : ℕ) (MMAX : Option ℕ) (ROUND NARROW : Bool) :
    (2 ≤ LMAX + 1 ∧ LMAX + 1 ≤ c.rows ∧ LMAX + 1 ≤ s.rows ∧ min (MMAX.getD LMAX) LMAX + 1 ≤ c.cols ∧
        min (MMAX.getD LMAX) LMAX + 1 ≤ s.cols →
      ∃ c' s', destripe c s LMAX MMAX ROUND NARROW = some (c', s') ∧
        c'.rows = c.rows ∧ c'.cols = c.cols ∧ s'.rows = s.rows ∧ s'.cols = s.cols ∧
        c'.val = destripeColumn ROUND NARROW LMAX (MMAX.getD LMAX) c.val ∧
        s'.val = destripeColumn ROUND NARROW LMAX (MMAX.getD LMAX) s.val) ∧
    (¬ (2 ≤ LMAX + 1 ∧ LMAX + 1 ≤ c.rows ∧ LMAX + 1 ≤ s.rows ∧ min (MMAX.getD LMAX) LMAX + 1 ≤ c.cols ∧
        min (MMAX.getD LMAX) LMAX + 1 ≤ s.cols) → destripe c s LMAX MMAX ROUND NARROW = none) := by
  unfold destripe
  constructor
  · rintro ⟨h0, h1, h2, h3, h4⟩
    rw [if_neg (by omega)]
    dsimp only
    rw [if_neg (by omega)]
    exact ⟨_, _, rfl, rfl, rfl, rfl, rfl, rfl, rfl⟩
  · intro h
    by_cases h1 : c.rows = 1 ∨ s.rows = 1
    · rw [if_pos h1]
    · rw [if_neg h1]
      dsimp only
      rw [if_pos (by omega)]

/-- C39: the default call zeroes the highest orders: from order `LMAX - 7` on no window of at least five
degrees of one parity fits -/
theorem default_high_orders (ROUND : Bool) (LMAX MMAX : ℕ) (c : ℕ → ℕ → ℝ) (l m : ℕ) (hm : 5 ≤ m) (hM : m ≤ MMAX)
    (h1 : m ≤ l) (h2 : l ≤ LMAX) (h : LMAX ≤ m + 7) : destripeColumn ROUND false LMAX MMAX c l m = 0 := by
  obtain ⟨f, hf, hf1, hf2⟩ : ∃ f, f % 2 = l % 2 ∧ m ≤ f ∧ f ≤ m + 1 := by
    by_cases hp : m % 2 = l % 2
    · exact ⟨m, hp, by omega, by omega⟩
    · exact ⟨m + 1, by omega, by omega, by omega⟩
  obtain ⟨g, hg, hg1, hg2⟩ : ∃ g, g % 2 = l % 2 ∧ g ≤ LMAX ∧ LMAX ≤ g + 1 := by
    by_cases hp : LMAX % 2 = l % 2
    · exact ⟨LMAX, hp, by omega, by omega⟩
    · exact ⟨LMAX - 1, by omega, by omega, by omega⟩
  have := nsmooth_ge ROUND m
  rw [column_short ROUND false LMAX MMAX c l m f g hm hM h1 h2 hf hf1 hf2 hg hg1 hg2 (by omega)]
  rfl

/-- the hypotheses of `column_window` and `column_quadratic` are met: degree 101 of order 7 with `LMAX = 200` -/
example (ROUND : Bool) : ∃ f g K, 5 ≤ 7 ∧ 7 ≤ 200 ∧ f % 2 = 101 % 2 ∧ 7 ≤ f ∧ f ≤ 7 + 1 ∧ g % 2 = 101 % 2 ∧ g ≤ 200 ∧
    200 ≤ g + 1 ∧ f + 4 * nsmooth ROUND 7 ≤ g ∧ K = max (f + 2 * nsmooth ROUND 7) (min 101 (g - 2 * nsmooth ROUND 7)) := by
  have := (nsmooth_spec ROUND 7).1
  exact ⟨7, 199, _, by omega, by omega, by omega, by omega, by omega, by omega, by omega, by omega, by omega, rfl⟩

/-- the hypotheses of `column_short` are met: degree 60 of order 58 with `LMAX = 60` -/
example (ROUND : Bool) : 60 < 58 + 4 * nsmooth ROUND 58 := by have := nsmooth_ge ROUND 58; omega

end Verif.Destripe
