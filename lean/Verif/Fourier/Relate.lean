import Verif.Fourier.Rows

/-!
# The recursion in order and degree

Helper lemmas for `Verif.Fourier.Props`.
-/
namespace Verif.Fourier
open Verif.Legendre Finset Nat

/-- `u^2 (P_{l+2}^{(m+2)} - P_l^{(m+2)}) = (l+m+2)(l+m+1) P_l^{(m)} - (l-m+1)(l-m+2) P_{l+2}^{(m)}` -/
theorem dLeg_cross (l m : ℕ) (x : ℝ) :
    (1 - x ^ 2) * (dLeg (l + 2) (m + 2) x - dLeg l (m + 2) x) =
      (l + m + 2) * (l + m + 1) * dLeg l m x - (l - m + 1) * (l - m + 2) * dLeg (l + 2) m x := by
  have hb : ∀ k l, below l (k + 1) x = dLeg l k x := by
    intro k l; rw [below, dLeg_T]; rfl
  have h2 := dLeg_below' l (m + 2) x
  rw [hb] at h2
  have h3 := dLeg_deriv l m x
  have h4 := dLeg_rec l m x
  linear_combination (1 - x ^ 2) * h2 - (2 * l + 3 : ℝ) * h3 + (l + 1 - m : ℝ) * h4

/-- the normalised recursion used by the code; `h = 2` for order 0 and 1 for the other orders -/
theorem Plm_cross (m j : ℕ) (h : ℝ) (hh : h * dlt m = 2) (x u : ℝ) (hu : u ^ 2 = 1 - x ^ 2) :
    Real.sqrt ((((m + j : ℕ) : ℝ) + m + 2) * ((m + j : ℕ) + m + 1) / (2 * (m + j : ℕ) + 1)) * Plm (m + j) m x u -
      Real.sqrt ((((m + j : ℕ) : ℝ) - m + 1) * ((m + j : ℕ) - m + 2) / (2 * (m + j : ℕ) + 5)) * Plm (m + j + 2) m x u +
      Real.sqrt ((((m + j : ℕ) : ℝ) - m) * ((m + j : ℕ) - m - 1) / (2 * (m + j : ℕ) + 1) / h) * Plm (m + j) (m + 2) x u =
    Real.sqrt ((((m + j : ℕ) : ℝ) + m + 4) * ((m + j : ℕ) + m + 3) / (2 * (m + j : ℕ) + 5) / h) *
      Plm (m + j + 2) (m + 2) x u := by
  have hd := dlt_pos m
  have hh0 : 0 < h := by
    rcases lt_or_ge 0 h with h1 | h1
    · exact h1
    · nlinarith
  have hh' : 2 / h = dlt m := by rw [← hh]; field_simp
  set κ : ℝ := Real.sqrt (dlt m * j ! / (2 * m + j + 2)!) with hκ
  have hf2 : ((2 * m + j + 2)! : ℝ) = (2 * m + j + 2) * ((2 * m + j + 1) * (2 * m + j)!) := by
    rw [factorial_succ, factorial_succ]; push_cast; ring
  have hf0 : ((2 * m + j)! : ℝ) ≠ 0 := by positivity
  have hj0 : (j ! : ℝ) ≠ 0 := by positivity
  have n1 : (2 * ((m : ℝ) + j) + 1) ≠ 0 := by positivity
  have n5 : (2 * ((m : ℝ) + j) + 5) ≠ 0 := by positivity
  have c1 : Real.sqrt ((((m + j : ℕ) : ℝ) + m + 2) * ((m + j : ℕ) + m + 1) / (2 * (m + j : ℕ) + 1)) * nrm (m + j) m =
      ((2 * m + j + 2) * (2 * m + j + 1)) * κ := by
    rw [nrm_add]
    apply sqrt_mul_eq
    · positivity
    · positivity
    · rw [hf2]; push_cast
      have : (2 * (m:ℝ) + j + 2) ≠ 0 := by positivity
      have : (2 * (m:ℝ) + j + 1) ≠ 0 := by positivity
      field_simp
      ring
  have c2 : Real.sqrt ((((m + j : ℕ) : ℝ) - m + 1) * ((m + j : ℕ) - m + 2) / (2 * (m + j : ℕ) + 5)) * nrm (m + j + 2) m =
      ((j + 1) * (j + 2)) * κ := by
    rw [show m + j + 2 = m + (j + 2) by ring, nrm_add, show (((m + j : ℕ) : ℝ) - m) = j by push_cast; ring]
    apply sqrt_mul_eq
    · positivity
    · positivity
    · rw [show 2 * m + (j + 2) = 2 * m + j + 2 by ring, show (j + 2)! = (j + 2) * ((j + 1) * j !) from rfl]
      have : ((2 * m + j + 2)! : ℝ) ≠ 0 := by positivity
      push_cast
      field_simp
      ring
  have c4 : Real.sqrt ((((m + j : ℕ) : ℝ) + m + 4) * ((m + j : ℕ) + m + 3) / (2 * (m + j : ℕ) + 5) / h) *
      nrm (m + j + 2) (m + 2) = 1 * κ := by
    rw [show m + j + 2 = (m + 2) + j by ring, nrm_add, show dlt (m + 2) = 2 by simp [dlt]]
    apply sqrt_mul_eq
    · positivity
    · norm_num
    · rw [show 2 * (m + 2) + j = 2 * m + j + 2 + 1 + 1 by ring, factorial_succ (2 * m + j + 2 + 1), factorial_succ (2 * m + j + 2)]
      have h0 : ((2 * m + j + 2)! : ℝ) ≠ 0 := by positivity
      have h1 : (2 * (m:ℝ) + j + 2 + 1) ≠ 0 := by positivity
      have h3 : (2 * (m:ℝ) + j + 2 + 1 + 1) ≠ 0 := by positivity
      have h4 : (2 * ((m:ℝ) + 2 + j) + 1) ≠ 0 := by positivity
      rw [← hh']
      push_cast
      field_simp
      ring
  have c3 : Real.sqrt ((((m + j : ℕ) : ℝ) - m) * ((m + j : ℕ) - m - 1) / (2 * (m + j : ℕ) + 1) / h) *
      Plm (m + j) (m + 2) x u = κ * (u ^ (m + 2) * dLeg (m + j) (m + 2) x) := by
    match j with
    | 0 => rw [Plm_zero_of_lt _ _ (by omega), dLeg_zero_of_lt _ _ (by omega)]; ring
    | 1 => rw [Plm_zero_of_lt _ _ (by omega), dLeg_zero_of_lt _ _ (by omega)]; ring
    | i + 2 =>
      have : Real.sqrt ((((m + (i + 2) : ℕ) : ℝ) - m) * ((m + (i + 2) : ℕ) - m - 1) / (2 * (m + (i + 2) : ℕ) + 1) / h) *
          nrm (m + (i + 2)) (m + 2) = 1 * κ := by
        rw [show m + (i + 2) = (m + 2) + i by ring, nrm_add, show dlt (m + 2) = 2 by simp [dlt],
          show (((m + 2 + i : ℕ) : ℝ) - m) = i + 2 by push_cast; ring, hκ]
        apply sqrt_mul_eq
        · have : (0:ℝ) ≤ i + 2 - 1 := by have := (i.cast_nonneg : (0:ℝ) ≤ i); linarith
          positivity
        · norm_num
        · rw [show 2 * (m + 2) + i = 2 * m + (i + 2) + 2 by ring, ← hh',
            show (i + 2)! = (i + 2) * ((i + 1) * i !) from rfl]
          have : ((2 * m + (i + 2) + 2)! : ℝ) ≠ 0 := by positivity
          push_cast at n1 ⊢
          have n1' : (2 * ((m:ℝ) + 2 + i) + 1) ≠ 0 := by positivity
          field_simp
          ring
      unfold Plm
      rw [← mul_assoc, ← mul_assoc, this]
      ring
  have hx := dLeg_cross (m + j) m x
  rw [c3]
  unfold Plm
  push_cast at hx
  have e : ∀ a b c d : ℝ, a * (b * c * d) = a * b * c * d := fun a b c d => by ring
  rw [e, e, e, c1, c2, c4]
  have hu2 : u ^ (m + 2) = u ^ m * (1 - x ^ 2) := by rw [pow_add, hu]
  rw [hu2]
  linear_combination (-(κ * u ^ m)) * hx

/-! ## invariant of the loops -/

/-- the row of degree `l` and order `m` is the Fourier series of the Legendre function -/
def Good (lmax : ℕ) (P : A3) (l m : ℕ) : Prop :=
  ∀ t, ser lmax m (P l m) t = Plm l m (Real.cos t) (Real.sin t)

/-- columns of the wrong parity are zero -/
def PZ (P : A3) : Prop := ∀ l m j, j % 2 ≠ l % 2 → P l m j = 0

/-- rows above the diagonal are zero from order 2 -/
def UZ (P : A3) : Prop := ∀ l m j, 2 ≤ m → l < m → P l m j = 0

/-- invariant: `S` is the set of finished rows -/
def Ok (lmax : ℕ) (P : A3) (S : ℕ → ℕ → Prop) : Prop :=
  PZ P ∧ UZ P ∧ ∀ l m, S l m → Good lmax P l m

theorem relate_noop (h : ℝ) (cs : List ℕ) (m : ℕ) (P : A3) (l : ℕ) (hP : PZ P)
    (hc : ∀ j ∈ cs, j % 2 ≠ l % 2) : relate h cs m P l = P := by
  funext l' m' j
  unfold relate
  by_cases hh : l' = l + 2 ∧ m' = m + 2 ∧ j ∈ cs
  · rw [if_pos hh]
    obtain ⟨rfl, rfl, hj⟩ := hh
    have hj' := hc j hj
    rw [hP l m j hj', hP (l + 2) m j (by omega), hP l (m + 2) j hj', hP (l + 2) (m + 2) j (by omega)]
    simp
  · rw [if_neg hh]

theorem relate_step (lmax : ℕ) (h : ℝ) (cs : List ℕ) (m l : ℕ) (P : A3) (S : ℕ → ℕ → Prop)
    (hok : Ok lmax P S) (hm : m ≤ l) (hh : h * dlt m = 2)
    (hcs : ∀ j ∈ cs, j % 2 = l % 2) (hcs' : ∀ j ≤ lmax, j % 2 = l % 2 → j ∈ cs)
    (s1 : S l m) (s2 : S (l + 2) m) (s3 : S l (m + 2)) :
    Ok lmax (relate h cs m P l) (fun l' m' => S l' m' ∨ (l' = l + 2 ∧ m' = m + 2)) := by
  obtain ⟨hP, hU, hG⟩ := hok
  have hd := dlt_pos m
  have hh0 : 0 < h := by
    rcases lt_or_ge 0 h with h1 | h1
    · exact h1
    · nlinarith
  have hrow : ∀ l' m', ¬ (l' = l + 2 ∧ m' = m + 2) → relate h cs m P l l' m' = P l' m' := by
    intro l' m' hne
    funext j
    unfold relate
    rw [if_neg (by tauto)]
  have hgood : Good lmax (relate h cs m P l) (l + 2) (m + 2) := by
    intro t
    obtain ⟨j, rfl⟩ := Nat.exists_eq_add_of_le hm
    have hc := Plm_cross m j h hh (Real.cos t) (Real.sin t) (by have := Real.sin_sq_add_cos_sq t; linarith)
    have g1 := hG _ _ s1 t
    have g2 := hG _ _ s2 t
    have g3 := hG _ _ s3 t
    set a1 := Real.sqrt ((((m + j : ℕ) : ℝ) + m + 2) * ((m + j : ℕ) + m + 1) / (2 * (m + j : ℕ) + 1))
    set a2 := Real.sqrt ((((m + j : ℕ) : ℝ) - m + 1) * ((m + j : ℕ) - m + 2) / (2 * (m + j : ℕ) + 5))
    set a3 := Real.sqrt ((((m + j : ℕ) : ℝ) - m) * ((m + j : ℕ) - m - 1) / (2 * (m + j : ℕ) + 1) / h)
    set a4 := Real.sqrt ((((m + j : ℕ) : ℝ) + m + 4) * ((m + j : ℕ) + m + 3) / (2 * (m + j : ℕ) + 5) / h) with ha4
    have h4 : 0 < a4 := by rw [ha4]; apply Real.sqrt_pos.2; positivity
    have hv : ∀ k ∈ range (lmax + 1), relate h cs m P (m + j) (m + j + 2) (m + 2) k =
        (a1 * P (m + j) m k - a2 * P (m + j + 2) m k + a3 * P (m + j) (m + 2) k) / a4 := by
      intro k hk
      have hk' := mem_range.1 hk
      unfold relate
      by_cases hpar : k % 2 = (m + j) % 2
      · rw [if_pos ⟨rfl, rfl, hcs' k (by omega) hpar⟩]
      · rw [if_neg (by intro hx; exact hpar (hcs k hx.2.2)), hP (m + j) m k hpar, hP (m + j + 2) m k (by omega),
          hP (m + j) (m + 2) k hpar, hP (m + j + 2) (m + 2) k (by omega)]
        simp
    have key : ser lmax (m + 2) (relate h cs m P (m + j) (m + j + 2) (m + 2)) t =
        (a1 * ser lmax m (P (m + j) m) t - a2 * ser lmax m (P (m + j + 2) m) t +
          a3 * ser lmax (m + 2) (P (m + j) (m + 2)) t) / a4 := by
      unfold ser
      rw [Nat.add_mod_right, mul_sum, mul_sum, mul_sum, ← sum_sub_distrib, ← sum_add_distrib, sum_div]
      apply sum_congr rfl
      intro k hk
      rw [hv k hk]
      ring
    rw [key, g1, g2, g3, hc]
    field_simp
  refine ⟨?_, ?_, ?_⟩
  rotate_left
  · intro l' m' j h1 h2
    rw [hrow l' m' (by omega)]
    exact hU l' m' j h1 h2
  rotate_left
  · intro l' m' j hj
    unfold relate
    by_cases hx : l' = l + 2 ∧ m' = m + 2 ∧ j ∈ cs
    · exfalso
      have := hcs j hx.2.2
      obtain ⟨rfl, _⟩ := hx
      omega
    · rw [if_neg hx]; exact hP l' m' j hj
  · intro l' m' hS
    by_cases hx : l' = l + 2 ∧ m' = m + 2
    · obtain ⟨rfl, rfl⟩ := hx; exact hgood
    · intro t
      rw [hrow l' m' hx]
      rcases hS with h1 | h1
      · exact hG l' m' h1 t
      · exact absurd h1 hx

/-- folds over `p, p+2, ...` -/
theorem fold_cols {S : Type} (Inv : ℕ → S → Prop) (f : S → ℕ → S) (p N : ℕ) (s : S) (h0 : Inv 0 s)
    (hs : ∀ i s, i < N → Inv i s → Inv (i + 1) (f s (p + 2 * i))) : Inv N ((cols p N).foldl f s) := by
  induction N with
  | zero => exact h0
  | succ n ih =>
    have e : cols p (n + 1) = cols p n ++ [p + 2 * n] := by
      unfold cols; rw [List.range_succ, List.map_append]; rfl
    rw [e, List.foldl_append, List.foldl_cons, List.foldl_nil]
    exact hs n _ (by omega) (ih fun i s hi => hs i s (by omega))

theorem fold_range' {S : Type} (Inv : ℕ → S → Prop) (f : S → ℕ → S) (p N : ℕ) (s : S) (h0 : Inv 0 s)
    (hs : ∀ i s, i < N → Inv i s → Inv (i + 1) (f s (p + i))) : Inv N ((List.range' p N).foldl f s) := by
  induction N with
  | zero => exact h0
  | succ n ih =>
    rw [List.range'_concat, List.foldl_append, List.foldl_cons, List.foldl_nil, one_mul]
    exact hs n _ (by omega) (ih fun i s hi => hs i s (by omega))

theorem Ok.mono {lmax : ℕ} {P : A3} {S S' : ℕ → ℕ → Prop} (h : Ok lmax P S) (hs : ∀ l m, S' l m → S l m ∨ (2 ≤ m ∧ l < m)) :
    Ok lmax P S' := by
  refine ⟨h.1, h.2.1, fun l m hS => ?_⟩
  rcases hs l m hS with h1 | h1
  · exact h.2.2 l m h1
  · intro t
    rw [Plm_zero_of_lt l m h1.2]
    unfold ser
    exact sum_eq_zero fun j _ => by rw [h.2.1 l m j h1.1 h1.2, zero_mul]

/-- inner loop over the degrees `p, p+2, ...` of one order -/
theorem inner (lmax m p N : ℕ) (cs : List ℕ) (P : A3) (S : ℕ → ℕ → Prop) (hok : Ok lmax P S)
    (hm : 1 ≤ m) (hp : m ≤ p) (hp' : p < m + 2)
    (hcs : ∀ j ∈ cs, j % 2 = p % 2) (hcs' : ∀ j ≤ lmax, j % 2 = p % 2 → j ∈ cs)
    (hS : ∀ k ≤ N, S (p + 2 * k) m) :
    Ok lmax ((cols p N).foldl (relate 1 cs m) P)
      (fun l' m' => S l' m' ∨ (m' = m + 2 ∧ l' % 2 = p % 2 ∧ l' < p + 2 * N + 2)) := by
  have hd : (1 : ℝ) * dlt m = 2 := by rw [dlt, if_neg (by omega), one_mul]
  refine fold_cols (fun i P => Ok lmax P
    (fun l' m' => S l' m' ∨ (m' = m + 2 ∧ l' % 2 = p % 2 ∧ l' < p + 2 * i + 2))) _ p N P
    (hok.mono ?_) ?_
  · intro l' m' h
    rcases h with h | h
    · exact Or.inl h
    · exact Or.inr (by omega)
  · intro i Q hi hQ
    refine (relate_step lmax 1 cs m (p + 2 * i) Q _ hQ (by omega) hd (fun j hj => by rw [hcs j hj]; omega)
      (fun j hj hj' => hcs' j hj (by omega)) (Or.inl (hS i (by omega))) (Or.inl (hS (i + 1) (by omega)))
      (Or.inr ⟨rfl, by omega, by omega⟩)).mono ?_
    intro l' m' h
    rcases h with h | h
    · exact Or.inl (Or.inl (Or.inl h))
    · by_cases h2 : l' < p + 2 * i + 2
      · exact Or.inl (Or.inl (Or.inr ⟨h.1, h.2.1, h2⟩))
      · exact Or.inl (Or.inr ⟨by omega, h.1⟩)

end Verif.Fourier
