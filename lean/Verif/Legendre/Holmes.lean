import Verif.Legendre.Colombo
import Mathlib.Tactic.NormNum

/-!
# Lemmas: `plm_holmes` computes the specified functions
-/
namespace Verif.Legendre
open Nat

/-- start of degree `l` in the flat array -/
def tri (l : ℕ) : ℕ := l * (l + 1) / 2

theorem tri_succ (l : ℕ) : tri (l + 1) = tri l + l + 1 := by
  unfold tri
  rw [show (l + 1) * (l + 1 + 1) = l * (l + 1) + (l + 1) * 2 by ring, Nat.add_mul_div_right _ _ (by norm_num)]
  ring

theorem tri_zero : tri 0 = 0 := rfl

theorem tri_mono {l l' : ℕ} (h : l ≤ l') : tri l ≤ tri l' := by
  induction h with
  | refl => exact le_rfl
  | step _ ih => rw [tri_succ]; omega

theorem idx_inj {l m l' m' : ℕ} (h : m ≤ l) (h' : m' ≤ l') (e : tri l + m = tri l' + m') :
    l = l' ∧ m = m' := by
  rcases Nat.lt_trichotomy l l' with c | c | c
  · have := tri_mono (show l + 1 ≤ l' from c)
    rw [tri_succ] at this; omega
  · subst c; exact ⟨rfl, by omega⟩
  · have := tri_mono (show l' + 1 ≤ l from c)
    rw [tri_succ] at this; omega

theorem set1_idx (p : ℕ → ℝ) (v : ℝ) {l m l' m' : ℕ} (h : m ≤ l) (h' : m' ≤ l') :
    set1 p (tri l + m) v (tri l' + m') = if l' = l ∧ m' = m then v else p (tri l' + m') := by
  unfold set1
  by_cases c : l' = l ∧ m' = m
  · rw [if_pos c, if_pos (by rw [c.1, c.2])]
  · rw [if_neg c, if_neg]
    intro e
    exact c (idx_inj h' h e)

/-! ## prefactors -/

theorem hf1_eq (l m : ℕ) (h : m + 2 ≤ l) : hf1 l m = alm l m := by
  obtain ⟨j, rfl⟩ : ∃ j, l = m + j + 2 := ⟨l - m - 2, by omega⟩
  unfold hf1 alm
  have h1 : (0 : ℝ) ≤ 2 * ((m + j + 2 : ℕ) : ℝ) - 1 := by
    push_cast; linarith [(m.cast_nonneg : (0:ℝ) ≤ m), (j.cast_nonneg : (0:ℝ) ≤ j)]
  by_cases hm : m = 0
  · subst hm
    rw [if_pos rfl, Real.sqrt_div (by positivity), Real.sqrt_mul h1]
    congr 1
    rw [eq_comm]
    simp only [CharP.cast_eq_zero, sub_zero, add_zero]
    exact Real.sqrt_mul_self (by positivity)
  · rw [if_neg hm, Real.sqrt_div (by positivity), Real.sqrt_mul h1, Real.sqrt_mul (by push_cast; linarith [(j.cast_nonneg : (0:ℝ) ≤ j)]),
      mul_comm (Real.sqrt (2 * ((m + j + 2 : ℕ) : ℝ) + 1)), mul_comm (Real.sqrt (((m + j + 2 : ℕ) : ℝ) + m))]

theorem hf2_eq (l m : ℕ) (h : m + 2 ≤ l) : hf2 l m = blm l m := by
  obtain ⟨j, rfl⟩ : ∃ j, l = m + j + 2 := ⟨l - m - 2, by omega⟩
  unfold hf2 blm
  have hm0 := (m.cast_nonneg : (0:ℝ) ≤ m)
  have hj0 := (j.cast_nonneg : (0:ℝ) ≤ j)
  have h1 : (0 : ℝ) ≤ ((m + j + 2 : ℕ) : ℝ) - m := by push_cast; linarith
  have h2 : (0 : ℝ) ≤ ((m + j + 2 : ℕ) : ℝ) - m - 1 := by push_cast; linarith
  have h3 : (0 : ℝ) ≤ ((m + j + 2 : ℕ) : ℝ) + m - 1 := by push_cast; linarith
  have h4 : (0 : ℝ) ≤ 2 * ((m + j + 2 : ℕ) : ℝ) - 3 := by push_cast; linarith
  by_cases hm : m = 0
  · subst hm
    rw [if_pos rfl, Real.sqrt_div (by positivity), Real.sqrt_mul (by positivity),
      Real.sqrt_mul (by positivity), Real.sqrt_mul (by positivity)]
    simp only [CharP.cast_eq_zero, sub_zero, add_zero] at *
    rw [Real.sqrt_mul_self (by positivity), mul_assoc, Real.mul_self_sqrt h2, mul_comm _ (Real.sqrt _)]
    rw [mul_comm (Real.sqrt (2 * ((0 + j + 2 : ℕ) : ℝ) - 3))]
  · rw [if_neg hm, Real.sqrt_div (by positivity), Real.sqrt_mul (by positivity),
      Real.sqrt_mul (by positivity), Real.sqrt_mul (by positivity), Real.sqrt_mul (by positivity)]
    congr 1 <;> ring

def FGood (L : ℕ) (s : FS) : Prop :=
  s.k + 1 = tri L ∧ ∀ l m, 2 ≤ l → l < L → m + 2 ≤ l →
    s.f1 (tri l + m) = hf1 l m ∧ s.f2 (tri l + m) = hf2 l m

theorem fOuter_good (L : ℕ) (hL : 2 ≤ L) (s : FS) (h : FGood L s) : FGood (L + 1) (fOuter s L) := by
  obtain ⟨hk, hf⟩ := h
  have h1 : ∀ n, n + 2 ≤ L →
      let t := (List.range' 1 n).foldl (fInner L) (fInner L s 0)
      t.k = tri L + n ∧ ∀ l m, 2 ≤ l → m + 2 ≤ l → (l < L ∨ (l = L ∧ m ≤ n)) →
        t.f1 (tri l + m) = hf1 l m ∧ t.f2 (tri l + m) = hf2 l m := by
    intro n
    induction n with
    | zero =>
      intro _
      refine ⟨hk, ?_⟩
      intro l m h2 hm hl
      have e0 : s.k + 1 = tri L + 0 := hk
      simp only [List.range'_zero, List.foldl_nil, fInner, e0]
      rw [set1_idx _ _ (by omega) (by omega), set1_idx _ _ (by omega) (by omega)]
      by_cases c : l = L ∧ m = 0
      · rw [if_pos c, if_pos c, c.1, c.2]; exact ⟨rfl, rfl⟩
      · rw [if_neg c, if_neg c]; exact hf l m h2 (by omega) hm
    | succ n ih =>
      intro hn
      obtain ⟨ik, ih⟩ := ih (by omega)
      rw [List.range'_concat, List.foldl_append]
      set t := (List.range' 1 n).foldl (fInner L) (fInner L s 0)
      have e0 : t.k + 1 = tri L + (1 + 1 * n) := by rw [ik]; ring
      refine ⟨?_, ?_⟩
      · show t.k + 1 = _
        rw [e0]; ring
      intro l m h2 hm hl
      simp only [List.foldl_cons, List.foldl_nil, fInner, e0]
      rw [set1_idx _ _ (by omega) (by omega), set1_idx _ _ (by omega) (by omega)]
      by_cases c : l = L ∧ m = 1 + 1 * n
      · rw [if_pos c, if_pos c, c.1, c.2]; exact ⟨rfl, rfl⟩
      · rw [if_neg c, if_neg c]; exact ih l m h2 hm (by omega)
  obtain ⟨k1, f1⟩ := h1 (L - 2) (by omega)
  refine ⟨?_, ?_⟩
  · show _ + 2 + 1 = _
    rw [k1, tri_succ]; omega
  · intro l m h2 hl hm
    exact f1 l m h2 hm (by omega)

theorem fLoop_good (LMAX : ℕ) (h : 1 ≤ LMAX) : FGood (LMAX + 1) (fLoop LMAX) := by
  have : ∀ n, FGood (n + 2) ((List.range' 2 n).foldl fOuter ⟨2, fun _ => 0, fun _ => 0⟩) := by
    intro n
    induction n with
    | zero => exact ⟨rfl, fun l m h1 h2 => by omega⟩
    | succ n ih =>
      rw [List.range'_concat, List.foldl_append, Nat.mul_comm, Nat.mul_one, Nat.add_comm 2 n]
      exact fOuter_good (n + 2) (by omega) _ ih
  have := this (LMAX - 1)
  rwa [show LMAX - 1 + 2 = LMAX + 1 by omega] at this

theorem fLoop_alm (LMAX l m : ℕ) (hl : l ≤ LMAX) (hm : m + 2 ≤ l) :
    (fLoop LMAX).f1 (tri l + m) = alm l m ∧ (fLoop LMAX).f2 (tri l + m) = blm l m := by
  have := (fLoop_good LMAX (by omega)).2 l m (by omega) (by omega) hm
  rw [this.1, this.2, hf1_eq l m hm, hf2_eq l m hm]
  exact ⟨rfl, rfl⟩

/-! ## functions -/

theorem Plm_pow (l m : ℕ) (x u : ℝ) : Plm l m x u = u ^ m * Plm l m x 1 := by
  unfold Plm; rw [one_pow]; ring

theorem Plm_order_zero (l : ℕ) (x u : ℝ) : Plm l 0 x u = Plm l 0 x 1 := by
  rw [Plm_pow]; simp

theorem idx_pred (l m : ℕ) (h : 1 ≤ l) : tri l + m - l = tri (l - 1) + m := by
  obtain ⟨k, rfl⟩ : ∃ k, l = k + 1 := ⟨l - 1, by omega⟩
  rw [tri_succ]; simp; omega

theorem idx_pred2 (l m : ℕ) (h : 2 ≤ l) : tri l + m + 1 - 2 * l = tri (l - 2) + m := by
  obtain ⟨k, rfl⟩ : ∃ k, l = k + 2 := ⟨l - 2, by omega⟩
  rw [tri_succ, tri_succ]; simp; omega

theorem hZonal_good (LMAX : ℕ) (x : ℝ) (l : ℕ) (hl : l ≤ LMAX) (hL : 1 ≤ LMAX) :
    (hZonal (fLoop LMAX) LMAX x).p (tri l) = Plm l 0 x 1 := by
  unfold hZonal
  have : ∀ n, n + 1 ≤ LMAX → ∃ t, (List.range' 2 n).foldl (hZStep (fLoop LMAX) x)
      ⟨1, set1 (set1 (fun _ => 0) 0 1) 1 (Real.sqrt 3 * x)⟩ = t ∧
      t.k = tri (n + 1) ∧ ∀ l ≤ n + 1, t.p (tri l + 0) = Plm l 0 x 1 := by
    intro n
    induction n with
    | zero =>
      intro _
      refine ⟨_, rfl, rfl, ?_⟩
      intro l hl
      rcases l with _ | _ | l
      · simp [set1, tri, Plm_zero_zero]
      · simp [set1, tri, Plm_one_zero]
      · omega
    | succ n ih =>
      intro hn
      obtain ⟨t, ht, ik, ih⟩ := ih (by omega)
      rw [List.range'_concat, List.foldl_append, ht]
      have e0 : t.k + (2 + 1 * n) = tri (n + 2) + 0 := by
        rw [ik, tri_succ (n + 1)]; ring
      have ha := fLoop_alm LMAX (n + 2) 0 (by omega) (by omega)
      have hr := colRec x 1 (n + 2) 0 (by omega) (by omega)
      refine ⟨_, rfl, ?_, ?_⟩
      · show t.k + (2 + 1 * n) = _
        rw [e0]; rfl
      intro l hl
      simp only [List.foldl_cons, List.foldl_nil, hZStep, e0]
      rw [set1_idx _ _ (by omega) (by omega)]
      by_cases c : l = n + 2 ∧ 0 = 0
      · rw [if_pos c, show 2 + 1 * n = n + 2 by ring, idx_pred (n + 2) 0 (by omega), idx_pred2 (n + 2) 0 (by omega),
          ha.1, ha.2, ih _ (by omega), ih _ (by omega), hr, c.1]
      · rw [if_neg c]; exact ih l (by omega)
  obtain ⟨t, ht, _, h⟩ := this (LMAX - 1) (by omega)
  rw [ht]
  exact h l (by omega)

/-- state of the inner loop before degree `L` -/
def InnerGood (scalef x u : ℝ) (p0 : ℕ → ℝ) (m L : ℕ) (s : HS) : Prop :=
  s.k = tri (L - 1) + m ∧
  (∀ l, m ≤ l → l < L → s.p (tri l + m) =
    if l + 3 ≤ L then Plm l m x u else scalef * Plm l m x 1) ∧
  ∀ l m', m' ≤ l → m' ≠ m → s.p (tri l + m') = p0 (tri l + m')

theorem hInner_good (scalef x u : ℝ) (hs : scalef ≠ 0) (p0 : ℕ → ℝ) (LMAX m L : ℕ) (hm : 1 ≤ m)
    (hL : m + 2 ≤ L) (hLM : L ≤ LMAX) (s : HS) (h : InnerGood scalef x u p0 m L s) :
    InnerGood scalef x u p0 m (L + 1) (hInner (fLoop LMAX) x (u ^ m / scalef) s L) := by
  obtain ⟨hk, h1, h2⟩ := h
  have e0 : s.k + L = tri L + m := by
    rw [hk]
    obtain ⟨k, rfl⟩ : ∃ k, L = k + 1 := ⟨L - 1, by omega⟩
    rw [tri_succ, Nat.add_sub_cancel]; ring
  have ha := fLoop_alm LMAX L m hLM hL
  have hr := colRec x 1 L m (by omega) (by omega)
  refine ⟨e0, ?_, ?_⟩
  · intro l hl1 hl2
    unfold hInner
    simp only [e0]
    rw [idx_pred _ _ (by omega), idx_pred2 _ _ (by omega), ha.1, ha.2, h1 (L - 1) (by omega) (by omega),
      h1 (L - 2) (by omega) (by omega), if_neg (by omega), if_neg (by omega),
      set1_idx _ _ (by omega) (by omega), set1_idx _ _ (by omega) (by omega),
      set1_idx _ _ (by omega) (by omega)]
    by_cases c : l = L - 2 ∧ m = m
    · rw [if_pos c, if_neg (by omega), if_pos (by omega), h1 _ (by omega) (by omega), if_neg (by omega), c.1,
        Plm_pow (L - 2) m x u]
      field_simp
    · rw [if_neg c]
      by_cases c2 : l = L ∧ m = m
      · rw [if_pos c2, if_neg (by omega), c2.1]
        linear_combination scalef * hr
      · rw [if_neg c2, h1 l hl1 (by omega)]
        by_cases c3 : l + 3 ≤ L
        · rw [if_pos c3, if_pos (by omega)]
        · rw [if_neg c3, if_neg (by omega)]
  · intro l m' hl hne
    unfold hInner
    simp only [e0]
    rw [idx_pred2 _ _ (by omega), set1_idx _ _ (by omega) (by omega), if_neg (by omega),
      set1_idx _ _ (by omega) (by omega), if_neg (by omega)]
    exact h2 l m' hl hne

/-- state before order `M` -/
def HGood (scalef x u : ℝ) (LMAX M : ℕ) (s : HM) : Prop :=
  s.kstart = tri (M - 1) + (M - 1) ∧
  s.rescalem = u ^ (M - 1) / scalef ∧
  s.pmm = scalef * (if M = 1 then Real.sqrt 2 else Plm (M - 1) (M - 1) x 1) ∧
  ∀ l m, m ≤ l → l ≤ LMAX → m < M → s.p (tri l + m) = Plm l m x u

theorem pmm_step (scalef x : ℝ) (M : ℕ) (hM : 1 ≤ M) :
    scalef * (if M = 1 then Real.sqrt 2 else Plm (M - 1) (M - 1) x 1) * Real.sqrt (2 * M + 1) /
      Real.sqrt (2 * M) = scalef * Plm M M x 1 := by
  by_cases c : M = 1
  · subst c
    rw [if_pos rfl, Plm_one_one]
    have : Real.sqrt 2 ≠ 0 := by positivity
    norm_num
    field_simp
  · obtain ⟨k, rfl⟩ : ∃ k, M = k + 1 := ⟨M - 1, by omega⟩
    rw [if_neg c, Nat.add_sub_cancel, Plm_sectoral k (by omega), Real.sqrt_div (by positivity)]
    ring

theorem hOuter_good (scalef x u : ℝ) (hs : scalef ≠ 0) (LMAX M : ℕ) (hM : 1 ≤ M) (hML : M < LMAX)
    (s : HM) (h : HGood scalef x u LMAX M s) :
    HGood scalef x u LMAX (M + 1) (hOuter (fLoop LMAX) LMAX x u s M) := by
  obtain ⟨hk, hr, hp, hv⟩ := h
  have e0 : s.kstart + (M + 1) = tri M + M := by
    rw [hk]
    obtain ⟨k, rfl⟩ : ∃ k, M = k + 1 := ⟨M - 1, by omega⟩
    rw [tri_succ, Nat.add_sub_cancel]; ring
  have e1 : s.rescalem * u = u ^ M / scalef := by
    rw [hr]
    obtain ⟨k, rfl⟩ : ∃ k, M = k + 1 := ⟨M - 1, by omega⟩
    rw [Nat.add_sub_cancel, pow_succ]; ring
  have e2 : s.pmm * Real.sqrt (2 * M + 1) / Real.sqrt (2 * M) = scalef * Plm M M x 1 := by
    rw [hp]; exact pmm_step scalef x M hM
  have e3 : tri M + M + M + 1 = tri (M + 1) + M := by rw [tri_succ]; ring
  have hin : ∀ n, n + (M + 1) ≤ LMAX → InnerGood scalef x u s.p M (n + (M + 2))
      ((List.range' (M + 2) n).foldl (hInner (fLoop LMAX) x (u ^ M / scalef))
        ⟨tri (M + 1) + M, set1 (set1 s.p (tri M + M) (scalef * Plm M M x 1)) (tri (M + 1) + M)
          (x * Real.sqrt (2 * M + 3) * (scalef * Plm M M x 1))⟩) := by
    intro n
    induction n with
    | zero =>
      intro _
      refine ⟨by simp, ?_, ?_⟩
      · intro l h1 h2
        simp only [List.range'_zero, List.foldl_nil]
        rw [set1_idx _ _ (by omega) (by omega), set1_idx _ _ (by omega) (by omega)]
        by_cases c : l = M + 1 ∧ M = M
        · rw [if_pos c, if_neg (by omega), c.1, Plm_sub]; ring
        · rw [if_neg c, if_pos (by omega), if_neg (by omega), show l = M by omega]
      · intro l m' h1 h2
        simp only [List.range'_zero, List.foldl_nil]
        rw [set1_idx _ _ (by omega) (by omega), if_neg (by omega), set1_idx _ _ (by omega) (by omega),
          if_neg (by omega)]
    | succ n ih =>
      intro hn
      rw [List.range'_concat, List.foldl_append, Nat.one_mul]
      have := hInner_good scalef x u hs s.p LMAX M (n + (M + 2)) hM (by omega) (by omega) _ (ih (by omega))
      rw [show n + 1 + (M + 2) = n + (M + 2) + 1 by ring, show M + 2 + n = n + (M + 2) by ring]
      exact this
  have hfin := hin (LMAX - (M + 1)) (by omega)
  rw [show LMAX - (M + 1) + (M + 2) = LMAX + 1 by omega] at hfin
  unfold hOuter
  simp only [e0, e1, e2, e3]
  set t := (List.range' (M + 2) (LMAX - (M + 1))).foldl (hInner (fLoop LMAX) x (u ^ M / scalef)) _
  obtain ⟨tk, t1, t2⟩ := hfin
  rw [Nat.add_sub_cancel] at tk
  refine ⟨by simp, by simp, ?_, ?_⟩
  · rw [if_neg (by omega)]; simp
  · intro l m hml hl hm
    simp only [tk]
    rw [idx_pred _ _ (by omega), set1_idx _ _ (by omega) (by omega), set1_idx _ _ (by omega) (by omega),
      set1_idx _ _ (by omega) (by omega)]
    by_cases c : m = M
    · subst c
      have hpow := Plm_pow l m x u
      by_cases c1 : l = LMAX - 1 ∧ m = m
      · rw [if_pos c1, if_neg (by omega), ← c1.1, t1 _ (by omega) (by omega), if_neg (by omega), hpow]
        field_simp
      · rw [if_neg c1]
        by_cases c2 : l = LMAX ∧ m = m
        · rw [if_pos c2, ← c2.1, t1 _ (by omega) (by omega), if_neg (by omega), hpow]
          field_simp
        · rw [if_neg c2, t1 _ (by omega) (by omega), if_pos (by omega)]
    · rw [if_neg (by omega), if_neg (by omega), t2 l m hml c]
      exact hv l m hml hl (by omega)

/-- `plm_holmes` in closed form -/
theorem holmes_closed (eps scalef : ℝ) (hs : scalef ≠ 0) (LMAX : ℕ) (hL : 2 ≤ LMAX) (x : ℝ) :
    ∃ s, holmes eps scalef LMAX x = some s ∧ Good x (codeU eps x) (LMAX + 1) 0 s := by
  refine ⟨_, if_neg (by omega), ?_⟩
  set u := codeU eps x
  have h : ∀ n, n + 1 ≤ LMAX → HGood scalef x u LMAX (n + 1) ((List.range' 1 n).foldl
      (hOuter (fLoop LMAX) LMAX x u)
      ⟨(hZonal (fLoop LMAX) LMAX x).p, Real.sqrt 2 * scalef, 1 / scalef, 0⟩) := by
    intro n
    induction n with
    | zero =>
      intro _
      refine ⟨rfl, by simp, ?_, ?_⟩
      · simp only [List.range'_zero, List.foldl_nil, if_true]; ring
      · intro l m h1 h2 h3
        obtain rfl : m = 0 := by omega
        rw [Plm_order_zero]
        exact hZonal_good LMAX x l h2 (by omega)
    | succ n ih =>
      intro hn
      rw [List.range'_concat, List.foldl_append, Nat.one_mul, Nat.add_comm 1 n]
      exact hOuter_good scalef x u hs LMAX (n + 1) (by omega) (by omega) _ (ih (by omega))
  have hf := h (LMAX - 1) (by omega)
  rw [show LMAX - 1 + 1 = LMAX by omega] at hf
  set t := (List.range' 1 (LMAX - 1)).foldl (hOuter (fLoop LMAX) LMAX x u) _
  obtain ⟨hk, hr, hp, hv⟩ := hf
  have e0 : t.kstart + (LMAX - 1 + 2) = tri LMAX + LMAX := by
    rw [hk]
    obtain ⟨k, rfl⟩ : ∃ k, LMAX = k + 1 := ⟨LMAX - 1, by omega⟩
    rw [tri_succ, Nat.add_sub_cancel]; ring
  have e1 : t.rescalem * u = u ^ LMAX / scalef := by
    rw [hr]
    obtain ⟨k, rfl⟩ : ∃ k, LMAX = k + 1 := ⟨LMAX - 1, by omega⟩
    rw [Nat.add_sub_cancel, pow_succ]; ring
  have e2 : t.pmm * Real.sqrt (2 * LMAX + 1) / Real.sqrt (2 * LMAX) = scalef * Plm LMAX LMAX x 1 := by
    rw [hp]; exact pmm_step scalef x LMAX (by omega)
  have hval : ∀ l m, m ≤ l → l ≤ LMAX →
      set1 t.p (tri LMAX + LMAX) (scalef * Plm LMAX LMAX x 1 * (u ^ LMAX / scalef)) (tri l + m) = Plm l m x u := by
    intro l m h1 h2
    rw [set1_idx _ _ le_rfl h1]
    by_cases c : l = LMAX ∧ m = LMAX
    · rw [if_pos c, c.1, c.2, Plm_pow LMAX LMAX x u]; field_simp
    · rw [if_neg c]; exact hv l m h1 h2 (by omega)
  intro l m
  have e : (l < LMAX + 1 ∨ (l = LMAX + 1 ∧ m < 0)) ↔ l ≤ LMAX := by omega
  simp only [e, e0, e1, e2]
  by_cases c : m ≤ l ∧ l ≤ LMAX
  · rw [if_pos c, if_pos c, if_pos c.2, if_pos c.2]
    have hv1 := hval l m c.1 c.2
    unfold tri at hv1 ⊢
    rw [hv1]
    refine ⟨rfl, ?_⟩
    unfold Dlm
    by_cases d : l = m
    · rw [if_pos d, if_neg (by omega), if_pos d]
    · have hv2 := hval (l - 1) m (by omega) (by omega)
      unfold tri at hv2
      rw [if_neg d, if_neg (by omega), if_neg d]
      rw [show (l - 1) * l = (l - 1) * (l - 1 + 1) by rw [show l - 1 + 1 = l by omega], hv2]
  · rw [if_neg c, if_neg c]
    by_cases d : l ≤ LMAX
    · rw [if_pos d, if_pos d, Plm_zero_of_lt l m (by omega), Dlm, if_pos (by omega)]
      exact ⟨rfl, rfl⟩
    · rw [if_neg d, if_neg d]; exact ⟨rfl, rfl⟩

end Verif.Legendre
