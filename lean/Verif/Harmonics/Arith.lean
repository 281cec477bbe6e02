import Verif.Harmonics.Model
import Mathlib.Tactic.FieldSimp

/-!
# C16 arithmetic, C17 truncation, C22 scaling
-/
set_option linter.unusedSectionVars false
namespace Verif.Harmonics
variable {K : Type} [Field K]

/-- The operands fit together: equal numbers of dates, or the second is a single field. -/
def Compatible (a b : Harm K) : Prop :=
  a.WF ∧ (b.nt = a.nt ∨ b.nt = none ∨ (b.nt = some 1 ∧ a.nt ≠ none))

/-- date of the second operand meeting date `t` of the first -/
def partnerDate (a b : Harm K) (t : ℕ) : ℕ := if b.nt = a.nt then t else 0

theorem bound1_lt (a b l : ℕ) : l < bound1 a b ↔ l ≤ a ∧ l ≤ b := by
  unfold bound1; split_ifs <;> omega

/-- C16: `add`, `subtract` and `multiply` act coefficient-wise on the common degrees and orders
and leave every other coefficient, the shape and the dates unchanged. -/
theorem windowed_spec (op : K → K → K) (a b : Harm K) (hc : Compatible a b) :
    ∃ r, windowed op a b = .ok r ∧ r.lmax = a.lmax ∧ r.mmax = a.mmax ∧ r.nt = a.nt ∧
      r.time = a.time ∧ r.month = a.month ∧
      ∀ l m t, t < a.nt.getD 1 →
        r.clm l m t = (if (l ≤ a.lmax ∧ l ≤ b.lmax) ∧ (m ≤ a.mmax ∧ m ≤ b.mmax)
          then op (a.clm l m t) (b.clm l m (partnerDate a b t)) else a.clm l m t) ∧
        r.slm l m t = (if (l ≤ a.lmax ∧ l ≤ b.lmax) ∧ (m ≤ a.mmax ∧ m ≤ b.mmax)
          then op (a.slm l m t) (b.slm l m (partnerDate a b t)) else a.slm l m t) := by
  obtain ⟨⟨wf, -⟩, hc⟩ := hc
  unfold windowed
  simp only
  rcases hn : a.nt with _ | n
  · rcases hc with hc | hc | hc
    · rw [hn] at hc
      simp only [hc]
      refine ⟨_, rfl, rfl, rfl, rfl, rfl, rfl, ?_⟩
      intro l m t _
      simp [windowOp, bound1_lt, partnerDate, hn, hc, and_assoc]
    · simp only [hc]
      refine ⟨_, rfl, rfl, rfl, rfl, rfl, rfl, ?_⟩
      intro l m t _
      simp [windowOp, bound1_lt, partnerDate, hn, hc, and_assoc]
    · exact absurd hn hc.2
  · rw [hn] at wf
    simp only [Option.getD_some] at wf
    rcases hc with hc | hc | ⟨hc, -⟩
    · rw [hn] at hc
      simp only [hc, if_true]
      refine ⟨_, rfl, rfl, rfl, rfl, rfl, rfl, ?_⟩
      intro l m t _
      simp [windowOp, bound1_lt, partnerDate, hn, hc, and_assoc]
    · simp only [hc, wf, le_refl, if_true]
      refine ⟨_, rfl, rfl, rfl, rfl, rfl, rfl, ?_⟩
      intro l m t ht
      simp only [Option.getD_some] at ht
      simp [windowOp, bound1_lt, partnerDate, hn, hc, and_assoc, ht]
    · simp only [hc]
      by_cases h1 : 1 = n
      · subst h1
        rw [if_pos rfl]
        refine ⟨_, rfl, rfl, rfl, rfl, rfl, rfl, ?_⟩
        intro l m t ht
        simp [windowOp, bound1_lt, partnerDate, hn, hc, and_assoc]
      · rw [if_neg h1, if_pos trivial]
        refine ⟨_, rfl, rfl, rfl, rfl, rfl, rfl, ?_⟩
        intro l m t ht
        have : ¬ n = 1 := fun h => h1 h.symm
        simp [windowOp, bound1_lt, partnerDate, hn, hc, and_assoc, h1]

/-- C16: operands with different numbers of dates (neither single), or a single field combined
with several, are rejected. -/
theorem windowed_rejects (op : K → K → K) (a b : Harm K) (n' : ℕ) (hb : b.nt = some n')
    (h : a.nt = none ∨ ∃ n, a.nt = some n ∧ n' ≠ n ∧ n' ≠ 1) :
    windowed op a b = .error .valueError := by
  unfold windowed
  rcases h with h | ⟨n, h, h1, h2⟩
  · simp only [h, hb]
  · simp only [h, hb, if_neg h1, if_neg h2]

/-- two objects agree on all stored entries -/
structure Same (a b : Harm K) : Prop where
  lmax : a.lmax = b.lmax
  mmax : a.mmax = b.mmax
  nt : a.nt = b.nt
  time : a.time = b.time
  month : a.month = b.month
  clm : ∀ l m t, t < a.nt.getD 1 → a.clm l m t = b.clm l m t
  slm : ∀ l m t, t < a.nt.getD 1 → a.slm l m t = b.slm l m t

theorem compatible_of_windowed (op : K → K → K) (a b r : Harm K) (hc : Compatible a b)
    (hr : windowed op a b = .ok r) : Compatible r b := by
  obtain ⟨r', hr', e1, e2, e3, e4, e5, -⟩ := windowed_spec op a b hc
  rw [hr] at hr'
  obtain rfl := Except.ok.inj hr'
  refine ⟨⟨?_, ?_⟩, ?_⟩
  · rw [e3, e4]; exact hc.1.1
  · rw [e3, e5]; exact hc.1.2
  · rw [e3]; exact hc.2

theorem windowed_undo (op op' : K → K → K) (hop : ∀ x y, op' (op x y) y = x) (a b : Harm K)
    (hc : Compatible a b) :
    ∃ r s, windowed op a b = .ok r ∧ windowed op' r b = .ok s ∧ Same s a := by
  obtain ⟨r, hr, e1, e2, e3, e4, e5, e6⟩ := windowed_spec op a b hc
  obtain ⟨s, hs, f1, f2, f3, f4, f5, f6⟩ :=
    windowed_spec op' r b (compatible_of_windowed op a b r hc hr)
  have hp : ∀ t, partnerDate r b t = partnerDate a b t := by
    intro t; unfold partnerDate; rw [e3]
  refine ⟨r, s, hr, hs, f1.trans e1, f2.trans e2, f3.trans e3, f4.trans e4, f5.trans e5, ?_, ?_⟩
  · intro l m t ht
    rw [f3, e3] at ht
    rw [(f6 l m t (by rw [e3]; exact ht)).1, e1, e2, hp, (e6 l m t ht).1]
    split_ifs with h
    · exact hop _ _
    · rfl
  · intro l m t ht
    rw [f3, e3] at ht
    rw [(f6 l m t (by rw [e3]; exact ht)).2, e1, e2, hp, (e6 l m t ht).2]
    split_ifs with h
    · exact hop _ _
    · rfl

/-- C16: subtracting undoes adding. -/
theorem subtract_add (a b : Harm K) (hc : Compatible a b) :
    ∃ r s, add a b = .ok r ∧ subtract r b = .ok s ∧ Same s a :=
  windowed_undo _ _ (fun x y => by ring) a b hc

/-- C16: adding undoes subtracting. -/
theorem add_subtract (a b : Harm K) (hc : Compatible a b) :
    ∃ r s, subtract a b = .ok r ∧ add r b = .ok s ∧ Same s a :=
  windowed_undo _ _ (fun x y => by ring) a b hc

/-- C16: `divide` acts on the lower triangle of the common window only, and never on the
order-zero sine coefficients. -/
theorem divide_spec (a b : Harm K) (hc : Compatible a b) :
    ∃ r, divide a b = .ok r ∧ r.lmax = a.lmax ∧ r.mmax = a.mmax ∧ r.nt = a.nt ∧
      r.time = a.time ∧ r.month = a.month ∧
      ∀ l m t, t < a.nt.getD 1 →
        r.clm l m t = (if (l ≤ a.lmax ∧ l ≤ b.lmax) ∧ (m ≤ a.mmax ∧ m ≤ b.mmax) ∧ m ≤ l
          then a.clm l m t / b.clm l m (partnerDate a b t) else a.clm l m t) ∧
        r.slm l m t = (if (l ≤ a.lmax ∧ l ≤ b.lmax) ∧ (m ≤ a.mmax ∧ m ≤ b.mmax) ∧ m ≤ l ∧ 1 ≤ m
          then a.slm l m t / b.slm l m (partnerDate a b t) else a.slm l m t) := by
  have key : ∀ (τ : ℕ → ℕ) (on : ℕ → Bool) (l m t : ℕ), on t = true → τ t = partnerDate a b t →
      trilDiv true (bound1 a.lmax b.lmax) (bound1 a.mmax b.mmax) τ on a.clm b.clm l m t =
        (if (l ≤ a.lmax ∧ l ≤ b.lmax) ∧ (m ≤ a.mmax ∧ m ≤ b.mmax) ∧ m ≤ l
          then a.clm l m t / b.clm l m (partnerDate a b t) else a.clm l m t) ∧
      trilDiv false (bound1 a.lmax b.lmax) (bound1 a.mmax b.mmax) τ on a.slm b.slm l m t =
        (if (l ≤ a.lmax ∧ l ≤ b.lmax) ∧ (m ≤ a.mmax ∧ m ≤ b.mmax) ∧ m ≤ l ∧ 1 ≤ m
          then a.slm l m t / b.slm l m (partnerDate a b t) else a.slm l m t) := by
    intro τ on l m t hon hτ
    constructor <;> simp only [trilDiv, bound1_lt, hon, hτ, and_true, true_or] <;>
      apply if_congr <;> simp [Nat.one_le_iff_ne_zero] 
  obtain ⟨⟨wf, -⟩, hc⟩ := hc
  unfold divide
  simp only
  rcases hn : a.nt with _ | n
  · rcases hc with hc | hc | hc
    · rw [hn] at hc
      simp only [hc]
      refine ⟨_, rfl, rfl, rfl, rfl, rfl, rfl, fun l m t _ => key id (fun _ => true) l m t rfl ?_⟩
      simp [partnerDate, hn, hc]
    · simp only [hc]
      refine ⟨_, rfl, rfl, rfl, rfl, rfl, rfl, fun l m t _ => key id (fun _ => true) l m t rfl ?_⟩
      simp [partnerDate, hn, hc]
    · exact absurd hn hc.2
  · rw [hn] at wf
    simp only [Option.getD_some] at wf
    rcases hc with hc | hc | ⟨hc, -⟩
    · rw [hn] at hc
      simp only [hc, if_true]
      refine ⟨_, rfl, rfl, rfl, rfl, rfl, rfl, fun l m t _ => key id (fun _ => true) l m t rfl ?_⟩
      simp [partnerDate, hn, hc]
    · simp only [hc, wf, le_refl, if_true]
      refine ⟨_, rfl, rfl, rfl, rfl, rfl, rfl, fun l m t ht => key (fun _ => 0) (fun t => decide (t < n)) l m t ?_ ?_⟩
      · simpa using ht
      · simp [partnerDate, hn, hc]
    · simp only [hc]
      by_cases h1 : 1 = n
      · subst h1
        rw [if_pos rfl]
        refine ⟨_, rfl, rfl, rfl, rfl, rfl, rfl, fun l m t _ => key id (fun _ => true) l m t rfl ?_⟩
        simp [partnerDate, hn, hc]
      · rw [if_neg h1, if_pos trivial]
        refine ⟨_, rfl, rfl, rfl, rfl, rfl, rfl, fun l m t _ => key (fun _ => 0) (fun _ => true) l m t rfl ?_⟩
        simp [partnerDate, hn, hc, h1]

/-- C16: dividing undoes multiplying for the cosine coefficients of the lower triangle and the
sine coefficients of order at least one, wherever the divisor is not zero. -/
theorem divide_multiply (a b : Harm K) (hc : Compatible a b) :
    ∃ r s, multiply a b = .ok r ∧ divide r b = .ok s ∧
      s.lmax = a.lmax ∧ s.mmax = a.mmax ∧ s.nt = a.nt ∧
      ∀ l m t, t < a.nt.getD 1 → m ≤ l →
        (b.clm l m (partnerDate a b t) ≠ 0 → s.clm l m t = a.clm l m t) ∧
        (1 ≤ m → b.slm l m (partnerDate a b t) ≠ 0 → s.slm l m t = a.slm l m t) := by
  obtain ⟨r, hr, e1, e2, e3, e4, e5, e6⟩ := windowed_spec (· * ·) a b hc
  obtain ⟨s, hs, f1, f2, f3, f4, f5, f6⟩ :=
    divide_spec r b (compatible_of_windowed _ a b r hc hr)
  have hp : ∀ t, partnerDate r b t = partnerDate a b t := by
    intro t; unfold partnerDate; rw [e3]
  refine ⟨r, s, hr, hs, f1.trans e1, f2.trans e2, f3.trans e3, ?_⟩
  intro l m t ht hlm
  constructor
  · intro hb
    rw [(f6 l m t (by rw [e3]; exact ht)).1, e1, e2, hp, (e6 l m t ht).1]
    by_cases h : (l ≤ a.lmax ∧ l ≤ b.lmax) ∧ (m ≤ a.mmax ∧ m ≤ b.mmax)
    · rw [if_pos ⟨h.1, h.2, hlm⟩, if_pos h]; field_simp
    · rw [if_neg (fun hh => h ⟨hh.1, hh.2.1⟩), if_neg h]
  · intro hm hb
    rw [(f6 l m t (by rw [e3]; exact ht)).2, e1, e2, hp, (e6 l m t ht).2]
    by_cases h : (l ≤ a.lmax ∧ l ≤ b.lmax) ∧ (m ≤ a.mmax ∧ m ≤ b.mmax)
    · rw [if_pos ⟨h.1, h.2, hlm, hm⟩, if_pos h]; field_simp
    · rw [if_neg (fun hh => h ⟨hh.1, hh.2.1⟩), if_neg h]

-- hypotheses: a series of two dates (degree 3) and a single field (degree 2)
example : Compatible (K := ℚ) ⟨3, 3, some 2, fun l _ _ => l, fun _ _ _ => 0, [2002, 2003], [1, 13]⟩
    ⟨2, 2, none, fun _ m _ => m + 1, fun _ _ _ => 1, [0], [0]⟩ :=
  ⟨⟨rfl, rfl⟩, Or.inr (Or.inl rfl)⟩

/-! ## C17 truncate -/

/-- maximum order after `truncate` -/
def truncOrder (L : ℕ) (mmax : Option ℕ) : ℕ := if mmax.getD L ≠ 0 then mmax.getD L else L

/-- C17: `truncate` keeps exactly the window `lmin ≤ l ≤ lmax`, `m ≤ mmax` of the stored
coefficients, fills with zeros when enlarging, and keeps the dates. -/
theorem truncate_spec (h : Harm K) (L lmin : ℕ) (M : ℕ) (hM : M ≠ 0) :
    let r := truncate h (some L) lmin (some M)
    r.lmax = L ∧ r.mmax = M ∧ r.nt = h.nt ∧ r.time = h.time ∧ r.month = h.month ∧
    ∀ l m t,
      r.clm l m t = (if lmin ≤ l ∧ (l ≤ L ∧ l ≤ h.lmax) ∧ (m ≤ M ∧ m ≤ h.mmax)
        then h.clm l m t else 0) ∧
      r.slm l m t = (if lmin ≤ l ∧ (l ≤ L ∧ l ≤ h.lmax) ∧ (m ≤ M ∧ m ≤ h.mmax)
        then h.slm l m t else 0) := by
  refine ⟨rfl, by simp [truncate, hM], rfl, rfl, rfl, ?_⟩
  intro l m t
  simp [truncate, bound1_lt, hM]

/-- C17: without an order the maximum order becomes the new maximum degree. -/
theorem truncate_default (h : Harm K) (L lmin : ℕ) :
    truncate h (some L) lmin none = truncate h (some L) lmin (some L) := by
  simp [truncate]

/-- C17 (deviation): a requested maximum order 0 (zonal terms only) is ignored: it gives the
same object as requesting all orders up to the new degree. -/
theorem truncate_order_zero (h : Harm K) (lmax : Option ℕ) (lmin : ℕ) :
    truncate h lmax lmin (some 0) = truncate h lmax lmin none := by
  simp only [truncate, Option.getD_some, Option.getD_none]
  split_ifs <;> simp_all

/-- C17: truncating twice keeps the intersection of both windows. -/
theorem truncate_truncate (h : Harm K) (L1 n1 M1 L2 n2 M2 : ℕ) (h1 : M1 ≠ 0) (h2 : M2 ≠ 0)
    (l m t : ℕ) :
    let r := truncate (truncate h (some L1) n1 (some M1)) (some L2) n2 (some M2)
    r.lmax = L2 ∧ r.mmax = M2 ∧
    r.clm l m t = (if max n1 n2 ≤ l ∧ l ≤ min (min L1 L2) h.lmax ∧ m ≤ min (min M1 M2) h.mmax
      then h.clm l m t else 0) ∧
    r.slm l m t = (if max n1 n2 ≤ l ∧ l ≤ min (min L1 L2) h.lmax ∧ m ≤ min (min M1 M2) h.mmax
      then h.slm l m t else 0) := by
  have a := truncate_spec h L1 n1 M1 h1
  have b := truncate_spec (truncate h (some L1) n1 (some M1)) L2 n2 M2 h2
  simp only at a b ⊢
  refine ⟨b.1, b.2.1, ?_, ?_⟩
  · rw [(b.2.2.2.2.2 l m t).1, a.1, a.2.1, (a.2.2.2.2.2 l m t).1]
    simp only [max_le_iff, le_min_iff]
    split_ifs <;> first | rfl | (exfalso; omega)
  · rw [(b.2.2.2.2.2 l m t).2, a.1, a.2.1, (a.2.2.2.2.2 l m t).2]
    simp only [max_le_iff, le_min_iff]
    split_ifs <;> first | rfl | (exfalso; omega)

/-- C17: truncation commutes with scaling. -/
theorem truncate_scale (h : Harm K) (lmax : Option ℕ) (lmin : ℕ) (mmax : Option ℕ) (v : K) :
    truncate (scale h v) lmax lmin mmax = scale (truncate h lmax lmin mmax) v := by
  simp only [truncate, scale, Harm.mk.injEq, true_and, and_true]
  refine ⟨rfl, ?_, ?_⟩ <;> (funext l m t; simp only [mul_ite, mul_zero]; congr)

/-- C17: truncation (not enlarging the first operand) commutes with addition and subtraction. -/
theorem truncate_windowed (op : K → K → K) (h0 : ∀ x, op x 0 = x) (a b r : Harm K)
    (hc : Compatible a b) (hr : windowed op a b = .ok r) (L lmin M : ℕ) (hM : M ≠ 0)
    (hL : L ≤ a.lmax) (hM' : M ≤ a.mmax) :
    ∃ s, windowed op (truncate a (some L) lmin (some M)) (truncate b (some L) lmin (some M)) = .ok s ∧
      Same (truncate r (some L) lmin (some M)) s := by
  obtain ⟨r', hr', e1, e2, e3, e4, e5, e6⟩ := windowed_spec op a b hc
  rw [hr] at hr'
  obtain rfl := Except.ok.inj hr'
  have ta := truncate_spec a L lmin M hM
  have tb := truncate_spec b L lmin M hM
  have tr := truncate_spec r L lmin M hM
  simp only at ta tb tr
  set A := truncate a (some L) lmin (some M)
  set B := truncate b (some L) lmin (some M)
  set R := truncate r (some L) lmin (some M)
  obtain ⟨a1, a2, a3, a4, a5, a6⟩ := ta
  obtain ⟨b1, b2, b3, b4, b5, b6⟩ := tb
  obtain ⟨r1, r2, r3, r4, r5, r6⟩ := tr
  have hc' : Compatible A B := by
    refine ⟨⟨by rw [a3, a4]; exact hc.1.1, by rw [a3, a5]; exact hc.1.2⟩, ?_⟩
    rw [a3, b3]; exact hc.2
  obtain ⟨s, hs, s1, s2, s3, s4, s5, s6⟩ := windowed_spec op A B hc'
  have hp : ∀ t, partnerDate A B t = partnerDate a b t := by
    intro t; unfold partnerDate; rw [a3, b3]
  refine ⟨s, hs, by omega, by omega, by rw [r3, e3, s3, a3], by rw [r4, e4, s4, a4],
    by rw [r5, e5, s5, a5], ?_, ?_⟩
  · intro l m t ht
    rw [r3, e3] at ht
    rw [(r6 l m t).1, (s6 l m t (by rw [a3]; exact ht)).1, a1, a2, b1, b2, hp, (a6 l m t).1,
      (b6 l m (partnerDate a b t)).1, (e6 l m t ht).1, e1, e2]
    by_cases hw : lmin ≤ l ∧ l ≤ L ∧ m ≤ M
    · have c1 : lmin ≤ l ∧ (l ≤ L ∧ l ≤ a.lmax) ∧ m ≤ M ∧ m ≤ a.mmax := by omega
      have c2 : (l ≤ L ∧ l ≤ L) ∧ m ≤ M ∧ m ≤ M := by omega
      rw [if_pos c1, if_pos c2, if_pos c1]
      by_cases hb : l ≤ b.lmax ∧ m ≤ b.mmax
      · rw [if_pos (by omega), if_pos (by omega)]
      · rw [if_neg (by omega), if_neg (by omega), h0]
    · rw [if_neg (by omega)]
      by_cases hl : lmin ≤ l
      · rw [if_neg (show ¬((l ≤ L ∧ l ≤ L) ∧ m ≤ M ∧ m ≤ M) by omega), if_neg (by omega)]
      · rw [if_neg (show ¬(lmin ≤ l ∧ (l ≤ L ∧ l ≤ a.lmax) ∧ m ≤ M ∧ m ≤ a.mmax) by omega),
          if_neg (show ¬(lmin ≤ l ∧ (l ≤ L ∧ l ≤ b.lmax) ∧ m ≤ M ∧ m ≤ b.mmax) by omega), h0, ite_self]
  · intro l m t ht
    rw [r3, e3] at ht
    rw [(r6 l m t).2, (s6 l m t (by rw [a3]; exact ht)).2, a1, a2, b1, b2, hp, (a6 l m t).2,
      (b6 l m (partnerDate a b t)).2, (e6 l m t ht).2, e1, e2]
    by_cases hw : lmin ≤ l ∧ l ≤ L ∧ m ≤ M
    · have c1 : lmin ≤ l ∧ (l ≤ L ∧ l ≤ a.lmax) ∧ m ≤ M ∧ m ≤ a.mmax := by omega
      have c2 : (l ≤ L ∧ l ≤ L) ∧ m ≤ M ∧ m ≤ M := by omega
      rw [if_pos c1, if_pos c2, if_pos c1]
      by_cases hb : l ≤ b.lmax ∧ m ≤ b.mmax
      · rw [if_pos (by omega), if_pos (by omega)]
      · rw [if_neg (by omega), if_neg (by omega), h0]
    · rw [if_neg (by omega)]
      by_cases hl : lmin ≤ l
      · rw [if_neg (show ¬((l ≤ L ∧ l ≤ L) ∧ m ≤ M ∧ m ≤ M) by omega), if_neg (by omega)]
      · rw [if_neg (show ¬(lmin ≤ l ∧ (l ≤ L ∧ l ≤ a.lmax) ∧ m ≤ M ∧ m ≤ a.mmax) by omega),
          if_neg (show ¬(lmin ≤ l ∧ (l ≤ L ∧ l ≤ b.lmax) ∧ m ≤ M ∧ m ≤ b.mmax) by omega), h0, ite_self]

/-! ## C22 scale, drift, convolve -/

/-- C22: scaling twice is scaling by the product, scaling by 1 is the identity. -/
theorem scale_scale (h : Harm K) (v w : K) :
    scale (scale h v) w = scale h (w * v) ∧ scale h 1 = h := by
  constructor <;> simp [scale, mul_assoc]

/-- C22: every coefficient is multiplied by the factor; dates and shape are kept. -/
theorem scale_spec (h : Harm K) (v : K) (l m t : ℕ) :
    (scale h v).clm l m t = v * h.clm l m t ∧ (scale h v).slm l m t = v * h.slm l m t ∧
    (scale h v).lmax = h.lmax ∧ (scale h v).mmax = h.mmax ∧ (scale h v).nt = h.nt ∧
    (scale h v).time = h.time ∧ (scale h v).month = h.month := ⟨rfl, rfl, rfl, rfl, rfl, rfl, rfl⟩

/-- C22: a vector of factors turns a single field into a series, one factor per date. -/
theorem scaleVec_single (h : Harm K) (hn : h.nt = none) (v : List K) :
    ∃ r, scaleVec h v = .ok r ∧ r.nt = some v.length ∧ ∀ l m t (ht : t < v.length),
      r.clm l m t = v[t] * h.clm l m 0 ∧ r.slm l m t = v[t] * h.slm l m 0 := by
  unfold scaleVec
  rw [hn]
  refine ⟨_, rfl, rfl, ?_⟩
  intro l m t ht
  simp [ht]

/-- C22 (deviation): a vector of factors on a time series raises `TypeError`. -/
theorem scaleVec_series (h : Harm K) (n : ℕ) (hn : h.nt = some n) (v : List K) :
    scaleVec h v = .error .typeError := by
  unfold scaleVec; rw [hn]

/-- C22 (deviation): the series made from a single field by several factors keeps the single date
and is therefore inconsistent. -/
theorem scaleVec_dates (h : Harm K) (hn : h.nt = none) (hw : h.WF) (v : List K) (hv : v.length ≠ 1) :
    ∃ r, scaleVec h v = .ok r ∧ ¬ r.WF := by
  unfold scaleVec
  rw [hn]
  refine ⟨_, rfl, ?_⟩
  rintro ⟨h1, -⟩
  have := hw.1
  simp only [hn, Option.getD_none, Option.getD_some] at this h1
  omega

/-- C22: `drift` is rate times elapsed time at every date, zero at the epoch, and the
difference of two dates is the rate times their distance. -/
theorem drift_spec [CharZero K] (h : Harm K) (ts : List ℚ) (epoch : ℚ) :
    let r := drift h ts epoch
    r.lmax = h.lmax ∧ r.mmax = h.mmax ∧ r.nt = some ts.length ∧ r.time = ts ∧
    r.month = Verif.Time.adjustMonths (ts.map fun t => ⌊12 * (t - 2002)⌋ + 1) ∧
    ∀ l m i (hi : i < ts.length),
      r.clm l m i = h.clm l m 0 * ((ts[i] : K) - (epoch : K)) ∧
      r.slm l m i = h.slm l m 0 * ((ts[i] : K) - (epoch : K)) := by
  refine ⟨rfl, rfl, rfl, rfl, rfl, ?_⟩
  intro l m i hi
  simp only [drift]
  simp [hi]

/-- C22: `convolve` multiplies every order of degree `l` by `var[l]`. -/
theorem convolve_spec (h : Harm K) (hw : h.WF) (var : List K) (hv : h.lmax < var.length) :
    ∃ r, convolve h var = .ok r ∧ r.lmax = h.lmax ∧ r.mmax = h.mmax ∧ r.nt = h.nt ∧
      r.time = h.time ∧ r.month = h.month ∧
      ∀ l m t, (hl : l ≤ h.lmax) → t < h.nt.getD 1 →
        r.clm l m t = h.clm l m t * var[l] ∧ r.slm l m t = h.slm l m t * var[l] := by
  unfold convolve
  rw [if_neg (by omega)]
  refine ⟨_, rfl, rfl, rfl, rfl, rfl, rfl, ?_⟩
  intro l m t hl ht
  have hon : h.nt.isNone ∨ t < h.time.length := by
    right; rw [hw.1]; exact ht
  have hl' : l < var.length := by omega
  simp only [hl, true_and, hon, if_true]
  simp [hl']

/-- C22: an array with too few degrees is rejected. -/
theorem convolve_rejects (h : Harm K) (hn : h.nt = none) (var : List K) (hv : var.length ≤ h.lmax) :
    convolve h var = .error .indexError := by
  unfold convolve; rw [if_pos ⟨by omega, by simp [hn]⟩]

/-- C22: convolving twice is convolving with the product. -/
theorem convolve_convolve (h : Harm K) (hw : h.WF) (v w : List K) (hv : h.lmax < v.length)
    (hw' : h.lmax < w.length) :
    ∃ r s, convolve h v = .ok r ∧ convolve r w = .ok s ∧
      ∀ l m t, (hl : l ≤ h.lmax) → t < h.nt.getD 1 →
        s.clm l m t = h.clm l m t * (v[l] * w[l]) ∧ s.slm l m t = h.slm l m t * (v[l] * w[l]) := by
  obtain ⟨r, hr, a1, a2, a3, a4, a5, a6⟩ := convolve_spec h hw v hv
  obtain ⟨s, hs, b1, b2, b3, b4, b5, b6⟩ := convolve_spec r
    ⟨by rw [a3, a4]; exact hw.1, by rw [a3, a5]; exact hw.2⟩ w (by omega)
  refine ⟨r, s, hr, hs, ?_⟩
  intro l m t hl ht
  obtain ⟨c1, c2⟩ := b6 l m t (by omega) (by rw [a3]; exact ht)
  obtain ⟨d1, d2⟩ := a6 l m t hl ht
  rw [c1, c2, d1, d2]
  exact ⟨by ring, by ring⟩

example : (convolve (K := ℚ) ⟨1, 1, some 1, fun l m _ => l + m + 1, fun _ _ _ => 1, [0], [0]⟩ [2, 3]).toOption.map
    (fun r => (r.clm 1 1 0, r.slm 0 0 0)) = some (9, 2) := by decide +kernel

end Verif.Harmonics
