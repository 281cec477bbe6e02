import Verif.Time.Model
import Mathlib.Tactic.Linarith
import Mathlib.Tactic.Ring
import Mathlib.Data.List.Nodup

/-!
# C07: `adjust_months`
-/
namespace Verif.Time

/-! ## counting occurrences by index -/

theorem count_of_idx (g : List ℤ) (a : ℤ) (i : ℕ) (hi : i < g.length) (ha : g.getD i 0 = a) :
    g.count a = (g.take i).count a + 1 + (g.drop (i + 1)).count a := by
  have hg : g = g.take i ++ g[i] :: g.drop (i + 1) := by simp
  have hgi : g[i] = a := by rw [← ha]; simp [hi]
  conv_lhs => rw [hg]
  rw [List.count_append, List.count_cons, hgi]
  simp; ring

theorem count_take_zero (g : List ℤ) (a : ℤ) (i : ℕ)
    (h : ∀ k, k < i → k < g.length → g.getD k 0 ≠ a) : (g.take i).count a = 0 := by
  rw [List.count_eq_zero]
  intro hm
  obtain ⟨k, hk, e⟩ := List.getElem_of_mem hm
  simp at hk
  apply h k hk.1 hk.2
  rw [← e]; simp [hk.2]

theorem count_drop_zero (g : List ℤ) (a : ℤ) (i : ℕ)
    (h : ∀ k, i ≤ k → k < g.length → g.getD k 0 ≠ a) : (g.drop i).count a = 0 := by
  rw [List.count_eq_zero]
  intro hm
  obtain ⟨k, hk, e⟩ := List.getElem_of_mem hm
  simp at hk
  apply h (i + k) (by omega) (by omega)
  rw [← e]; simp [show i + k < g.length by omega]

theorem count_one_of (g : List ℤ) (i : ℕ) (hi : i < g.length)
    (h : ∀ k, k < g.length → k ≠ i → g.getD k 0 ≠ g.getD i 0) : g.count (g.getD i 0) = 1 := by
  rw [count_of_idx g _ i hi rfl, count_take_zero _ _ _ (fun k h1 h2 => h k h2 (by omega)),
    count_drop_zero _ _ _ (fun k h1 h2 => h k h2 (by omega))]

theorem count_two_of (g : List ℤ) (i : ℕ) (hi : i + 1 < g.length)
    (he : g.getD (i + 1) 0 = g.getD i 0)
    (h : ∀ k, k < g.length → k ≠ i → k ≠ i + 1 → g.getD k 0 ≠ g.getD i 0) :
    g.count (g.getD i 0) = 2 := by
  rw [count_of_idx g _ i (by omega) rfl,
    count_take_zero _ _ _ (fun k h1 h2 => h k h2 (by omega) (by omega))]
  rw [count_of_idx (g.drop (i + 1)) (g.getD i 0) 0 (by simp; omega) (by
    rw [← he]; simp [hi])]
  rw [List.drop_drop, count_drop_zero _ _ _ (fun k h1 h2 => h k h2 (by omega) (by omega))]
  simp

/-! ## the loop -/

theorem adjustStep_length (g m : List ℤ) (j : ℕ) : (adjustStep g m j).length = m.length := by
  unfold adjustStep; simp only
  split_ifs <;> simp

theorem adjustStep_other (g m : List ℤ) (j k : ℕ) (h : k ≠ j) :
    (adjustStep g m j).getD k 0 = m.getD k 0 := by
  unfold adjustStep; simp only
  split_ifs <;> simp [Ne.symm h]

theorem foldl_length (g : List ℤ) (js : List ℕ) : ∀ m : List ℤ,
    (js.foldl (adjustStep g) m).length = m.length := by
  induction js with
  | nil => intro m; rfl
  | cons j js ih => intro m; rw [List.foldl_cons, ih, adjustStep_length]

theorem foldl_other (g : List ℤ) (k : ℕ) (js : List ℕ) : ∀ m : List ℤ, k ∉ js →
    (js.foldl (adjustStep g) m).getD k 0 = m.getD k 0 := by
  induction js with
  | nil => intro m _; rfl
  | cons j js ih =>
    intro m h
    rw [List.foldl_cons, ih _ (fun h' => h (List.mem_cons_of_mem _ h')),
      adjustStep_other _ _ _ _ (fun h' => h (by rw [h']; exact List.mem_cons_self))]

/-- indices of the months occurring twice, in increasing order -/
def case2 (g : List ℤ) : List ℕ :=
  (List.range g.length).filter fun j => g.count (g.getD j 0) = 2

/-- months occurring once are copied, everything else is zero -/
def init (g : List ℤ) : List ℤ := g.map fun a => if g.count a = 1 then a else 0

theorem adjustMonths_eq (g : List ℤ) : adjustMonths g = (case2 g).foldl (adjustStep g) (init g) := rfl

theorem init_getD (g : List ℤ) (k : ℕ) (hk : k < g.length) :
    (init g).getD k 0 = if g.count (g.getD k 0) = 1 then g.getD k 0 else 0 := by
  unfold init; simp [hk]

/-- `adjust_months` keeps the number of months. -/
theorem adjustMonths_length (g : List ℤ) : (adjustMonths g).length = g.length := by
  rw [adjustMonths_eq, foldl_length]; simp [init]

theorem adjust_not_case2 (g : List ℤ) (k : ℕ) (hk : k < g.length)
    (h : g.count (g.getD k 0) ≠ 2) :
    (adjustMonths g).getD k 0 = if g.count (g.getD k 0) = 1 then g.getD k 0 else 0 := by
  rw [adjustMonths_eq, foldl_other, init_getD g k hk]
  unfold case2
  simp only [List.mem_filter, List.mem_range, decide_eq_true_eq, not_and]
  intro _; exact h

/-- C07: a month occurring exactly once is kept. -/
theorem adjust_unique (g : List ℤ) (k : ℕ) (hk : k < g.length) (h : g.count (g.getD k 0) = 1) :
    (adjustMonths g).getD k 0 = g.getD k 0 := by
  rw [adjust_not_case2 g k hk (by omega), if_pos h]

/-- C07: a month occurring three or more times becomes 0. -/
theorem adjust_triple (g : List ℤ) (k : ℕ) (hk : k < g.length) (h : 3 ≤ g.count (g.getD k 0)) :
    (adjustMonths g).getD k 0 = 0 := by
  rw [adjust_not_case2 g k hk (by omega), if_neg (by omega)]

theorem case2_pairwise (g : List ℤ) : (case2 g).Pairwise (· < ·) :=
  List.pairwise_lt_range.filter _

/-- The value at a doubled month is the one written when it is processed, and at
that time the previous entry already has its final value. -/
theorem adjust_case2 (g : List ℤ) (j : ℕ) (hj : j < g.length) (h : g.count (g.getD j 0) = 2) :
    ∃ m : List ℤ, m.length = g.length ∧ (adjustMonths g).getD j 0 = (adjustStep g m j).getD j 0 ∧
      m.getD j 0 = 0 ∧ (1 ≤ j → m.getD (j - 1) 0 = (adjustMonths g).getD (j - 1) 0) := by
  have hmem : j ∈ case2 g := by
    unfold case2; simp only [List.mem_filter, List.mem_range, decide_eq_true_eq]; exact ⟨hj, h⟩
  obtain ⟨pre, post, hs⟩ := List.append_of_mem hmem
  have hp := case2_pairwise g
  rw [hs, List.pairwise_append, List.pairwise_cons] at hp
  obtain ⟨-, ⟨hpost, -⟩, hpre⟩ := hp
  have jpost : j ∉ post := fun hm => lt_irrefl _ (hpost j hm)
  have jpre : j ∉ pre := fun hm => lt_irrefl _ (hpre j hm j List.mem_cons_self)
  have e : adjustMonths g =
      post.foldl (adjustStep g) (adjustStep g (pre.foldl (adjustStep g) (init g)) j) := by
    rw [adjustMonths_eq, hs, List.foldl_append, List.foldl_cons]
  refine ⟨pre.foldl (adjustStep g) (init g), ?_, ?_, ?_, ?_⟩
  · rw [foldl_length]; simp [init]
  · rw [e, foldl_other _ _ _ _ jpost]
  · rw [foldl_other _ _ _ _ jpre, init_getD g j hj, if_neg (by omega)]
  · intro h1
    have j1post : j - 1 ∉ post := fun hm => by have := hpost _ hm; omega
    rw [e, foldl_other _ _ _ _ j1post, adjustStep_other _ _ _ _ (by omega)]

theorem getD_set_self (m : List ℤ) (j : ℕ) (v : ℤ) (h : j < m.length) : (m.set j v).getD j 0 = v := by
  simp [h]

/-- C07 (pair preceded by its predecessor): in a list where month `a` occurs exactly
twice, at the adjacent positions `j`, `j+1`, and position `j-1` holds `a-1`, the
first copy is kept and the second becomes `a+1`. Any number of such pairs may occur. -/
theorem adjust_pair_late (g : List ℤ) (j : ℕ) (hj : 1 ≤ j) (hl : j + 1 < g.length) (a : ℤ)
    (e0 : g.getD j 0 = a) (e1 : g.getD (j + 1) 0 = a) (hc : g.count a = 2)
    (hp : g.getD (j - 1) 0 = a - 1) :
    (adjustMonths g).getD j 0 = a ∧ (adjustMonths g).getD (j + 1) 0 = a + 1 := by
  obtain ⟨m, ml, mv, -, -⟩ := adjust_case2 g j (by omega) (by rw [e0, hc])
  have v0 : (adjustMonths g).getD j 0 = a := by
    rw [mv]; unfold adjustStep; simp only [prevAt, if_neg (show ¬ j = 0 by omega), hp, e0]
    rw [if_pos (by omega), getD_set_self _ _ _ (by omega)]
  refine ⟨v0, ?_⟩
  obtain ⟨m', ml', mv', -, mp'⟩ := adjust_case2 g (j + 1) hl (by rw [e1, hc])
  have hprev : m'.getD j 0 = a := by
    have := mp' (by omega); simp only [Nat.add_sub_cancel] at this; rw [this, v0]
  rw [mv']; unfold adjustStep
  simp only [prevAt, if_neg (show ¬ j + 1 = 0 by omega), Nat.add_sub_cancel, e0, e1, hprev]
  rw [if_neg (by omega), if_neg (by simp), if_pos trivial, getD_set_self _ _ _ (by omega)]

/-- C07 (pair not preceded by its predecessor): if position `j-1` holds `a-2`, or the
month after the pair is `a+1` (or the pair ends the list), the first copy becomes
`a-1` and the second is kept. -/
theorem adjust_pair_early (g : List ℤ) (j : ℕ) (hj : 1 ≤ j) (hl : j + 1 < g.length) (a : ℤ)
    (e0 : g.getD j 0 = a) (e1 : g.getD (j + 1) 0 = a) (hc : g.count a = 2)
    (hp : g.getD (j - 1) 0 ≠ a - 1) (hp' : g.getD (j - 1) 0 ≠ a)
    (hn : g.getD (j - 1) 0 = a - 2 ∨ (j + 2 < g.length → g.getD (j + 2) 0 = a + 1)) :
    (adjustMonths g).getD j 0 = a - 1 ∧ (adjustMonths g).getD (j + 1) 0 = a := by
  obtain ⟨m, ml, mv, -, -⟩ := adjust_case2 g j (by omega) (by rw [e0, hc])
  have v0 : (adjustMonths g).getD j 0 = a - 1 := by
    rw [mv]; unfold adjustStep
    simp only [prevAt, if_neg (show ¬ j = 0 by omega), e0, e1, if_pos hl]
    rw [if_neg (by omega), if_neg (by omega), if_neg (by omega), if_pos, getD_set_self _ _ _ (by omega)]
    refine ⟨trivial, ?_⟩
    rcases hn with hn | hn
    · left; omega
    · right; split_ifs with h2
      · exact hn h2
      · rfl
  refine ⟨v0, ?_⟩
  obtain ⟨m', ml', mv', -, mp'⟩ := adjust_case2 g (j + 1) hl (by rw [e1, hc])
  have hprev : m'.getD j 0 = a - 1 := by
    have := mp' (by omega); simp only [Nat.add_sub_cancel] at this; rw [this, v0]
  rw [mv']; unfold adjustStep
  simp only [prevAt, if_neg (show ¬ j + 1 = 0 by omega), Nat.add_sub_cancel, e0, e1, hprev]
  rw [if_neg (by omega), if_pos (by refine ⟨trivial, ?_⟩; omega), getD_set_self _ _ _ (by omega)]

/-- C07 (deviation): in the remaining situation (gap larger than one before *and* after
the pair) the first copy silently becomes 0. -/
theorem adjust_pair_gap (g : List ℤ) (j : ℕ) (hj : 1 ≤ j) (hl : j + 2 < g.length) (a : ℤ)
    (e0 : g.getD j 0 = a) (e1 : g.getD (j + 1) 0 = a) (hc : g.count a = 2)
    (hp : g.getD (j - 1) 0 ≠ a - 1) (hp' : g.getD (j - 1) 0 ≠ a)
    (hp2 : g.getD (j - 1) 0 ≠ a - 2) (hn : g.getD (j + 2) 0 ≠ a + 1) :
    (adjustMonths g).getD j 0 = 0 := by
  obtain ⟨m, ml, mv, m0, -⟩ := adjust_case2 g j (by omega) (by rw [e0, hc])
  rw [mv]; unfold adjustStep
  simp only [prevAt, if_neg (show ¬ j = 0 by omega), e0, e1, if_pos hl,
    if_pos (show j + 1 < g.length by omega)]
  rw [if_neg (by omega), if_neg (by omega), if_neg (by omega), if_neg (by omega), m0]

theorem ext_getD (l l' : List ℤ) (h : l.length = l'.length)
    (he : ∀ k, k < l.length → l.getD k 0 = l'.getD k 0) : l = l' := by
  apply List.ext_getElem h
  intro k h1 h2
  have := he k h1
  simpa [h1, h2] using this

/-- C07: a list without repetitions is returned unchanged; hence the function is
idempotent on such lists. -/
theorem adjustMonths_nodup (g : List ℤ) (h : g.Nodup) : adjustMonths g = g := by
  apply ext_getD _ _ (adjustMonths_length g)
  intro k hk
  rw [adjustMonths_length] at hk
  apply adjust_unique g k hk
  rw [List.count_eq_one_of_mem h]
  simp [hk]

/-- How an estimated month may differ from the true month of file `i`. -/
inductive Estimate (t g : List ℤ) (i : ℕ) : Prop
  /-- the estimate is right -/
  | exact (h : g.getD i 0 = t.getD i 0)
  /-- the mid-point of the file falls into the preceding month, which is present, right,
  and itself preceded by its predecessor (e.g. Nov 2011, May 2015) -/
  | late (h2 : 2 ≤ i) (h : g.getD i 0 = t.getD i 0 - 1)
      (p1 : t.getD (i - 1) 0 = t.getD i 0 - 1) (g1 : g.getD (i - 1) 0 = t.getD (i - 1) 0)
      (p2 : t.getD (i - 2) 0 = t.getD i 0 - 2) (g2 : g.getD (i - 2) 0 = t.getD (i - 2) 0)
  /-- the mid-point falls into the following month, which is present and right, and
  either the preceding month is present too or the one after the next (e.g. Dec 2011,
  Oct 2018) -/
  | early (h1 : 1 ≤ i) (hl : i + 1 < t.length) (h : g.getD i 0 = t.getD i 0 + 1)
      (n1 : t.getD (i + 1) 0 = t.getD i 0 + 1) (gn : g.getD (i + 1) 0 = t.getD (i + 1) 0)
      (gp : g.getD (i - 1) 0 = t.getD (i - 1) 0)
      (hn : t.getD (i - 1) 0 = t.getD i 0 - 1 ∨
        (i + 2 < t.length → t.getD (i + 2) 0 = t.getD i 0 + 2 ∧ g.getD (i + 2) 0 = t.getD (i + 2) 0))

/-- C07 (repair): if the true months are strictly increasing and every estimated month
is either right or wrong in one of the two documented ways, `adjust_months` returns the
true months. -/
theorem adjustMonths_repair (t g : List ℤ) (hlen : g.length = t.length)
    (hmono : ∀ i k, i < k → k < t.length → t.getD i 0 < t.getD k 0)
    (hest : ∀ i, i < t.length → Estimate t g i) : adjustMonths g = t := by
  -- estimated months are within one of the true ones, and keep the weak order
  have hmono' : ∀ i k, i < k → k < t.length → t.getD i 0 + (k - i : ℕ) ≤ t.getD k 0 := by
    intro i k hik hk
    induction k with
    | zero => omega
    | succ k ih =>
      rcases Nat.lt_or_ge i k with h | h
      · have a := ih h (by omega)
        have b := hmono k (k + 1) (by omega) hk
        omega
      · have : i = k := by omega
        subst this
        have b := hmono i (i + 1) (by omega) hk
        omega
  apply ext_getD _ _ (by rw [adjustMonths_length, hlen])
  intro i hi
  rw [adjustMonths_length, hlen] at hi
  -- when g k = t i for k ≠ i
  have est_close : ∀ k, k < t.length → t.getD k 0 - 1 ≤ g.getD k 0 ∧ g.getD k 0 ≤ t.getD k 0 + 1 := by
    intro k hk
    rcases hest k hk with h | ⟨_, h, _⟩ | ⟨_, _, h, _⟩ <;> omega
  have far : ∀ i k, i + 2 < k → k < t.length → g.getD i 0 < g.getD k 0 := by
    intro i k h1 h2
    have a := est_close i (by omega)
    have b := est_close k h2
    have := hmono' i k (by omega) h2
    omega
  have two : ∀ i, i + 2 < t.length → g.getD i 0 < g.getD (i + 2) 0 := by
    intro i h2
    have m1 := hmono i (i + 1) (by omega) (by omega)
    have m2 := hmono (i + 1) (i + 2) (by omega) h2
    rcases hest i (by omega) with h | ⟨_, h, _⟩ | ⟨_, _, h, n1, gn, gp, hn⟩
    · rcases hest (i + 2) h2 with h' | ⟨_, h', p1, g1, p2, g2⟩ | ⟨_, _, h', _⟩
      · omega
      · omega
      · omega
    · have := (est_close (i+2) h2).1; omega
    · rcases hest (i + 2) h2 with h' | ⟨_, h', p1, g1, p2, g2⟩ | ⟨_, _, h', _⟩
      · omega
      · simp only [show i + 2 - 2 = i by omega] at g2; omega
      · omega
  have dist : ∀ i k, i + 1 < k → k < t.length → g.getD i 0 < g.getD k 0 := by
    intro i k h1 h2
    rcases Nat.lt_or_ge (i + 2) k with h | h
    · exact far i k h h2
    · have : k = i + 2 := by omega
      subst this; exact two i h2
  have pair2 : ∀ i, i + 1 < t.length → g.getD (i + 1) 0 = g.getD i 0 → g.count (g.getD i 0) = 2 := by
    intro i h1 h2
    apply count_two_of g i (by omega) h2
    intro k hk hk1 hk2
    rcases Nat.lt_or_ge k i with h | h
    · have := dist k (i + 1) (by omega) (by omega); omega
    · have := dist i k (by omega) (by omega); omega
  rcases hest i hi with h | ⟨h2, h, p1, g1, p2, g2⟩ | ⟨h1, hl, h, n1, gn, gp, hn⟩
  · -- right estimate: unique, or first of a late pair, or second of an early pair
    by_cases hnext : i + 1 < t.length ∧ g.getD (i + 1) 0 = g.getD i 0
    · obtain ⟨hl, he⟩ := hnext
      have m1 := hmono i (i + 1) (by omega) hl
      rcases hest (i + 1) hl with h' | ⟨a2, a, b1, c1, b2, c2⟩ | ⟨_, _, a, _⟩
      · omega
      · simp only [Nat.add_sub_cancel] at b1 c1
        have s2 : i + 1 - 2 = i - 1 := by omega
        rw [s2] at b2 c2
        have := (adjust_pair_late g i (by omega) (by omega) (t.getD i 0) h (by rw [he, h])
          (by rw [← h]; exact pair2 i hl he) (by rw [c2, b2]; omega)).1
        exact this
      · omega
    · by_cases hprev : 1 ≤ i ∧ g.getD (i - 1) 0 = g.getD i 0
      · obtain ⟨h1, he⟩ := hprev
        obtain ⟨i, rfl⟩ : ∃ k, i = k + 1 := ⟨i - 1, by omega⟩
        simp only [Nat.add_sub_cancel] at he
        have m1 := hmono i (i + 1) (by omega) hi
        rcases hest i (by omega) with h' | ⟨a2, a, _⟩ | ⟨a1, a2, a, n1, gn, gp, hn⟩
        · omega
        · omega
        · have hp := hmono (i - 1) i (by omega) (by omega)
          have hc : g.count (t.getD (i + 1) 0) = 2 := by
            rw [← h, ← he]; exact pair2 i hi he.symm
          exact (adjust_pair_early g i a1 (by omega) (t.getD (i + 1) 0) (by rw [he, h]) h hc
            (by omega) (by omega) (by
              rcases hn with hn | hn
              · left; omega
              · right; intro hh; have := hn (by omega); omega)).2
      · rw [← h]
        apply adjust_unique g i (by omega)
        apply count_one_of g i (by omega)
        intro k hk hki
        rcases Nat.lt_trichotomy k i with hlt | heq | hgt
        · by_cases hk1 : k + 1 = i
          · intro hh; apply hprev; refine ⟨by omega, ?_⟩
            rw [show i - 1 = k by omega]; exact hh
          · have := dist k i (by omega) hi; omega
        · exact absurd heq hki
        · by_cases hk1 : i + 1 = k
          · intro hh; apply hnext; subst hk1; exact ⟨by omega, hh⟩
          · have := dist i k (by omega) (by omega); omega
  · -- late: second of a pair
    obtain ⟨j, rfl⟩ : ∃ k, i = k + 1 := ⟨i - 1, by omega⟩
    simp only [Nat.add_sub_cancel] at p1 g1
    have s2 : j + 1 - 2 = j - 1 := by omega
    rw [s2] at p2 g2
    have he : g.getD (j + 1) 0 = g.getD j 0 := by omega
    have := (adjust_pair_late g j (by omega) (by omega) (t.getD j 0) g1 (by omega)
      (by rw [← g1]; exact pair2 j hi he) (by omega)).2
    omega
  · -- early: first of a pair
    have he : g.getD (i + 1) 0 = g.getD i 0 := by omega
    have hp := hmono (i - 1) i (by omega) hi
    have := (adjust_pair_early g i h1 (by omega) (t.getD i 0 + 1) h (by omega)
      (by rw [← h]; exact pair2 i hl he) (by omega) (by omega) (by
        rcases hn with hn | hn
        · left; omega
        · right; intro hh; have := hn (by omega); omega)).1
    omega

-- the special months of CSR (Nov 2011 = 119 estimated as 118, May 2015 = 161 as 160),
-- JPL (Dec 2011 = 120 estimated as 121) and GSFC (Oct 2018 = 202 estimated as 203)
example : adjustMonths [116,117,118,118,120,121,157,158,159,160,160,163] =
    [116,117,118,119,120,121,157,158,159,160,161,163] := by decide
example : adjustMonths [117,118,119,121,121,122,198,199,203,203,204] =
    [117,118,119,120,121,122,198,199,202,203,204] := by decide
example : adjustMonths [5,5,5,7] = [0,0,0,7] ∧ adjustMonths [4,9,9,20] = [4,0,9,20] := by decide
-- the hypotheses of the repair theorem are met by a short series with one late month
example : ∀ i, i < [117,118,119,121].length →
    Estimate [117,118,119,121] [117,118,118,121] i := by
  intro i hi
  match i, hi with
  | 0, _ => exact .exact rfl
  | 1, _ => exact .exact rfl
  | 2, _ => exact .late (by norm_num) rfl rfl rfl rfl rfl
  | 3, _ => exact .exact rfl

end Verif.Time
