import Verif.Weekly.Model
import Verif.Time.Adjust
import Mathlib.Data.List.Sort
import Mathlib.Data.List.GetD
import Mathlib.Algebra.BigOperators.Ring.List
import Mathlib.Tactic.Linarith
import Mathlib.Tactic.Ring
import Mathlib.Tactic.FieldSimp
import Mathlib.Tactic.Positivity
import Mathlib.Algebra.Order.BigOperators.Group.List

/-!
# Property C56: moving averages of weekly solutions
-/
namespace Verif.Weekly
open Verif.Time

/-! ## Specification -/

/-- what `np.argsort` promises: all indices once, keys in increasing order -/
def IsArgsort (argsort : List ℚ → List ℕ) : Prop :=
  ∀ keys : List ℚ, (argsort keys).Perm (List.range keys.length) ∧
    (argsort keys).Pairwise fun i j => keys.getD i 0 ≤ keys.getD j 0

/-- day `k` is day number `k mod 7` of week `k / 7` -/
def week (xs : List ℚ) (k : ℕ) : ℚ := xs.getD (k / 7) 0

/-- decimal year of day `k`: the week's time and an offset of -3.5 to 2.5 days -/
def dayTime (t : List ℚ) (k : ℕ) : ℚ := week t k + (((k % 7 : ℕ) : ℚ) - 3.5) / 365.25

/-- `S` is a choice of `N` days (all days if there are fewer) nearest to the date `D` -/
def Nearest (t : List ℚ) (D : ℚ) (N : ℕ) (S : List ℕ) : Prop :=
  S.Nodup ∧ (∀ k ∈ S, k < 7 * t.length) ∧ S.length = min N (7 * t.length) ∧
    ∀ i ∈ S, ∀ j < 7 * t.length, j ∉ S → |dayTime t i - D| ≤ |dayTime t j - D|

/-! ## Lemmas -/

theorem dayTimes_getD (t : List ℚ) (k : ℕ) (hk : k < 7 * t.length) : (dayTimes t).getD k 0 = dayTime t k := by
  unfold dayTimes dayTime week
  rw [List.getD_eq_getElem?_getD, List.getElem?_map, List.getElem?_range hk]
  simp only [Option.map_some, Option.getD_some]
  norm_num

theorem dayData_getD (d : List ℚ) (k : ℕ) (hk : k < 7 * d.length) : (dayData d).getD k 0 = week d k := by
  unfold dayData week
  rw [List.getD_eq_getElem?_getD, List.getElem?_map, List.getElem?_range hk]
  simp only [Option.map_some, Option.getD_some]

theorem sqDist_getD (t : List ℚ) (D : ℚ) (k : ℕ) (hk : k < 7 * t.length) :
    (sqDist t D).getD k 0 = (dayTime t k - D) ^ 2 := by
  unfold sqDist
  have hl : k < (dayTimes t).length := by unfold dayTimes; simpa using hk
  rw [← dayTimes_getD t k hk, List.getD_eq_getElem?_getD, List.getElem?_map, List.getD_eq_getElem?_getD,
    List.getElem?_eq_getElem hl]
  simp

theorem sqDist_length (t : List ℚ) (D : ℚ) : (sqDist t D).length = 7 * t.length := by
  unfold sqDist dayTimes; simp

/-- C56: the days used are the nearest ones -/
theorem take_nearest (argsort : List ℚ → List ℕ) (ha : IsArgsort argsort) (t : List ℚ) (D : ℚ) (N : ℕ) :
    Nearest t D N ((argsort (sqDist t D)).take N) := by
  obtain ⟨hp, hs⟩ := ha (sqDist t D)
  rw [sqDist_length] at hp
  have hnd : (argsort (sqDist t D)).Nodup := hp.nodup_iff.2 List.nodup_range
  have hmem : ∀ k, k ∈ argsort (sqDist t D) ↔ k < 7 * t.length := fun k => by rw [hp.mem_iff, List.mem_range]
  refine ⟨hnd.sublist (List.take_sublist _ _), fun k hk => (hmem k).1 (List.mem_of_mem_take hk), ?_, ?_⟩
  · rw [List.length_take, hp.length_eq, List.length_range]
  · intro i hi j hj hn
    have hj' : j ∈ (argsort (sqDist t D)).drop N := by
      have := (hmem j).2 hj
      rw [← List.take_append_drop N (argsort (sqDist t D)), List.mem_append] at this
      exact this.resolve_left hn
    have hs' := hs
    rw [← List.take_append_drop N (argsort (sqDist t D)), List.pairwise_append] at hs'
    have := hs'.2.2 i hi j hj'
    rw [sqDist_getD t D i ((hmem i).1 (List.mem_of_mem_take hi)), sqDist_getD t D j hj] at this
    exact sq_le_sq.1 this

/-- mean of a non-empty list of days -/
def meanOver (S : List ℕ) (f : ℕ → ℚ) : ℚ := (S.map f).sum / S.length

theorem mean_map (S : List ℕ) (f : ℕ → ℚ) (h : S ≠ []) : mean (S.map f) = some (meanOver S f) := by
  unfold mean meanOver
  have : S.length ≠ 0 := by simpa using h
  rw [if_neg (by simpa using this), List.length_map]

/-- C56: a date of the output is the mean date, and the value the mean value, over a choice of the
`NEIGHBORS` days nearest to the date -/
theorem average_correct (argsort : List ℚ → List ℕ) (ha : IsArgsort argsort) (t d : List ℚ) (hl : d.length = t.length)
    (ht : t ≠ []) (N : ℕ) (hN : 0 < N) (D : ℚ) :
    ∃ S, S ≠ [] ∧ Nearest t D N S ∧
      average argsort t d N D = some (meanOver S (dayTime t), meanOver S (week d)) := by
  have hn := take_nearest argsort ha t D N
  have hne : (argsort (sqDist t D)).take N ≠ [] := by
    intro h
    have h3 := hn.2.2.1
    rw [h] at h3
    have : 0 < t.length := List.length_pos_iff.2 ht
    simp at h3; omega
  refine ⟨(argsort (sqDist t D)).take N, ?_, hn, ?_⟩
  · exact hne
  · unfold average
    dsimp only
    have e1 : ((argsort (sqDist t D)).take N).map (fun k => (dayTimes t).getD k 0) =
        ((argsort (sqDist t D)).take N).map (dayTime t) :=
      List.map_congr_left fun k hk => dayTimes_getD t k (hn.2.1 k hk)
    have e2 : ((argsort (sqDist t D)).take N).map (fun k => (dayData d).getD k 0) =
        ((argsort (sqDist t D)).take N).map (week d) :=
      List.map_congr_left fun k hk => dayData_getD d k (by rw [hl]; exact hn.2.1 k hk)
    rw [e1, e2, mean_map _ _ hne, mean_map _ _ hne]

theorem meanOver_bounds (S : List ℕ) (hS : S ≠ []) (f : ℕ → ℚ) (a b : ℚ) (h : ∀ k ∈ S, a ≤ f k ∧ f k ≤ b) :
    a ≤ meanOver S f ∧ meanOver S f ≤ b := by
  unfold meanOver
  have hp : (0 : ℚ) < S.length := by exact_mod_cast List.length_pos_iff.2 hS
  have key : ∀ T : List ℕ, (∀ k ∈ T, a ≤ f k ∧ f k ≤ b) →
      a * T.length ≤ (T.map f).sum ∧ (T.map f).sum ≤ b * T.length := by
    intro T hT
    induction T with
    | nil => simp
    | cons x T ih =>
      have h1 := ih fun k hk => hT k (List.mem_cons_of_mem _ hk)
      have h2 := hT x List.mem_cons_self
      simp only [List.map_cons, List.sum_cons, List.length_cons, Nat.cast_add, Nat.cast_one]
      constructor <;> linarith [h1.1, h1.2, h2.1, h2.2]
  obtain ⟨h1, h2⟩ := key S h
  exact ⟨by rw [le_div_iff₀ hp]; exact h1, by rw [div_le_iff₀ hp]; exact h2⟩

/-! ## Theorems about the averages -/

/-- C56: the value lies between the smallest and the largest weekly value -/
theorem average_bounds (argsort : List ℚ → List ℕ) (ha : IsArgsort argsort) (t d : List ℚ) (hl : d.length = t.length)
    (ht : t ≠ []) (N : ℕ) (hN : 0 < N) (D : ℚ) (a b : ℚ) (h : ∀ x ∈ d, a ≤ x ∧ x ≤ b) :
    ∃ r, average argsort t d N D = some r ∧ a ≤ r.2 ∧ r.2 ≤ b := by
  obtain ⟨S, hS, hn, hr⟩ := average_correct argsort ha t d hl ht N hN D
  refine ⟨_, hr, meanOver_bounds S hS _ a b fun k hk => ?_⟩
  unfold week
  have : k / 7 < d.length := by have := hn.2.1 k hk; omega
  rw [List.getD_eq_getElem _ _ this]
  exact h _ (List.getElem_mem this)

/-- C56: constants are preserved -/
theorem average_const (argsort : List ℚ → List ℕ) (ha : IsArgsort argsort) (t d : List ℚ) (hl : d.length = t.length)
    (ht : t ≠ []) (N : ℕ) (hN : 0 < N) (D : ℚ) (c : ℚ) (h : ∀ x ∈ d, x = c) :
    ∃ r, average argsort t d N D = some r ∧ r.2 = c := by
  obtain ⟨r, hr, h1, h2⟩ := average_bounds argsort ha t d hl ht N hN D c c fun x hx => by rw [h x hx]; simp
  exact ⟨r, hr, le_antisymm h2 h1⟩

/-- C56: averages are linear in the weekly values -/
theorem average_linear (argsort : List ℚ → List ℕ) (ha : IsArgsort argsort) (t d e f : List ℚ)
    (hl : d.length = t.length) (hl' : e.length = t.length) (hl'' : f.length = t.length) (ht : t ≠ []) (N : ℕ) (hN : 0 < N)
    (D a b : ℚ) (hf : ∀ w < t.length, f.getD w 0 = a * d.getD w 0 + b * e.getD w 0) :
    ∃ r s u, average argsort t d N D = some r ∧ average argsort t e N D = some s ∧ average argsort t f N D = some u ∧
      u.1 = r.1 ∧ u.2 = a * r.2 + b * s.2 := by
  have hn := take_nearest argsort ha t D N
  have gen : ∀ g : List ℚ, g.length = t.length → average argsort t g N D =
      some (meanOver ((argsort (sqDist t D)).take N) (dayTime t), meanOver ((argsort (sqDist t D)).take N) (week g)) := by
    intro g hg
    have hne : (argsort (sqDist t D)).take N ≠ [] := by
      intro h
      have h3 := hn.2.2.1
      rw [h] at h3
      have : 0 < t.length := List.length_pos_iff.2 ht
      simp at h3; omega
    unfold average
    dsimp only
    rw [List.map_congr_left fun k hk => dayTimes_getD t k (hn.2.1 k hk),
      List.map_congr_left fun k hk => dayData_getD g k (by rw [hg]; exact hn.2.1 k hk),
      mean_map _ _ hne, mean_map _ _ hne]
  refine ⟨_, _, _, gen d hl, gen e hl', gen f hl'', rfl, ?_⟩
  have hmem := hn.2.1
  generalize (argsort (sqDist t D)).take N = S at hmem
  have : ∀ T : List ℕ, (∀ k ∈ T, k < 7 * t.length) →
      (T.map (week f)).sum = a * (T.map (week d)).sum + b * (T.map (week e)).sum := by
    intro T hT
    induction T with
    | nil => simp
    | cons x T ih =>
      have h1 := ih fun k hk => hT k (List.mem_cons_of_mem _ hk)
      have h2 : week f x = a * week d x + b * week e x := hf (x / 7) (by have := hT x List.mem_cons_self; omega)
      simp only [List.map_cons, List.sum_cons, h1, h2]; ring
  simp only [meanOver, this S hmem]
  ring

/-- C56: weeks farther away do not matter.  If there are `NEIGHBORS` days within `R` of the date, then
changing the values of weeks none of whose days lies within `R` leaves the result unchanged, and the
mean date is within `R` of the date asked for -/
theorem average_local (argsort : List ℚ → List ℕ) (ha : IsArgsort argsort) (t d e : List ℚ) (hl : d.length = t.length)
    (hl' : e.length = t.length) (N : ℕ) (hN : 0 < N) (D R : ℚ) (T : List ℕ) (hT : T.Nodup) (hTN : T.length = N)
    (hin : ∀ k ∈ T, k < 7 * t.length ∧ |dayTime t k - D| ≤ R)
    (hde : ∀ k < 7 * t.length, |dayTime t k - D| ≤ R → d.getD (k / 7) 0 = e.getD (k / 7) 0) :
    ∃ r, average argsort t d N D = some r ∧ average argsort t e N D = some r ∧ |r.1 - D| ≤ R := by
  have hn := take_nearest argsort ha t D N
  have hpos : 0 < t.length := by
    have : T ≠ [] := by intro h; rw [h] at hTN; simp at hTN; omega
    obtain ⟨k, hk⟩ := List.exists_mem_of_ne_nil T this
    have := (hin k hk).1; omega
  have hne : (argsort (sqDist t D)).take N ≠ [] := by
    intro h
    have h3 := hn.2.2.1
    rw [h] at h3
    simp at h3; omega
  have gen : ∀ g : List ℚ, g.length = t.length → average argsort t g N D =
      some (meanOver ((argsort (sqDist t D)).take N) (dayTime t), meanOver ((argsort (sqDist t D)).take N) (week g)) := by
    intro g hg
    unfold average
    dsimp only
    rw [List.map_congr_left fun k hk => dayTimes_getD t k (hn.2.1 k hk),
      List.map_congr_left fun k hk => dayData_getD g k (by rw [hg]; exact hn.2.1 k hk),
      mean_map _ _ hne, mean_map _ _ hne]
  have hlocal : ∀ k ∈ (argsort (sqDist t D)).take N, |dayTime t k - D| ≤ R := by
    intro k hk
    by_contra hc
    -- otherwise every day of `T` is among those taken, besides `k`
    have hsub : k :: T ⊆ (argsort (sqDist t D)).take N := by
      intro x hx
      rcases List.mem_cons.1 hx with rfl | hx
      · exact hk
      · by_contra hx'
        have := hn.2.2.2 k hk x (hin x hx).1 hx'
        exact hc (le_trans this (hin x hx).2)
    have hnd : (k :: T).Nodup := List.nodup_cons.2 ⟨fun h => hc (hin k h).2, hT⟩
    have := (hnd.subperm hsub).length_le
    rw [hn.2.2.1, List.length_cons, hTN] at this
    omega
  refine ⟨_, gen d hl, ?_, ?_⟩
  · rw [gen e hl']
    simp only [Option.some.injEq, Prod.mk.injEq, true_and]
    unfold meanOver
    congr 2
    exact List.map_congr_left fun k hk => (hde k (hn.2.1 k hk) (hlocal k hk)).symm
  · obtain ⟨h1, h2⟩ := meanOver_bounds _ hne (dayTime t) (D - R) (D + R) fun k hk => by
      have := abs_le.1 (hlocal k hk); constructor <;> linarith [this.1, this.2]
    simp only
    rw [abs_le]; constructor <;> linarith

theorem sum_days (n : ℕ) (f : ℕ → ℚ) :
    ((List.range (7 * n)).map f).sum = ((List.range n).map fun w : ℕ => f (7 * w) + f (7 * w + 1) + f (7 * w + 2) + f (7 * w + 3)
      + f (7 * w + 4) + f (7 * w + 5) + f (7 * w + 6)).sum := by
  induction n with
  | zero => simp
  | succ n ih =>
    rw [show 7 * (n + 1) = 7 * n + 7 by ring]
    simp only [List.range_succ, show 7 * n + 7 = 7 * n + 6 + 1 by ring, show 7 * n + 6 = 7 * n + 5 + 1 by ring,
      show 7 * n + 5 = 7 * n + 4 + 1 by ring, show 7 * n + 4 = 7 * n + 3 + 1 by ring,
      show 7 * n + 3 = 7 * n + 2 + 1 by ring, show 7 * n + 2 = 7 * n + 1 + 1 by ring, List.map_append, List.sum_append,
      ih, List.map_cons, List.map_nil, List.sum_cons, List.sum_nil]
    ring

/-- C56: when every day is used, the value is the mean of the weekly values, but the date is half a day
before the mean of the weekly dates: the days are not centred on the week -/
theorem average_all (argsort : List ℚ → List ℕ) (ha : IsArgsort argsort) (t d : List ℚ) (hl : d.length = t.length)
    (ht : t ≠ []) (N : ℕ) (hN : 7 * t.length ≤ N) (D : ℚ) :
    average argsort t d N D = some (t.sum / t.length - 1 / 2 / 365.25, d.sum / d.length) := by
  have hpos : 0 < t.length := List.length_pos_iff.2 ht
  have hq : (t.length : ℚ) ≠ 0 := by exact_mod_cast hpos.ne'
  obtain ⟨S, hS, hn, hr⟩ := average_correct argsort ha t d hl ht N (by omega) D
  have hperm : S.Perm (List.range (7 * t.length)) := by
    have hsp : S.Subperm (List.range (7 * t.length)) :=
      hn.1.subperm fun k hk => List.mem_range.2 (hn.2.1 k hk)
    exact hsp.perm_of_length_le (by rw [hn.2.2.1, List.length_range]; omega)
  have hlen : S.length = 7 * t.length := by rw [hn.2.2.1]; omega
  have hsum : ∀ xs : List ℚ, xs.length = t.length → ((List.range t.length).map fun w : ℕ => xs.getD w 0).sum = xs.sum := by
    intro xs hx
    congr 1
    apply List.ext_getElem
    · simp [hx]
    · intro n h1 h2
      simp only [List.getElem_map, List.getElem_range]
      rw [List.getD_eq_getElem _ _ h2]
  rw [hr]
  unfold meanOver
  rw [(hperm.map _).sum_eq, (hperm.map _).sum_eq, hlen, sum_days, sum_days]
  have hd : ∀ w : ℕ, (7 * w) / 7 = w ∧ (7 * w + 1) / 7 = w ∧ (7 * w + 2) / 7 = w ∧ (7 * w + 3) / 7 = w ∧
      (7 * w + 4) / 7 = w ∧ (7 * w + 5) / 7 = w ∧ (7 * w + 6) / 7 = w := by intro w; omega
  have hm : ∀ w : ℕ, (7 * w) % 7 = 0 ∧ (7 * w + 1) % 7 = 1 ∧ (7 * w + 2) % 7 = 2 ∧ (7 * w + 3) % 7 = 3 ∧
      (7 * w + 4) % 7 = 4 ∧ (7 * w + 5) % 7 = 5 ∧ (7 * w + 6) % 7 = 6 := by intro w; omega
  have e1 : ∀ w : ℕ, dayTime t (7 * w) + dayTime t (7 * w + 1) + dayTime t (7 * w + 2) + dayTime t (7 * w + 3) +
      dayTime t (7 * w + 4) + dayTime t (7 * w + 5) + dayTime t (7 * w + 6) = 7 * t.getD w 0 + -(7 / 2 / 365.25) := by
    intro w
    obtain ⟨a0, a1, a2, a3, a4, a5, a6⟩ := hd w
    obtain ⟨b0, b1, b2, b3, b4, b5, b6⟩ := hm w
    unfold dayTime week
    rw [a0, a1, a2, a3, a4, a5, a6, b0, b1, b2, b3, b4, b5, b6]
    push_cast
    ring
  have e2 : ∀ w : ℕ, week d (7 * w) + week d (7 * w + 1) + week d (7 * w + 2) + week d (7 * w + 3) +
      week d (7 * w + 4) + week d (7 * w + 5) + week d (7 * w + 6) = 7 * d.getD w 0 := by
    intro w
    obtain ⟨a0, a1, a2, a3, a4, a5, a6⟩ := hd w
    unfold week
    rw [a0, a1, a2, a3, a4, a5, a6]
    ring
  simp only [e1, e2]
  have e3 : ((List.range t.length).map fun w : ℕ => 7 * t.getD w 0 + -(7 / 2 / 365.25)).sum =
      7 * t.sum + t.length * -(7 / 2 / 365.25) := by
    rw [List.sum_map_add, List.sum_map_mul_left, hsum t rfl]; simp
  have e4 : ((List.range t.length).map fun w : ℕ => 7 * d.getD w 0).sum = 7 * d.sum := by
    rw [List.sum_map_mul_left, hsum d hl]
  rw [e3, e4, hl]
  push_cast
  simp only [Option.some.injEq, Prod.mk.injEq]
  constructor <;> field_simp <;> ring

/-! ## Theorems about the whole output -/

theorem mapM_some {α β : Type} (f : α → Option β) (g : α → β) (xs : List α) (h : ∀ x ∈ xs, f x = some (g x)) :
    xs.mapM f = some (xs.map g) := by
  induction xs with
  | nil => rfl
  | cons x xs ih =>
    rw [List.mapM_cons, h x List.mem_cons_self, ih fun y hy => h y (List.mem_cons_of_mem _ hy)]; rfl

/-- C56: one time, one month and one value per date, each the result for that date alone; the months are the
adjusted months of the output times -/
theorem convertWeekly_correct (argsort : List ℚ → List ℕ) (ha : IsArgsort argsort) (t d DATE : List ℚ)
    (hl : d.length = t.length) (ht : t ≠ []) (N : ℕ) (hN : 0 < N) :
    ∃ o, convertWeekly argsort t d DATE false N = some o ∧ o.time.length = DATE.length ∧
      o.data.length = DATE.length ∧ o.month.length = DATE.length ∧
      (∀ i (h : i < DATE.length), average argsort t d N DATE[i] = some (o.time.getD i 0, o.data.getD i 0)) ∧
      o.month = adjustMonths (o.time.map fun x => ⌊12 * (x - 2002)⌋ + 1) := by
  have hav : ∀ D, average argsort t d N D = some ((average argsort t d N D).getD (0, 0)) := by
    intro D
    obtain ⟨S, -, -, h⟩ := average_correct argsort ha t d hl ht N hN D
    rw [h]; rfl
  refine ⟨_, by unfold convertWeekly; rw [mapM_some _ (fun D => (average argsort t d N D).getD (0, 0)) DATE
    (fun D _ => hav D), Option.map_some], ?_, ?_, ?_, ?_, ?_⟩
  · simp
  · simp
  · simp [adjustMonths_length]
  · intro i h
    rw [hav DATE[i]]
    simp [store, h]
  · rfl

/-- C56: with a list of whole years for dates the times lose their fractions (for times after year 0), and
every month is the January of a year before repeated months are adjusted -/
theorem convertWeekly_int_dates (argsort : List ℚ → List ℕ) (t d DATE : List ℚ) (N : ℕ) (o : Out)
    (h : convertWeekly argsort t d DATE true N = some o) : ∀ x ∈ o.time, ∃ n : ℤ, x = n := by
  unfold convertWeekly at h
  rw [Option.map_eq_some_iff] at h
  obtain ⟨rs, -, rfl⟩ := h
  intro x hx
  simp only [List.mem_map] at hx
  obtain ⟨r, -, rfl⟩ := hx
  unfold store
  rw [if_pos rfl]
  split_ifs
  · exact ⟨_, rfl⟩
  · exact ⟨_, rfl⟩

/-- C56: averaging no days is not a number -/
theorem average_no_neighbours (argsort : List ℚ → List ℕ) (t d : List ℚ) (D : ℚ) : average argsort t d 0 D = none := by
  unfold average; simp [mean]

/-- an argsort exists, and four weeks of data with a date in the middle meet the hypotheses -/
example : ∃ argsort, IsArgsort argsort := by
  refine ⟨fun keys => (List.range keys.length).insertionSort fun i j => keys.getD i 0 ≤ keys.getD j 0, fun keys => ⟨?_, ?_⟩⟩
  · exact List.perm_insertionSort _ _
  · have : Std.Total fun i j : ℕ => keys.getD i 0 ≤ keys.getD j 0 := ⟨fun i j => le_total _ _⟩
    have : IsTrans ℕ fun i j : ℕ => keys.getD i 0 ≤ keys.getD j 0 := ⟨fun i j k h1 h2 => le_trans h1 h2⟩
    exact List.pairwise_insertionSort _ _

example : |dayTime [2002, 2002 + 7 / 365.25] 3 - 2002| ≤ 1 / 365.25 ∧ |dayTime [2002, 2002 + 7 / 365.25] 4 - 2002| ≤ 1 / 365.25 := by
  unfold dayTime week; norm_num [abs_le]

end Verif.Weekly
