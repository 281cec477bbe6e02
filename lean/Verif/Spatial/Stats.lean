import Verif.Spatial.Mask
import Mathlib.Tactic.FieldSimp
import Mathlib.Algebra.BigOperators.Group.List.Basic
import Mathlib.Algebra.CharZero.Defs

/-!
# C28 temporal statistics; the `spatial` parts of C18 (subset, index) and C19 (from_list)
-/
set_option linter.unusedSectionVars false
set_option linter.unusedSimpArgs false
namespace Verif.Spatial
open Verif.Harmonics (Err)
open Verif.Time
variable {K : Type} [Field K] [DecidableEq K]

/-- Specification: the cell `i` has the values `xs` at the dates `ts`, none of them NaN. -/
def CellValues (o : Sp K) (ts : List ℕ) (i : Idx) (xs : List K) : Prop :=
  ts.map (fun t => o.data (atDate i t)) = xs.map some

theorem mapM_some (xs : List K) : (xs.map some).mapM id = some xs := by
  induction xs with
  | nil => rfl
  | cons x xs ih => simp [List.mapM_cons, ih]

theorem mapM_eq_some (l : List (Val K)) (xs : List K) :
    l.mapM id = some xs ↔ l = xs.map some := by
  induction l generalizing xs with
  | nil => cases xs <;> simp
  | cons a l ih =>
    cases a with
    | none => cases xs <;> simp [List.mapM_cons]
    | some x =>
      cases xs with
      | nil => simp [List.mapM_cons]; cases l.mapM id <;> simp
      | cons y ys =>
        simp only [List.mapM_cons, id_eq, Option.bind_eq_bind, Option.bind_some, List.map_cons,
          List.cons.injEq, Option.some.injEq]
        rw [← ih ys]
        cases l.mapM id <;> simp

theorem reduceCell_values (o : Sp K) (red : List K → Val K) (ts : List ℕ) (i : Idx) (xs : List K)
    (h : CellValues o ts i xs) : reduceCell red o.data ts i = red xs := by
  unfold reduceCell; rw [h, mapM_some]

/-- the general statement for `mean`, `sum`, `max`, `min` -/
theorem reduced_spec (o : Sp K) (red : List K → Val K) (ts : List ℕ) :
    (∀ f, o.fill = some f → ∀ i, (updateMask (reduced o red ts)).mask i = true ↔
      (∃ t ∈ ts, o.mask (atDate i t) = true) ∨ reduceCell red o.data ts i = f ∨
        reduceCell red o.data ts i = none) ∧
    (o.fill = none → ∀ i, (updateMask (reduced o red ts)).mask i = true ↔
      ∃ t ∈ ts, o.mask (atDate i t) = true) ∧
    (∀ i, (updateMask (reduced o red ts)).mask i = false →
      (updateMask (reduced o red ts)).data i = reduceCell red o.data ts i) := by
  refine ⟨fun f hf i => ?_, fun hf i => ?_, fun i h => (updateMask_valid _ i h).1⟩
  · rw [updateMask_mask (reduced o red ts) f hf]; simp [reduced, anyMask]
  · rw [updateMask_noFill (reduced o red ts) hf]; simp [reduced, anyMask]

/-- C28: `mean`, `sum`, `max` and `min` of a cell with the values `xs` at the selected dates: the
cell is masked in the result exactly if it is masked at a selected date or the statistic happens
to be the fill value (or there is no value); otherwise it holds the statistic. -/
theorem statistics_cell (o : Sp K) (red : List K → Val K) (ts : List ℕ) (i : Idx) (xs : List K)
    (hv : CellValues o ts i xs) (f : Val K) (hf : o.fill = some f) :
    ((updateMask (reduced o red ts)).mask i = true ↔
      (∃ t ∈ ts, o.mask (atDate i t) = true) ∨ red xs = f ∨ red xs = none) ∧
    ((updateMask (reduced o red ts)).mask i = false →
      (updateMask (reduced o red ts)).data i = red xs) := by
  obtain ⟨h1, -, h3⟩ := reduced_spec o red ts
  have := h1 f hf i
  rw [reduceCell_values o red ts i xs hv] at this
  refine ⟨this, fun h => ?_⟩
  rw [h3 i h, reduceCell_values o red ts i xs hv]

/-- C28: a NaN at any selected date makes the statistic NaN: with a fill value the cell is masked and
filled, without one the cell is NaN.  The result has one date. -/
theorem statistics_nan (o : Sp K) (red : List K → Val K) (ts : List ℕ) (i : Idx)
    (h : ∃ t ∈ ts, o.data (atDate i t) = none) :
    (∀ f, o.fill = some f → (updateMask (reduced o red ts)).mask i = true ∧
      (updateMask (reduced o red ts)).data i = f) ∧
    (o.fill = none → (updateMask (reduced o red ts)).data i = none) := by
  have hn : reduceCell red o.data ts i = none := by
    unfold reduceCell
    cases hm : (ts.map fun t => o.data (atDate i t)).mapM id with
    | none => rfl
    | some xs =>
      exfalso
      rw [mapM_eq_some] at hm
      obtain ⟨t, ht, hd⟩ := h
      have : (none : Val K) ∈ ts.map fun t => o.data (atDate i t) := List.mem_map.2 ⟨t, ht, hd⟩
      rw [hm] at this
      simp at this
  refine ⟨fun f hf => ?_, fun hf => ?_⟩
  · have hm : (updateMask (reduced o red ts)).mask i = true :=
      ((reduced_spec o red ts).1 f hf i).2 (Or.inr (Or.inr hn))
    refine ⟨hm, ?_⟩
    have hf' : (reduced o red ts).fill = some f := hf
    unfold updateMask at hm ⊢
    rw [hf'] at hm ⊢
    simp only [fillIn] at hm ⊢
    rw [if_pos hm]
  · have hf' : (reduced o red ts).fill = none := hf
    unfold updateMask
    rw [hf']
    exact hn

/-- C28: the statistics have one date and the grid of the input -/
theorem statistics_shape (o : Sp K) (red : List K → Val K) (ts : List ℕ) :
    (updateMask (reduced o red ts)).shape 0 = o.shape 0 ∧ (updateMask (reduced o red ts)).shape 1 = o.shape 1 ∧
    (updateMask (reduced o red ts)).shape 2 = 1 ∧ (updateMask (reduced o red ts)).ndim3 = false ∧
    (updateMask (reduced o red ts)).lat = o.lat ∧ (updateMask (reduced o red ts)).lon = o.lon := by
  have hs : (reduced o red ts).shape = Function.update o.shape 2 1 := rfl
  unfold updateMask
  split <;> refine ⟨?_, ?_, ?_, rfl, rfl, rfl⟩ <;> simp [hs]

/-- C28: the mean over the dates `ts`. -/
theorem mean_cell (o : Sp K) (ts : List ℕ) (i : Idx) (xs : List K) (hts : ts ≠ [])
    (hv : CellValues o ts i xs) (f : Val K) (hf : o.fill = some f) :
    ((mean o ts).mask i = true ↔
      (∃ t ∈ ts, o.mask (atDate i t) = true) ∨ f = some (xs.sum / ts.length)) ∧
    ((mean o ts).mask i = false → (mean o ts).data i = some (xs.sum / ts.length)) := by
  have hlen : xs.length = ts.length := by
    have := congrArg List.length hv; simpa using this.symm
  have hne : xs ≠ [] := by
    intro h; rw [h] at hlen; exact hts (List.length_eq_zero_iff.1 hlen.symm)
  have hred : meanOf xs = some (xs.sum / ts.length) := by simp [meanOf, hne, hlen]
  obtain ⟨h1, h2⟩ := statistics_cell o meanOf ts i xs hv f hf
  rw [hred] at h1 h2
  refine ⟨?_, h2⟩
  show (updateMask (reduced o meanOf ts)).mask i = true ↔ _
  rw [h1, eq_comm (b := f)]; simp

/-- C28: the sum of the powers over all dates. -/
theorem sum_cell (o : Sp K) (p : ℕ) (i : Idx) (xs : List K)
    (hv : CellValues o (List.range (o.shape 2)) i xs) (f : Val K) (hf : o.fill = some f) :
    ((sum o p).mask i = true ↔
      (∃ t < o.shape 2, o.mask (atDate i t) = true) ∨ f = some (xs.map (· ^ p)).sum) ∧
    ((sum o p).mask i = false → (sum o p).data i = some (xs.map (· ^ p)).sum) := by
  obtain ⟨h1, h2⟩ := statistics_cell o (fun xs => some (xs.map (· ^ p)).sum) _ i xs hv f hf
  refine ⟨?_, h2⟩
  show (updateMask _).mask i = true ↔ _
  rw [h1, eq_comm (b := f)]; simp

/-- C28: the maximum over all dates: a value of the cell that no other value exceeds. -/
theorem max_cell [LinearOrder K] (o : Sp K) (i : Idx) (xs : List K)
    (hv : CellValues o (List.range (o.shape 2)) i xs) (hd : o.shape 2 ≠ 0)
    (f : Val K) (hf : o.fill = some f) :
    ∃ x ∈ xs, (∀ y ∈ xs, y ≤ x) ∧
    ((maximum o).mask i = true ↔
      (∃ t < o.shape 2, o.mask (atDate i t) = true) ∨ f = some x) ∧
    ((maximum o).mask i = false → (maximum o).data i = some x) := by
  have hlen : xs.length = o.shape 2 := by
    have := congrArg List.length hv; simpa using this.symm
  have hne : xs ≠ [] := by intro h; rw [h] at hlen; exact hd hlen.symm
  obtain ⟨x, hx⟩ := Option.ne_none_iff_exists'.1 (by simpa using hne : xs.max? ≠ none)
  obtain ⟨hx1, hx2⟩ := List.max?_eq_some_iff.1 hx
  obtain ⟨h1, h2⟩ := statistics_cell o (fun xs => xs.max?) _ i xs hv f hf
  simp only [hx] at h1 h2
  refine ⟨x, hx1, hx2, ?_, h2⟩
  show (updateMask _).mask i = true ↔ _
  rw [h1, eq_comm (b := f)]; simp

/-- C28: the minimum over all dates. -/
theorem min_cell [LinearOrder K] (o : Sp K) (i : Idx) (xs : List K)
    (hv : CellValues o (List.range (o.shape 2)) i xs) (hd : o.shape 2 ≠ 0)
    (f : Val K) (hf : o.fill = some f) :
    ∃ x ∈ xs, (∀ y ∈ xs, x ≤ y) ∧
    ((minimum o).mask i = true ↔
      (∃ t < o.shape 2, o.mask (atDate i t) = true) ∨ f = some x) ∧
    ((minimum o).mask i = false → (minimum o).data i = some x) := by
  have hlen : xs.length = o.shape 2 := by
    have := congrArg List.length hv; simpa using this.symm
  have hne : xs ≠ [] := by intro h; rw [h] at hlen; exact hd hlen.symm
  obtain ⟨x, hx⟩ := Option.ne_none_iff_exists'.1 (by simpa using hne : xs.min? ≠ none)
  obtain ⟨hx1, hx2⟩ := List.min?_eq_some_iff.1 hx
  obtain ⟨h1, h2⟩ := statistics_cell o (fun xs => xs.min?) _ i xs hv f hf
  simp only [hx] at h1 h2
  refine ⟨x, hx1, hx2, ?_, h2⟩
  show (updateMask _).mask i = true ↔ _
  rw [h1, eq_comm (b := f)]; simp

/-- without a fill value the mask of the statistic is exactly the union of the masks -/
theorem statistics_noFill (o : Sp K) (ts : List ℕ) (hf : o.fill = none) (i : Idx) :
    (mean o ts).mask i = true ↔ ∃ t ∈ ts, o.mask (atDate i t) = true :=
  (reduced_spec o meanOf ts).2.1 hf i

/-- the fill value of a valid statistic (negative part of C28): two dates with the values 1 and
-1 and the fill value 0: the mean is 0 and the cell is masked although no date is. -/
def ex0 : Sp ℚ :=
  { shape := ![1, 1, 2], ndim3 := true
    data := fun i => if i 2 = 0 then some 1 else some (-1)
    mask := fun _ => false, error := none, lat := [0], lon := [0], time := [2002, 2003]
    month := [4, 16], fill := some (some 0) }

/-- C28 (negative): a statistic that equals the fill value is masked although the cell is valid
at every date. -/
theorem mean_masks_valid :
    (∀ t < 2, ex0.mask (atDate ![0, 0, 0] t) = false) ∧ (mean ex0 [0, 1]).mask ![0, 0, 0] = true := by
  decide +kernel

/-! ## removing the mean -/

theorem atDate_atDate (i : Idx) (s t : ℕ) : atDate (atDate i s) t = atDate i t := by
  simp [atDate]

theorem atDate_two (i : Idx) (s : ℕ) : atDate i s 2 = s := by simp [atDate]

/-- C28: values after `mean(apply=True)` over the dates `ts`: every date of the object loses the
mean of the cell. -/
theorem removeMean_cell (o : Sp K) (ts : List ℕ) (i : Idx) (xs : List K) (hts : ts ≠ [])
    (hv : CellValues o ts i xs) (t : ℕ) (ht : t < o.time.length) (x : K)
    (hx : o.data (atDate i t) = some x) :
    (removeMean o ts).data (atDate i t) = some (x - xs.sum / ts.length) ∧
    (removeMean o ts).mask = o.mask := by
  refine ⟨?_, rfl⟩
  have hlen : xs.length = ts.length := by
    have := congrArg List.length hv; simpa using this.symm
  have hne : xs ≠ [] := by
    intro h; rw [h] at hlen; exact hts (List.length_eq_zero_iff.1 hlen.symm)
  simp only [removeMean, atDate_two, ht, if_true, hx]
  have hcell : (reduced o meanOf ts).data (atDate (atDate i t) 0) = some (xs.sum / ts.length) := by
    show reduceCell meanOf o.data ts _ = _
    rw [reduceCell_values o meanOf ts _ xs]
    · simp [meanOf, hne, hlen]
    · unfold CellValues; simp only [atDate_atDate]; exact hv
  rw [hcell]; rfl

theorem sum_sub_const (xs : List K) (c : K) : (xs.map (· - c)).sum = xs.sum - xs.length * c := by
  induction xs with
  | nil => simp
  | cons x xs ih => simp [ih]; ring

/-- C28: after removing the mean of the dates `ts`, the mean over the same dates is zero in every
cell without NaN. -/
theorem removeMean_zero [CharZero K] (o : Sp K) (ts : List ℕ) (i : Idx) (xs : List K) (hts : ts ≠ [])
    (hv : CellValues o ts i xs) (hin : ∀ t ∈ ts, t < o.time.length) :
    ∃ ys, CellValues (removeMean o ts) ts i ys ∧ ys.sum = 0 := by
  refine ⟨xs.map (· - xs.sum / ts.length), ?_, ?_⟩
  · unfold CellValues at hv ⊢
    have hlen : xs.length = ts.length := by
      have := congrArg List.length hv; simpa using this.symm
    apply List.ext_getElem
    · simp [hlen]
    · intro n h1 h2
      simp only [List.length_map] at h1
      simp only [List.getElem_map]
      have hx : o.data (atDate i ts[n]) = some (xs[n]'(by rw [hlen]; exact h1)) := by
        have : (ts.map (fun t => o.data (atDate i t)))[n]? = (xs.map some)[n]? := by rw [hv]
        simpa [h1, hlen] using this
      exact (removeMean_cell o ts i xs hts hv ts[n] (hin _ (List.getElem_mem _)) _ hx).1
  · have hlen : xs.length = ts.length := by
      have := congrArg List.length hv; simpa using this.symm
    rw [sum_sub_const, hlen]
    have : (ts.length : K) ≠ 0 := by
      rw [Nat.cast_ne_zero]; intro h; exact hts (List.length_eq_zero_iff.1 h)
    field_simp; ring

/-- one cell: valid with value 2 at the first date, masked at the second -/
def ex2 : Sp ℚ :=
  { shape := ![1, 1, 2], ndim3 := true
    data := fun i => if i 2 = 0 then some 2 else some (-9999)
    mask := fun i => i 2 ≠ 0, error := none, lat := [0], lon := [0], time := [2002, 2003]
    month := [4, 16], fill := some (some (-9999)) }

/-- C28 (negative): in a cell masked at some dates the fill value enters the removed mean: the
valid value 2 becomes 2 - (2-9999)/2, still marked valid, and the masked date no longer holds the
fill value. -/
theorem removeMean_fill_contaminates :
    (removeMean ex2 [0, 1]).data ![0, 0, 0] = some (2 - (2 - 9999) / 2) ∧
    (removeMean ex2 [0, 1]).mask ![0, 0, 0] = false ∧
    (removeMean ex2 [0, 1]).data ![0, 0, 1] ≠ some (-9999) ∧
    (removeMean ex2 [0, 1]).mask ![0, 0, 1] = true := by decide +kernel

/-- the hypotheses are met: values, dates and fill value of `ex0` -/
example : CellValues ex0 [0, 1] ![0, 0, 0] [1, -1] ∧ ex0.fill = some (some 0) ∧
    CellValues ex0 (List.range (ex0.shape 2)) ![0, 0, 0] [1, -1] := by
  refine ⟨?_, rfl, ?_⟩ <;> (unfold CellValues; decide +kernel)

/-! ## C18 subset, index; C19 from_list -/

/-- Specification: `r` consists of the dates `is` of `o`, in this order, each with its own field,
mask, error, time and month. -/
def Selects (o r : Sp K) (is : List ℕ) : Prop :=
  r.shape 0 = o.shape 0 ∧ r.shape 1 = o.shape 1 ∧ r.shape 2 = is.length ∧
  r.time = is.map (fun i => o.time.getD i 0) ∧ r.month = is.map (fun i => o.month.getD i 0) ∧
  r.lat = o.lat ∧ r.lon = o.lon ∧ r.fill = o.fill ∧ (r.error.isSome ↔ o.error.isSome) ∧
  ∀ i, r.In i → ∀ j, is[i 2]? = some j →
    r.data i = o.data (atDate i j) ∧ r.mask i = o.mask (atDate i j) ∧
    ∀ e e', o.error = some e → r.error = some e' → e' i = e (atDate i j)

theorem map_range_get {α : Type} (is : List ℕ) (f : ℕ → α) (d : α) :
    ((List.range is.length).map fun t => match is[t]? with | some i => f i | none => d)
      = is.map f := by
  apply List.ext_getElem
  · simp
  · intro i h1 h2
    simp only [List.length_map, List.length_range] at h1
    simp [h1]

/-- selecting existing dates of a consistent object -/
theorem takeDates_selects (o : Sp K) (hc : Consistent o) (is : List ℕ) (b : Bool)
    (hin : ∀ j ∈ is, j < o.shape 2) :
    Selects o (updateMask { takeDates o is.length is with ndim3 := b }) is := by
  set t : Sp K := { takeDates o is.length is with ndim3 := b } with ht
  have hcons : Consistent t := by
    intro f hf i hi
    have hi2 : i 2 < is.length := by have := hi 2; simpa [ht, takeDates] using this
    have hj : is[i 2]? = some is[i 2] := by simp [hi2]
    have hino : o.In (atDate i is[i 2]) := by
      intro k
      by_cases hk : k = 2
      · subst hk; rw [atDate_two]; exact hin _ (List.getElem_mem _)
      · have := hi k; simp [ht, takeDates, hk] at this; simpa [atDate, hk] using this
    obtain ⟨h1, h2⟩ := hc f hf _ hino
    have hd : t.data i = o.data (atDate i is[i 2]) := by simp [ht, takeDates, hj]
    have hm : t.mask i = o.mask (atDate i is[i 2]) := by simp [ht, takeDates, hj]
    rw [hd, hm]
    refine ⟨fun h => ⟨(h1 h).1, fun e he => ?_⟩, h2⟩
    cases hoe : o.error with
    | none => simp [ht, takeDates, hoe] at he
    | some e0 =>
      simp only [ht, takeDates, hoe, Option.map_some, Option.some.injEq] at he
      rw [← he]; simp only [hj]; exact (h1 h).2 e0 hoe
  obtain ⟨-, -, -, -, -, -, -, -, hcell⟩ := updateMask_same t hcons
  refine ⟨by simp [ht, takeDates], by simp [ht, takeDates], by simp [ht, takeDates], ?_, ?_,
    by simp [ht, takeDates], by simp [ht, takeDates], by simp [ht, takeDates],
    by simp [ht, takeDates], ?_⟩
  · rw [updateMask_time]; exact map_range_get is (fun i => o.time.getD i 0) 0
  · rw [updateMask_month]; exact map_range_get is (fun i => o.month.getD i 0) 0
  · intro i hi j hj
    have hti : t.In i := fun k => by have := hi k; rwa [updateMask_shape] at this
    obtain ⟨h1, h2, h3⟩ := hcell i hti
    refine ⟨by rw [h1]; simp [ht, takeDates, hj], by rw [h2]; simp [ht, takeDates, hj],
      fun e e' he he' => ?_⟩
    rw [h3 _ e' (by simp only [ht, takeDates, he]; rfl) he']; simp [hj]

/-- dates of the object whose month is requested -/
def hits (o : Sp K) (months : List ℤ) : List ℕ :=
  (List.range o.month.length).filter fun i => o.month.getD i 0 ∈ months

theorem hits_month (o : Sp K) (months : List ℤ) :
    (hits o months).map (fun i => o.month.getD i 0) = o.month.filter (· ∈ months) := by
  have key : o.month = (List.range o.month.length).map (fun i => o.month.getD i 0) := by
    apply List.ext_getElem
    · simp
    · intro i h1 h2; simp [h1]
  conv_rhs => rw [key]
  rw [List.filter_map]
  rfl

theorem hits_length (o : Sp K) (months : List ℤ) (hn : o.month.Nodup) (hq : months.Nodup)
    (ha : ∀ m ∈ months, m ∈ o.month) : (hits o months).length = months.length := by
  have := congrArg List.length (hits_month o months)
  rw [List.length_map] at this
  rw [this]
  apply List.Perm.length_eq
  rw [List.perm_ext_iff_of_nodup (hn.filter _) hq]
  intro m; simp only [List.mem_filter, decide_eq_true_eq]
  exact ⟨fun h => h.2, fun h => ⟨ha m h, h⟩⟩

/-- C18: `subset` of a consistent object with distinct months, all requested months present and
requested once, returns exactly the dates with these months, in the order of the object. -/
theorem subset_spec (o : Sp K) (hc : Consistent o) (hn : o.month.Nodup)
    (hlen : o.month.length = o.shape 2) (months : List ℤ)
    (hq : months.Nodup) (ha : ∀ m ∈ months, m ∈ o.month) :
    ∃ r is, subset o months = .ok r ∧ Selects o r is ∧ is.Pairwise (· < ·) ∧
      ∀ i, i ∈ is ↔ i < o.month.length ∧ o.month.getD i 0 ∈ months := by
  have hl := hits_length o months hn hq ha
  refine ⟨updateMask { takeDates o (hits o months).length (hits o months) with
    ndim3 := months.length ≠ 1 }, hits o months, ?_, takeDates_selects o hc _ _ ?_,
    List.pairwise_lt_range.filter _, fun i => by simp [hits]⟩
  · have hcheck : (months.filter fun m => m ∉ o.month).dedup = [] := by
      rw [List.filter_eq_nil_iff.2]
      · rfl
      · intro m hm; simp [ha m hm]
    unfold subset
    simp only
    rw [if_neg (by simpa using hcheck)]
    have h' : ((List.range o.month.length).filter fun i => o.month.getD i 0 ∈ months).length
        = months.length := hl
    rw [if_neg (by rw [h']; omega), hl]
    rfl
  · intro j hj; rw [← hlen]; simpa [hits] using (List.mem_filter.1 hj).1

/-- C18: a requested month that is not in the object raises naming exactly the missing months. -/
theorem subset_missing (o : Sp K) (months : List ℤ) (hm : ∃ m ∈ months, m ∉ o.month) :
    ∃ check, subset o months = .error (.ioError check) ∧
      ∀ m, m ∈ check ↔ m ∈ months ∧ m ∉ o.month := by
  refine ⟨(months.filter fun m => m ∉ o.month).dedup, ?_, ?_⟩
  · unfold subset
    simp only
    rw [if_pos]
    obtain ⟨m, h1, h2⟩ := hm
    intro he
    have : m ∈ (months.filter fun m => m ∉ o.month).dedup := by
      rw [List.mem_dedup, List.mem_filter]; simp [h1, h2]
    rw [he] at this; simp at this
  · intro m; simp [List.mem_dedup, List.mem_filter]

/-- C18/C20: `index` of an existing date returns that date. -/
theorem index_spec (o : Sp K) (hc : Consistent o) (j : ℕ) (h3 : o.ndim3 = true)
    (h1 : j < o.shape 2) (ht : j < o.time.length) (hm : j < o.month.length) :
    ∃ r, index o j = .ok r ∧ Selects o r [j] ∧ r.ndim3 = false := by
  refine ⟨_, by unfold index; rw [if_pos ⟨h3, h1, ht, hm⟩], ?_, by simp⟩
  exact takeDates_selects o hc [j] false (by simpa using h1)

/-- the hypotheses of `subset_spec` are met by a series with masked cells -/
example : ex2.month.Nodup ∧ ex2.month.length = ex2.shape 2 ∧ ∀ m ∈ [(16 : ℤ)], m ∈ ex2.month := by
  decide +kernel

/-- C19: `from_list` of single-date consistent objects of the same shape and fill value: position
`t` of the result holds field, mask, time of the object `p[t]`; latitudes and longitudes are those
of the first object, the months are the `adjust_months` of the objects' months in that order. -/
theorem fromList_spec (o0 : Sp K) (rest : List (Sp K)) (p : List ℕ)
    (hp : p.Perm (List.range (o0 :: rest).length))
    (hc : ∀ o ∈ o0 :: rest, Consistent o ∧ o.fill = o0.fill ∧ o.shape 0 = o0.shape 0 ∧
      o.shape 1 = o0.shape 1 ∧ o.shape 2 = 1 ∧ (o.error.isSome ↔ o0.error.isSome)) :
    ∃ r, fromList (o0 :: rest) p = .ok r ∧ r.ndim3 = true ∧
      r.shape 2 = (o0 :: rest).length ∧ r.fill = o0.fill ∧ r.lat = o0.lat ∧ r.lon = o0.lon ∧
      r.month = adjustMonths (p.map fun k => (((o0 :: rest)[k]?).bind (·.month.head?)).getD 0) ∧
      ∀ (t k : ℕ) (o : Sp K), p[t]? = some k → (o0 :: rest)[k]? = some o →
        r.time[t]? = some (o.time.head?.getD 0) ∧
        ∀ i, r.In i → i 2 = t →
          r.data i = o.data (atDate i 0) ∧ r.mask i = o.mask (atDate i 0) ∧
          ∀ e e', o.error = some e → r.error = some e' → e' i = e (atDate i 0) := by
  have hall : ((o0 :: rest).all fun o => o.shape 0 = o0.shape 0 && o.shape 1 = o0.shape 1) = true := by
    rw [List.all_eq_true]; intro o ho
    obtain ⟨-, -, h0, h1, -⟩ := hc o ho
    simp [h0, h1]
  have hget : ∀ t < (o0 :: rest).length, ∃ k o, p[t]? = some k ∧ (o0 :: rest)[k]? = some o := by
    intro t ht
    have hl : p.length = (o0 :: rest).length := by simpa using hp.length_eq
    have h1 : t < p.length := by omega
    have h2 : p[t] < (o0 :: rest).length := by
      have : p[t] ∈ List.range (o0 :: rest).length := hp.mem_iff.1 (List.getElem_mem h1)
      simpa using this
    exact ⟨p[t], (o0 :: rest)[p[t]], by simp [h1], by simp only [List.getElem?_eq_getElem h2]⟩
  unfold fromList
  simp only
  rw [if_pos hall]
  set objs := o0 :: rest with hobjs
  generalize hT : (Sp.mk _ _ _ _ _ _ _ _ _ _ : Sp K) = T
  have hTs : T.shape = Function.update o0.shape 2 objs.length := by rw [← hT]
  have hTf : T.fill = o0.fill := by rw [← hT]
  have hTd : ∀ i, T.data i = match (p[i 2]?).bind (objs[·]?) with
            | some o => o.data (atDate i 0) | none => some 0 := by rw [← hT]; intro i; rfl
  have hTm : ∀ i, T.mask i = match (p[i 2]?).bind (objs[·]?) with
            | some o => o.mask (atDate i 0) | none => false := by rw [← hT]; intro i; rfl
  have hTe : T.error = o0.error.map fun _ i => match (p[i 2]?).bind (objs[·]?) with
            | some o => (match o.error with | some e => e (atDate i 0) | none => some 0)
            | none => some 0 := by rw [← hT]; rfl
  have hTt : T.time = p.map fun i => ((objs[i]?).bind (·.time.head?)).getD 0 := by rw [← hT]
  have hT3 : T.ndim3 = true := by rw [← hT]
  have hin : ∀ i, T.In i → ∀ o ∈ objs, o.In (atDate i 0) := by
    intro i hi o ho k
    obtain ⟨-, -, h0, h1, h2, -⟩ := hc o ho
    have a0 := hi 0; have a1 := hi 1
    rw [hTs] at a0 a1
    match k with
    | 0 => rw [h0]; simpa [atDate] using a0
    | 1 => rw [h1]; simpa [atDate] using a1
    | 2 => rw [h2, atDate_two]; omega
  have hcons : Consistent T := by
    intro f hf i hi
    have hi2 : i 2 < objs.length := by have := hi 2; rw [hTs] at this; simpa using this
    obtain ⟨k, o, hk, ho⟩ := hget (i 2) hi2
    have hmem : o ∈ objs := List.mem_of_getElem? ho
    obtain ⟨hco, hfo, -, -, -, -⟩ := hc o hmem
    obtain ⟨h1, h2⟩ := hco f (by rw [hfo, ← hTf]; exact hf) _ (hin i hi o hmem)
    rw [hTd, hTm]
    simp only [hk, Option.bind_some, ho]
    refine ⟨fun h => ⟨(h1 h).1, fun e he => ?_⟩, h2⟩
    obtain ⟨-, -, -, -, -, hes⟩ := hc o hmem
    rw [hTe] at he
    cases h0 : o0.error with
    | none => rw [h0] at he; simp at he
    | some e0 =>
      rw [h0] at he
      simp only [Option.map_some, Option.some.injEq] at he
      obtain ⟨e1, he1⟩ := Option.isSome_iff_exists.1 (hes.2 (by simp [h0]))
      rw [← he]; simp only [hk, Option.bind_some, ho, he1]
      exact (h1 h).2 e1 he1
  obtain ⟨-, -, -, -, -, -, -, -, hcell⟩ := updateMask_same T hcons
  refine ⟨_, rfl, by simp [hT3], by simp [hTs], by simp [hTf],
    by rw [updateMask_lat, ← hT], by rw [updateMask_lon, ← hT], by rw [updateMask_month, ← hT], ?_⟩
  intro t k o hk ho
  refine ⟨?_, fun i hi hit => ?_⟩
  · rw [updateMask_time, hTt]
    have : t < p.length := (List.getElem?_eq_some_iff.1 hk).1
    rw [List.getElem?_map, hk]; simp [ho]
  · have hTi : T.In i := fun k => by have := hi k; rwa [updateMask_shape] at this
    obtain ⟨h1, h2, h3⟩ := hcell i hTi
    subst hit
    refine ⟨by rw [h1, hTd]; simp [hk, ho], by rw [h2, hTm]; simp [hk, ho], fun e e' he he' => ?_⟩
    obtain ⟨-, -, -, -, -, hes⟩ := hc o (List.mem_of_getElem? ho)
    obtain ⟨e0, he0⟩ := Option.isSome_iff_exists.1 (hes.1 (by simp [he]))
    rw [h3 _ e' (by rw [hTe, he0]; rfl) he']
    simp [hk, ho, he]

/-! ## extend_matrix -/

/-- the extension shows the original in its interior columns and wraps around at both ends -/
theorem extendMatrix_spec (o : Sp K) (hc : Consistent o) (hx : 0 < o.shape 1) (i : Idx)
    (hi : (extendMatrix o).In i) :
    let j := Function.update i 1 ((i 1 + o.shape 1 - 1) % o.shape 1)
    o.In j ∧ (extendMatrix o).data i = o.data j ∧ (extendMatrix o).mask i = o.mask j := by
  intro j
  set t : Sp K := { copy o with
    shape := Function.update o.shape 1 (o.shape 1 + 2)
    lon := [o.lon.getD 0 0 - |o.lon.getD 1 0 - o.lon.getD 0 0|] ++ o.lon ++
      [o.lon.getD (o.lon.length - 1) 0 + |o.lat.getD 1 0 - o.lat.getD 0 0|]
    data := fun i => o.data (Function.update i 1 (wrapCol (o.shape 1) (i 1)))
    mask := fun i => o.mask (Function.update i 1 (wrapCol (o.shape 1) (i 1)))
    error := o.error.map fun e i => e (Function.update i 1 (wrapCol (o.shape 1) (i 1))) } with ht
  have he : extendMatrix o = updateMask t := by
    simp only [extendMatrix, ht, copy_lat, copy_lon]
  have hwrap : ∀ c < o.shape 1 + 2, wrapCol (o.shape 1) c = (c + o.shape 1 - 1) % o.shape 1 := by
    intro c hcl
    unfold wrapCol
    split
    · subst c; rw [Nat.mod_eq_of_lt (by omega)]; omega
    · split
      · subst c
        have : o.shape 1 + 1 + o.shape 1 - 1 = 2 * o.shape 1 := by omega
        rw [this, Nat.mul_mod_left]
      · have : c + o.shape 1 - 1 = (c - 1) + o.shape 1 := by omega
        rw [this, Nat.add_mod_right, Nat.mod_eq_of_lt (by omega)]
  have hin : ∀ i, t.In i → o.In (Function.update i 1 (wrapCol (o.shape 1) (i 1))) := by
    intro i hi k
    have h1 := hi 1
    simp only [ht, Function.update_self] at h1
    by_cases hk : k = 1
    · subst hk; rw [Function.update_self, hwrap _ h1]; exact Nat.mod_lt _ hx
    · have := hi k; simp [ht, hk] at this; simpa [hk] using this
  have hcons : Consistent t := by
    intro f hf i hi
    have hf' : o.fill = some f := by simpa [ht] using hf
    obtain ⟨h1, h2⟩ := hc f hf' _ (hin i hi)
    refine ⟨fun h => ⟨(h1 h).1, fun e he => ?_⟩, h2⟩
    cases hoe : o.error with
    | none => simp [ht, hoe] at he
    | some e0 =>
      simp only [ht, hoe, Option.map_some, Option.some.injEq] at he
      rw [← he]; exact (h1 h).2 e0 hoe
  have hti : t.In i := fun k => by have := hi k; rwa [he, updateMask_shape] at this
  obtain ⟨-, -, -, -, -, -, -, -, hcell⟩ := updateMask_same t hcons
  obtain ⟨h1, h2, -⟩ := hcell i hti
  have hj : Function.update i 1 (wrapCol (o.shape 1) (i 1)) = j := by
    have h1 := hti 1
    simp only [ht, Function.update_self] at h1
    rw [hwrap _ h1]
  refine ⟨by rw [← hj]; exact hin i hti, ?_, ?_⟩
  · rw [he, h1]; simp only [ht]; rw [hj]
  · rw [he, h2]; simp only [ht]; rw [hj]

/-- longitudes of the extension: one step before the first, the originals, and the last longitude
plus the *latitude* step -/
theorem extendMatrix_lon (o : Sp K) :
    (extendMatrix o).lon = (o.lon.getD 0 0 - |o.lon.getD 1 0 - o.lon.getD 0 0|) ::
      (o.lon ++ [o.lon.getD (o.lon.length - 1) 0 + |o.lat.getD 1 0 - o.lat.getD 0 0|]) := by
  simp [extendMatrix]

end Verif.Spatial
