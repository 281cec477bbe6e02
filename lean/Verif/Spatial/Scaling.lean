import Verif.Spatial.Stats
import Verif.Common.Sum
import Mathlib.Algebra.Order.BigOperators.Ring.Finset
import Mathlib.Tactic.Linarith
import Mathlib.Tactic.Positivity
import Mathlib.Tactic.IntervalCases

/-!
# C58 scaling factors (`scaling_factors.kfactor`)
-/
set_option linter.unusedSectionVars false
set_option linter.unusedSimpArgs false
namespace Verif.Spatial
open Verif.Harmonics (Err)
variable {K : Type} [Field K] [DecidableEq K]

/-! ## Model -/

/-- values of the cell `i` at the first `n` dates, multiplied -/
def dotCell (n : ℕ) (a b : Idx → Val K) (i : Idx) : Val K :=
  match ((List.range n).map fun t => vmap2 (· * ·) (a (atDate i t)) (b (atDate i t))).mapM id with
  | some xs => some xs.sum
  | none => none

/-- numpy division: `0/0` is NaN; `x/0` with `x ≠ 0` (an infinity) does not occur here -/
def vdiv (a b : Val K) : Val K :=
  match a, b with
  | some x, some y => if y = 0 then none else some (x / y)
  | _, _ => none

/-- `temp.copy().expand_dims().replace_invalid(0.0)` (spatial.py:1959-1963); a two-dimensional
object has one date -/
def prep (o : Sp K) : Sp K := replaceInvalid (updateMask (copy o)) (some 0) none

/-- `temp.mask` (spatial.py:1974) -/
def kMask (o1 o2 : Sp K) (i : Idx) : Bool :=
  anyMask (fun j => o1.mask j || o2.mask j) (List.range (o1.shape 2)) i

/-- `temp.data` before `update_mask` (spatial.py:1967-1979) -/
def kData (o1 o2 : Sp K) (i : Idx) : Val K :=
  if kMask o1 o2 i then some 0
  else vdiv (dotCell (o1.shape 2) o1.data o2.data i) (dotCell (o1.shape 2) o1.data o1.data i)

/-- `variance = temp1.scale(temp.data).offset(-temp2.data)` (spatial.py:1981) -/
def kVariance (o1 o2 : Sp K) : Sp K :=
  offset (scale o1 fun i => kData o1 o2 (atDate i 0)) fun i => (o2.data i).map (- ·)

/-- `kfactor` (spatial.py:1942-1989) for objects without an error attribute. The `error` of the
model is the *square* of the error of the code, which is `np.sqrt` of it; the magnitude is not
modelled. -/
def kfactor (x y : Sp K) : Sp K :=
  let o1 := prep x
  let o2 := prep y
  updateMask
    { shape := Function.update o1.shape 2 1, ndim3 := false
      data := kData o1 o2, mask := kMask o1 o2
      error := some fun i =>
        ((sum (kVariance o1 o2) 2).data i).map fun s => s / (o1.shape 2 : K)
      lat := o1.lat, lon := o1.lon, time := [], month := [], fill := some (some 0) }

/-! ## Specification -/

/-- The cell is valid at every date in the object and holds the values `f t`. -/
def ValidCell (o : Sp K) (i : Idx) (f : ℕ → K) : Prop :=
  ∀ t < o.shape 2, (updateMask o).mask (atDate i t) = false ∧ o.data (atDate i t) = some (f t)

/-- the least-squares scaling factor -/
def gain (n : ℕ) (x y : ℕ → K) : K :=
  (∑ t ∈ Finset.range n, x t * y t) / ∑ t ∈ Finset.range n, x t * x t

/-- The documented factor minimises the squared difference between the scaled and the original
series. -/
theorem gain_minimises {F : Type} [Field F] [LinearOrder F] [IsStrictOrderedRing F] (n : ℕ)
    (x y : ℕ → F) (hx : ∑ t ∈ Finset.range n, x t * x t ≠ 0) (c : F) :
    ∑ t ∈ Finset.range n, (gain n x y * x t - y t) ^ 2 ≤
      ∑ t ∈ Finset.range n, (c * x t - y t) ^ 2 := by
  have hexp : ∀ c : F, ∑ t ∈ Finset.range n, (c * x t - y t) ^ 2 =
      c ^ 2 * (∑ t ∈ Finset.range n, x t * x t) - 2 * c * (∑ t ∈ Finset.range n, x t * y t) +
        ∑ t ∈ Finset.range n, y t ^ 2 := by
    intro c
    rw [Finset.mul_sum, Finset.mul_sum, ← Finset.sum_sub_distrib, ← Finset.sum_add_distrib]
    apply Finset.sum_congr rfl; intros; ring
  have hpos : 0 < ∑ t ∈ Finset.range n, x t * x t :=
    lt_of_le_of_ne (Finset.sum_nonneg fun t _ => mul_self_nonneg _) (Ne.symm hx)
  rw [hexp, hexp]
  unfold gain
  set S := ∑ t ∈ Finset.range n, x t * x t
  set P := ∑ t ∈ Finset.range n, x t * y t
  have : c ^ 2 * S - 2 * c * P - ((P / S) ^ 2 * S - 2 * (P / S) * P) = S * (c - P / S) ^ 2 := by
    field_simp; ring
  have h2 : 0 ≤ S * (c - P / S) ^ 2 := by positivity
  linarith

/-! ## Proofs -/

theorem pointwise_masked (op : K → K → K) (o : Sp K) (v : Idx → Val K) (f : Val K)
    (hf : o.fill = some f) (i : Idx) (hm : (pointwise op o v).mask i = true) :
    (pointwise op o v).data i = f := by
  have := updateMask_data { copy o with data := fun i => vmap2 op (o.data i) (v i) } f
    (by simpa using hf) i
  unfold pointwise at hm ⊢
  simp only at hm ⊢
  rw [this, if_pos hm]

theorem sum_masked (o : Sp K) (p : ℕ) (f : Val K)
    (hf : o.fill = some f) (i : Idx) (hm : (sum o p).mask i = true) : (sum o p).data i = f := by
  have := updateMask_data
    (reduced o (fun xs => some (xs.map (· ^ p)).sum) (List.range (o.shape 2))) f hf i
  unfold sum at hm ⊢
  rw [this, if_pos hm]

theorem prep_shape (o : Sp K) : (prep o).shape = o.shape := by
  simp [prep, replaceInvalid]

theorem copy_valid (o : Sp K) (i : Idx) (h : o.mask i = false) : (copy o).data i = o.data i := by
  unfold copy replaceMasked
  split
  · rfl
  · simp [fillIn, h]

theorem updateMask_copy_valid (o : Sp K) (i : Idx) (h : (updateMask o).mask i = false) :
    (updateMask (copy o)).mask i = false ∧ (updateMask (copy o)).data i = o.data i := by
  have hm : o.mask i = false := by
    by_contra hc
    have := updateMask_mask_mono o i (by simpa using hc)
    rw [h] at this; exact absurd this (by simp)
  have hd := copy_valid o i hm
  have hmask : (updateMask (copy o)).mask i = false := by
    cases hf : o.fill with
    | none => rw [updateMask_noFill _ (by simpa using hf)]; simpa using hm
    | some f =>
      by_contra hc
      have hc : (updateMask (copy o)).mask i = true := by simpa using hc
      rw [updateMask_mask (copy o) f (by simpa using hf), hd] at hc
      have := (updateMask_mask o f hf i).2 (by simpa using hc)
      rw [h] at this; exact absurd this (by simp)
  exact ⟨hmask, by rw [(updateMask_valid _ i hmask).1, hd]⟩

theorem updateMask_same_mask (o : Sp K) (i : Idx) :
    (updateMask (updateMask o)).mask i = (updateMask o).mask i := by
  cases hf : o.fill with
  | none => rw [updateMask_noFill o hf, updateMask_noFill o hf]
  | some f =>
    rw [Bool.eq_iff_iff, updateMask_mask (updateMask o) f (by simpa using hf)]
    refine ⟨fun h => ?_, Or.inl⟩
    rcases h with h | h
    · exact h
    · by_contra hc
      rw [(updateMask_valid o i (by simpa using hc)).1] at h
      exact hc ((updateMask_mask o f hf i).2 (Or.inr h))

theorem prep_valid (o : Sp K) (i : Idx) (h : (updateMask o).mask i = false) :
    (prep o).mask i = false ∧ (prep o).data i = o.data i := by
  obtain ⟨h1, h2⟩ := updateMask_copy_valid o i h
  obtain ⟨-, hs⟩ := replaceInvalid_spec (updateMask (copy o)) (some 0) none
  obtain ⟨hm, hd⟩ := hs i
  have hmask : (prep o).mask i = false := by
    by_contra hc
    have := hm.1 (by simpa [prep] using hc)
    rw [updateMask_same_mask, h1] at this
    simp at this
  exact ⟨hmask, by
    show (replaceInvalid _ _ _).data i = _
    rw [hd, if_neg (by show ¬ (prep o).mask i = true; simp [hmask]), h2]⟩

theorem prep_fill (o : Sp K) : (prep o).fill = some (some 0) := rfl

theorem dotCell_values (n : ℕ) (a b : Idx → Val K) (i : Idx) (x y : ℕ → K)
    (ha : ∀ t < n, a (atDate i t) = some (x t)) (hb : ∀ t < n, b (atDate i t) = some (y t)) :
    dotCell n a b i = some (∑ t ∈ Finset.range n, x t * y t) := by
  unfold dotCell
  have : ((List.range n).map fun t => vmap2 (· * ·) (a (atDate i t)) (b (atDate i t))) =
      ((List.range n).map fun t => x t * y t).map some := by
    rw [List.map_map]
    apply List.map_congr_left
    intro t ht
    rw [ha t (by simpa using ht), hb t (by simpa using ht)]; rfl
  rw [this, mapM_some]
  simp [sum_map_range]

variable (x y : Sp K) (i : Idx) (u v : ℕ → K)

theorem kMask_valid (hsh : y.shape = x.shape) (hu : ValidCell x i u) (hv : ValidCell y i v) :
    kMask (prep x) (prep y) i = false := by
  unfold kMask anyMask
  rw [List.any_eq_false]
  intro t ht
  rw [prep_shape, List.mem_range] at ht
  show ¬ ((prep x).mask (atDate i t) || (prep y).mask (atDate i t)) = true
  rw [(prep_valid x _ (hu t ht).1).1, (prep_valid y _ (hv t (by rw [hsh]; exact ht)).1).1]
  simp

theorem kData_valid (hsh : y.shape = x.shape) (hu : ValidCell x i u) (hv : ValidCell y i v)
    (h0 : ∑ t ∈ Finset.range (x.shape 2), u t * u t ≠ 0) :
    kData (prep x) (prep y) i = some (gain (x.shape 2) u v) := by
  have h1 : ∀ t < x.shape 2, (prep x).data (atDate i t) = some (u t) := fun t ht => by
    rw [(prep_valid x _ (hu t ht).1).2, (hu t ht).2]
  have h2 : ∀ t < x.shape 2, (prep y).data (atDate i t) = some (v t) := fun t ht => by
    have ht' : t < y.shape 2 := by rw [hsh]; exact ht
    rw [(prep_valid y _ (hv t ht').1).2, (hv t ht').2]
  unfold kData
  rw [kMask_valid x y i u v hsh hu hv, prep_shape,
    dotCell_values _ _ _ i u v h1 h2, dotCell_values _ _ _ i u u h1 h1]
  simp [vdiv, h0, gain]

/-- C58: in a cell that is valid in both objects at every date (the scaled series not identically
zero) the scaling factor is the least-squares factor. -/
theorem kfactor_data (hsh : y.shape = x.shape) (hu : ValidCell x i u) (hv : ValidCell y i v)
    (h0 : ∑ t ∈ Finset.range (x.shape 2), u t * u t ≠ 0) :
    (kfactor x y).data i = some (gain (x.shape 2) u v) := by
  have hd := kData_valid x y i u v hsh hu hv h0
  unfold kfactor
  simp only
  rw [updateMask_data _ (some 0) rfl]
  split
  · rename_i hm
    rw [updateMask_mask _ (some 0) rfl] at hm
    simp only [kMask_valid x y i u v hsh hu hv, hd] at hm
    simp at hm; rw [hm]
  · exact hd

/-- values and mask of the variance at one date -/
theorem kVariance_date (hsh : y.shape = x.shape) (hu : ValidCell x i u) (hv : ValidCell y i v)
    (h0 : ∑ t ∈ Finset.range (x.shape 2), u t * u t ≠ 0) (t : ℕ) (ht : t < x.shape 2) :
    let k := gain (x.shape 2) u v
    ((kVariance (prep x) (prep y)).mask (atDate i t) = true ↔ k * u t = 0 ∨ k * u t = v t) ∧
    (¬ (k * u t = 0 ∨ k * u t = v t) →
      (kVariance (prep x) (prep y)).data (atDate i t) = some (k * u t - v t)) ∧
    ((k * u t = 0 ∨ k * u t = v t) → (kVariance (prep x) (prep y)).data (atDate i t) = some 0) := by
  intro k
  have ht' : t < y.shape 2 := by rw [hsh]; exact ht
  obtain ⟨hmx, hdx⟩ := prep_valid x _ (hu t ht).1
  obtain ⟨hmy, hdy⟩ := prep_valid y _ (hv t ht').1
  rw [(hu t ht).2] at hdx
  rw [(hv t ht').2] at hdy
  have hk : kData (prep x) (prep y) (atDate (atDate i t) 0) = some k := by
    rw [atDate_atDate]
    apply kData_valid x y (atDate i 0) u v hsh _ _ h0
    · intro s hs; rw [atDate_atDate]; exact hu s hs
    · intro s hs; rw [atDate_atDate]; exact hv s hs
  -- the scaled object
  set s1 := scale (prep x) (fun i => kData (prep x) (prep y) (atDate i 0)) with hs1
  have hf1 : s1.fill = some (some 0) := by simp [hs1, scale, pointwise, prep_fill]
  have hm1 : s1.mask (atDate i t) = true ↔ k * u t = 0 := by
    have := (pointwise_spec (fun x y => y * x) (prep x)
      (fun i => kData (prep x) (prep y) (atDate i 0))).2.2.2.2 (some 0) (prep_fill x) (atDate i t)
    rw [hs1]; unfold scale
    rw [this, hmx, hdx, hk]; simp [vmap2]
  have hd1 : s1.data (atDate i t) = some (k * u t) := by
    by_cases h : k * u t = 0
    · rw [h]; exact pointwise_masked _ _ _ _ (prep_fill x) _ (hm1.2 h)
    · have := (pointwise_spec (fun x y => y * x) (prep x)
        (fun i => kData (prep x) (prep y) (atDate i 0))).2.2.2.1 (atDate i t) (by
          have := mt hm1.1 h; simpa [hs1, scale] using this)
      rw [hs1]; unfold scale
      rw [this, hdx, hk]; simp [vmap2]
  -- the difference
  have hmask : (kVariance (prep x) (prep y)).mask (atDate i t) = true ↔
      k * u t = 0 ∨ k * u t = v t := by
    have := (pointwise_spec (· + ·) s1 (fun i => ((prep y).data i).map (- ·))).2.2.2.2
      (some 0) hf1 (atDate i t)
    show (pointwise (· + ·) s1 _).mask _ = true ↔ _
    rw [this, hm1, hd1, hdy]
    simp only [vmap2, Option.map_some, Option.some.injEq, reduceCtorEq, or_false]
    rw [← sub_eq_add_neg, sub_eq_zero]
  refine ⟨hmask, fun h => ?_, fun h => ?_⟩
  · have := (pointwise_spec (· + ·) s1 (fun i => ((prep y).data i).map (- ·))).2.2.2.1
      (atDate i t) (by
        have hh := mt hmask.1 h
        rw [Bool.not_eq_true] at hh; exact hh)
    show (pointwise (· + ·) s1 _).data _ = _
    rw [this, hd1, hdy]; simp [vmap2, sub_eq_add_neg]
  · exact pointwise_masked _ _ _ _ hf1 _ (hmask.2 h)

theorem kVariance_shape : (kVariance (prep x) (prep y)).shape = x.shape := by
  simp [kVariance, offset, scale, pointwise, prep_shape]

theorem kVariance_fill : (kVariance (prep x) (prep y)).fill = some (some 0) := by
  simp [kVariance, offset, scale, pointwise, prep_fill]

/-- squared error before the last `update_mask` -/
theorem kErr (hsh : y.shape = x.shape) (hu : ValidCell x i u) (hv : ValidCell y i v)
    (h0 : ∑ t ∈ Finset.range (x.shape 2), u t * u t ≠ 0) :
    let k := gain (x.shape 2) u v
    (sum (kVariance (prep x) (prep y)) 2).data i =
      if ∃ t < x.shape 2, k * u t = 0 ∨ k * u t = v t then some 0
      else some (∑ t ∈ Finset.range (x.shape 2), (k * u t - v t) ^ 2) := by
  intro k
  set w : ℕ → K := fun t => if k * u t = 0 ∨ k * u t = v t then 0 else k * u t - v t with hw
  have hcv : CellValues (kVariance (prep x) (prep y))
      (List.range ((kVariance (prep x) (prep y)).shape 2)) i ((List.range (x.shape 2)).map w) := by
    unfold CellValues
    rw [kVariance_shape, List.map_map]
    apply List.map_congr_left
    intro t ht
    obtain ⟨-, h1, h2⟩ := kVariance_date x y i u v hsh hu hv h0 t (by simpa using ht)
    by_cases h : k * u t = 0 ∨ k * u t = v t
    · rw [h2 h]; simp only [hw, Function.comp]; rw [if_pos h]
    · rw [h1 h]; simp only [hw, Function.comp]; rw [if_neg h]
  obtain ⟨hm, hd⟩ := sum_cell (kVariance (prep x) (prep y)) 2 i _ hcv (some 0) (kVariance_fill x y)
  have hmask : (∃ t < (kVariance (prep x) (prep y)).shape 2,
      (kVariance (prep x) (prep y)).mask (atDate i t) = true) ↔
      ∃ t < x.shape 2, k * u t = 0 ∨ k * u t = v t := by
    rw [kVariance_shape]
    constructor <;> rintro ⟨t, ht, h⟩
    · exact ⟨t, ht, (kVariance_date x y i u v hsh hu hv h0 t ht).1.1 h⟩
    · exact ⟨t, ht, (kVariance_date x y i u v hsh hu hv h0 t ht).1.2 h⟩
  rw [hmask] at hm
  have hfill : (sum (kVariance (prep x) (prep y)) 2).mask i = true →
      (sum (kVariance (prep x) (prep y)) 2).data i = some 0 := fun h =>
    sum_masked _ _ _ (kVariance_fill x y) i h
  by_cases hex : ∃ t < x.shape 2, k * u t = 0 ∨ k * u t = v t
  · rw [if_pos hex]; exact hfill (hm.2 (Or.inl hex))
  · rw [if_neg hex]
    have hs : (((List.range (x.shape 2)).map w).map (· ^ 2)).sum =
        ∑ t ∈ Finset.range (x.shape 2), (k * u t - v t) ^ 2 := by
      rw [List.map_map, sum_map_range]
      apply Finset.sum_congr rfl
      intro t ht
      have : ¬ (k * u t = 0 ∨ k * u t = v t) := fun h => hex ⟨t, by simpa using ht, h⟩
      simp only [Function.comp, hw, if_neg this]
    rw [hs] at hm hd
    by_cases hz : (sum (kVariance (prep x) (prep y)) 2).mask i = true
    · rw [hfill hz]
      rcases hm.1 hz with h | h
      · exact absurd h hex
      · exact h
    · exact hd (by simpa using hz)

/-- C58: the squared error of the factor is the mean squared difference between the scaled and the
original series when at no date the scaled value is zero or equal to the original value. -/
theorem kfactor_error (hsh : y.shape = x.shape) (hu : ValidCell x i u) (hv : ValidCell y i v)
    (h0 : ∑ t ∈ Finset.range (x.shape 2), u t * u t ≠ 0)
    (hne : ∀ t < x.shape 2, gain (x.shape 2) u v * u t ≠ 0 ∧ gain (x.shape 2) u v * u t ≠ v t)
    (hn : x.shape 2 ≠ 0) :
    ∃ e, (kfactor x y).error = some e ∧
      e i = some ((∑ t ∈ Finset.range (x.shape 2), (gain (x.shape 2) u v * u t - v t) ^ 2)
        / (x.shape 2 : K)) := by
  have hd := kData_valid x y i u v hsh hu hv h0
  have hk0 : gain (x.shape 2) u v ≠ 0 := by
    intro h
    exact (hne 0 (Nat.pos_of_ne_zero hn)).1 (by rw [h, zero_mul])
  have he := kErr x y i u v hsh hu hv h0
  simp only at he
  rw [if_neg (by rintro ⟨t, ht, h | h⟩; exacts [(hne t ht).1 h, (hne t ht).2 h])] at he
  unfold kfactor
  simp only
  rw [updateMask_error _ (some 0) rfl]
  refine ⟨_, rfl, ?_⟩
  dsimp only
  rw [if_neg]
  · rw [he, prep_shape]; rfl
  · rw [updateMask_mask _ (some 0) rfl]
    simp only [kMask_valid x y i u v hsh hu hv, hd]
    simp [hk0]

/-- C58 (negative): if at a single date the scaled series is zero, or agrees exactly with the
original, the error of the cell is reported as zero, whatever the differences at the other
dates: `sum` of the zero-filled variance masks the whole cell. -/
theorem kfactor_error_lost (hsh : y.shape = x.shape) (hu : ValidCell x i u) (hv : ValidCell y i v)
    (h0 : ∑ t ∈ Finset.range (x.shape 2), u t * u t ≠ 0) (t : ℕ) (ht : t < x.shape 2)
    (h : u t = 0 ∨ gain (x.shape 2) u v * u t = v t) :
    ∃ e, (kfactor x y).error = some e ∧ e i = some 0 := by
  have he := kErr x y i u v hsh hu hv h0
  simp only at he
  rw [if_pos ⟨t, ht, h.imp (fun h => by rw [h, mul_zero]) id⟩] at he
  unfold kfactor
  simp only
  rw [updateMask_error _ (some 0) rfl]
  refine ⟨_, rfl, ?_⟩
  dsimp only
  split
  · rfl
  · rw [he]; simp

/-- C58: a cell that is valid but identically zero in the scaled object has no factor: it is masked and holds zero -/
theorem kfactor_zero (hsh : y.shape = x.shape) (hu : ValidCell x i u) (hv : ValidCell y i v)
    (h0 : ∀ t < x.shape 2, u t = 0) : (kfactor x y).mask i = true ∧ (kfactor x y).data i = some 0 := by
  have h1 : ∀ t < x.shape 2, (prep x).data (atDate i t) = some (u t) := fun t ht => by
    rw [(prep_valid x _ (hu t ht).1).2, (hu t ht).2]
  have h2 : ∀ t < x.shape 2, (prep y).data (atDate i t) = some (v t) := fun t ht => by
    have ht' : t < y.shape 2 := by rw [hsh]; exact ht
    rw [(prep_valid y _ (hv t ht').1).2, (hv t ht').2]
  have hd : kData (prep x) (prep y) i = none := by
    unfold kData
    rw [kMask_valid x y i u v hsh hu hv, prep_shape,
      dotCell_values _ _ _ i u v h1 h2, dotCell_values _ _ _ i u u h1 h1]
    have : ∑ t ∈ Finset.range (x.shape 2), u t * u t = 0 :=
      Finset.sum_eq_zero fun t ht => by rw [h0 t (by simpa using ht), zero_mul]
    simp [vdiv, this]
  have hm : (kfactor x y).mask i = true := by
    unfold kfactor
    simp only
    rw [updateMask_mask _ (some 0) rfl]
    exact Or.inr (Or.inr hd)
  refine ⟨hm, ?_⟩
  unfold kfactor at hm ⊢
  simp only at hm ⊢
  rw [updateMask_data _ (some 0) rfl, if_pos hm]

/-- a series 0, 1 scaled to 5, 3 -/
def exK1 : Sp ℚ :=
  { shape := ![1, 1, 2], ndim3 := true
    data := fun i => if i 2 = 0 then some 0 else some 1
    mask := fun _ => false, error := none, lat := [0], lon := [0], time := [2002, 2003]
    month := [4, 16], fill := some (some (-1)) }
/-- the original -/
def exK2 : Sp ℚ := { exK1 with data := fun i => if i 2 = 0 then some 5 else some 3 }

/-- the hypotheses of `kfactor_error_lost` are met: the factor is 3, the difference at the first
date is 5, and the reported error is 0 -/
example : ValidCell exK1 ![0, 0, 0] (fun t => if t = 0 then 0 else 1) ∧
    ValidCell exK2 ![0, 0, 0] (fun t => if t = 0 then 5 else 3) ∧
    (kfactor exK1 exK2).data ![0, 0, 0] = some 3 ∧
    ((kfactor exK1 exK2).error.map fun e => e ![0, 0, 0]) = some (some 0) := by
  refine ⟨?_, ?_, by decide +kernel, by decide +kernel⟩ <;>
  · intro t ht
    have ht : t < 2 := ht
    interval_cases t <;> decide +kernel

end Verif.Spatial
