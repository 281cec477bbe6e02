import Verif.Spatial.Model
import Mathlib.Tactic.Ring
import Mathlib.Tactic.FinCases
import Mathlib.Data.Fintype.Basic

/-!
# C26 masks and fill values, C27 flip and transpose
-/
set_option linter.unusedSectionVars false
set_option linter.unusedSimpArgs false
namespace Verif.Spatial
open Verif.Harmonics (Err)
variable {K : Type} [Field K] [DecidableEq K]

/-! ## Specification -/

/-- Masked cells (of the data and of the error, if there is one) hold the fill value, and cells
holding the fill value or NaN are masked; nothing is claimed without a fill value. -/
def Consistent (o : Sp K) : Prop :=
  ∀ f, o.fill = some f → ∀ i, o.In i →
    (o.mask i = true → o.data i = f ∧ ∀ e, o.error = some e → e i = f) ∧
    (o.data i = f ∨ o.data i = none → o.mask i = true)

/-- Two objects agree in every attribute and in every existing cell. -/
def Same (o r : Sp K) : Prop :=
  r.shape = o.shape ∧ r.ndim3 = o.ndim3 ∧ r.lat = o.lat ∧ r.lon = o.lon ∧ r.time = o.time ∧
  r.month = o.month ∧ r.fill = o.fill ∧
  (r.error.isSome ↔ o.error.isSome) ∧
  ∀ i, o.In i → r.data i = o.data i ∧ r.mask i = o.mask i ∧
    ∀ e e', o.error = some e → r.error = some e' → e' i = e i

/-! ## update_mask -/

theorem veq_or_nan (a f : Val K) : (veq a f || isnan a) = true ↔ a = f ∨ a = none := by
  cases a with
  | none => simp [veq, isnan]
  | some x => cases f with
    | none => simp [veq, isnan]
    | some y => simp [veq, isnan]

/-- C26: the mask after `update_mask`: what was masked, and the cells holding the fill value or
NaN. -/
theorem updateMask_mask (o : Sp K) (f : Val K) (hf : o.fill = some f) (i : Idx) :
    (updateMask o).mask i = true ↔ o.mask i = true ∨ o.data i = f ∨ o.data i = none := by
  unfold updateMask; rw [hf]
  simp only [Bool.or_assoc]
  rw [Bool.or_eq_true, veq_or_nan]

/-- C26: values after `update_mask`: masked cells hold the fill value, the others their value. -/
theorem updateMask_data (o : Sp K) (f : Val K) (hf : o.fill = some f) (i : Idx) :
    (updateMask o).data i = if (updateMask o).mask i then f else o.data i := by
  unfold updateMask; rw [hf]; rfl

theorem updateMask_error (o : Sp K) (f : Val K) (hf : o.fill = some f) :
    (updateMask o).error = o.error.map (fun e i => if (updateMask o).mask i then f else e i) := by
  unfold updateMask; rw [hf]; rfl

@[simp] theorem updateMask_fill (o : Sp K) : (updateMask o).fill = o.fill := by
  unfold updateMask; split <;> simp_all
@[simp] theorem updateMask_shape (o : Sp K) : (updateMask o).shape = o.shape := by
  unfold updateMask; split <;> simp_all
@[simp] theorem updateMask_ndim3 (o : Sp K) : (updateMask o).ndim3 = o.ndim3 := by
  unfold updateMask; split <;> simp_all
@[simp] theorem updateMask_lat (o : Sp K) : (updateMask o).lat = o.lat := by
  unfold updateMask; split <;> simp_all
@[simp] theorem updateMask_lon (o : Sp K) : (updateMask o).lon = o.lon := by
  unfold updateMask; split <;> simp_all
@[simp] theorem updateMask_time (o : Sp K) : (updateMask o).time = o.time := by
  unfold updateMask; split <;> simp_all
@[simp] theorem updateMask_month (o : Sp K) : (updateMask o).month = o.month := by
  unfold updateMask; split <;> simp_all
@[simp] theorem updateMask_errSome (o : Sp K) : (updateMask o).error.isSome = o.error.isSome := by
  unfold updateMask; split <;> simp_all

/-- C26: `update_mask` establishes the invariant for every object. -/
theorem updateMask_consistent (o : Sp K) : Consistent (updateMask o) := by
  intro f hf i _
  rw [updateMask_fill] at hf
  refine ⟨fun hm => ⟨by rw [updateMask_data o f hf, if_pos hm], fun e he => ?_⟩, fun h => ?_⟩
  · rw [updateMask_error o f hf] at he
    cases ho : o.error with
    | none => rw [ho] at he; simp at he
    | some e0 =>
      rw [ho] at he; simp only [Option.map_some, Option.some.injEq] at he
      rw [← he]; simp [hm]
  · by_contra hc
    have hd := updateMask_data o f hf i
    rw [if_neg hc] at hd
    rw [hd] at h
    exact hc ((updateMask_mask o f hf i).2 (Or.inr h))

/-- C26: the mask never shrinks. -/
theorem updateMask_mask_mono (o : Sp K) (i : Idx) (h : o.mask i = true) :
    (updateMask o).mask i = true := by
  cases hf : o.fill with
  | none => unfold updateMask; rw [hf]; exact h
  | some f => exact (updateMask_mask o f hf i).2 (Or.inl h)

/-- C26: cells that stay valid keep their value and error. -/
theorem updateMask_valid (o : Sp K) (i : Idx) (h : (updateMask o).mask i = false) :
    (updateMask o).data i = o.data i ∧
    ∀ e e', o.error = some e → (updateMask o).error = some e' → e' i = e i := by
  cases hf : o.fill with
  | none => unfold updateMask; rw [hf]; simp; intro e e' h1 h2; rw [h1] at h2; simp_all
  | some f =>
    refine ⟨by rw [updateMask_data o f hf, if_neg (by simp [h])], fun e e' h1 h2 => ?_⟩
    rw [updateMask_error o f hf, h1] at h2
    simp only [Option.map_some, Option.some.injEq] at h2
    rw [← h2]; simp [h]

/-- C26: without a fill value `update_mask` changes nothing. -/
theorem updateMask_noFill (o : Sp K) (h : o.fill = none) : updateMask o = o := by
  unfold updateMask; rw [h]

/-- C26: on a consistent object `update_mask` changes nothing. -/
theorem updateMask_same (o : Sp K) (h : Consistent o) : Same o (updateMask o) := by
  refine ⟨by simp, by simp, by simp, by simp, by simp, by simp, by simp, by simp, ?_⟩
  intro i hi
  cases hf : o.fill with
  | none => unfold updateMask; rw [hf]; simp; intro e e' h1 h2; rw [h1] at h2; simp_all
  | some f =>
    obtain ⟨h1, h2⟩ := h f hf i hi
    have hm : (updateMask o).mask i = o.mask i := by
      rw [Bool.eq_iff_iff, updateMask_mask o f hf]
      exact ⟨fun h => h.elim id h2, Or.inl⟩
    refine ⟨?_, hm, fun e e' he he' => ?_⟩
    · rw [updateMask_data o f hf, hm]
      split
      · rename_i hc; exact (h1 hc).1.symm
      · rfl
    · rw [updateMask_error o f hf, he] at he'
      simp only [Option.map_some, Option.some.injEq] at he'
      rw [← he']; show (if (updateMask o).mask i = true then f else e i) = e i
      rw [hm]
      by_cases hc : o.mask i = true
      · simp only [hc, if_true]; exact ((h1 hc).2 e he).symm
      · simp [hc]

/-- C26: `update_mask` is idempotent. -/
theorem updateMask_idem (o : Sp K) : Same (updateMask o) (updateMask (updateMask o)) :=
  updateMask_same _ (updateMask_consistent o)

/-! ## copy, replace_masked, replace_invalid -/

@[simp] theorem copy_fill (o : Sp K) : (copy o).fill = o.fill := by
  unfold copy replaceMasked; split <;> simp_all
@[simp] theorem copy_shape (o : Sp K) : (copy o).shape = o.shape := by
  unfold copy replaceMasked; split <;> simp_all
@[simp] theorem copy_ndim3 (o : Sp K) : (copy o).ndim3 = o.ndim3 := by
  unfold copy replaceMasked; split <;> simp_all
@[simp] theorem copy_lat (o : Sp K) : (copy o).lat = o.lat := by
  unfold copy replaceMasked; split <;> simp_all
@[simp] theorem copy_lon (o : Sp K) : (copy o).lon = o.lon := by
  unfold copy replaceMasked; split <;> simp_all
@[simp] theorem copy_time (o : Sp K) : (copy o).time = o.time := by
  unfold copy replaceMasked; split <;> simp_all
@[simp] theorem copy_month (o : Sp K) : (copy o).month = o.month := by
  unfold copy replaceMasked; split <;> simp_all
@[simp] theorem copy_mask (o : Sp K) : (copy o).mask = o.mask := by
  unfold copy replaceMasked; split <;> simp_all
@[simp] theorem copy_errSome (o : Sp K) : (copy o).error.isSome = o.error.isSome := by
  unfold copy replaceMasked; split <;> simp_all

/-- C26: a copy of a consistent object is the same object (`copy` and `replace_masked`). -/
theorem copy_same (o : Sp K) (h : Consistent o) : Same o (copy o) := by
  refine ⟨by simp, by simp, by simp, by simp, by simp, by simp, by simp, by simp, ?_⟩
  intro i hi
  cases hf : o.fill with
  | none => unfold copy replaceMasked; rw [hf]; simp; intro e e' h1 h2; rw [h1] at h2; simp_all
  | some f =>
    obtain ⟨h1, -⟩ := h f hf i hi
    refine ⟨?_, by simp, fun e e' he he' => ?_⟩
    · unfold copy replaceMasked; rw [hf]; simp only [fillIn]
      split
      · rename_i hc; exact (h1 hc).1.symm
      · rfl
    · unfold copy replaceMasked at he'; rw [hf] at he'; simp only [he] at he'
      simp only [Option.map_some, Option.some.injEq] at he'
      rw [← he']; simp only [fillIn]
      split
      · rename_i hc; exact ((h1 hc).2 e he).symm
      · rfl

/-- agreement with a consistent object is consistency -/
theorem Same.consistent {o r : Sp K} (h : Same o r) (hc : Consistent o) : Consistent r := by
  obtain ⟨hs, -, -, -, -, -, hfl, he, hcell⟩ := h
  intro f hf i hi
  have hio : o.In i := fun k => by have := hi k; rwa [hs] at this
  obtain ⟨hd, hm, her⟩ := hcell i hio
  obtain ⟨h1, h2⟩ := hc f (by rw [← hfl]; exact hf) i hio
  rw [hd, hm]
  refine ⟨fun h => ⟨(h1 h).1, fun e' he' => ?_⟩, h2⟩
  have : o.error.isSome := he.1 (by simp [he'])
  obtain ⟨e, hoe⟩ := Option.isSome_iff_exists.1 this
  rw [her e e' hoe he']
  exact (h1 h).2 e hoe

/-- C26: `copy` and `replace_masked` preserve the invariant. -/
theorem copy_consistent (o : Sp K) (h : Consistent o) : Consistent (copy o) :=
  (copy_same o h).consistent h

/-- C26: `replace_invalid`: the new mask is the updated mask together with the given one, masked
cells hold the new fill value, valid cells keep their value. -/
theorem replaceInvalid_spec (o : Sp K) (f : Val K) (extra : Option (Idx → Bool)) :
    (replaceInvalid o f extra).fill = some f ∧
    ∀ i, ((replaceInvalid o f extra).mask i = true ↔
        (updateMask o).mask i = true ∨ ∃ e, extra = some e ∧ e i = true) ∧
      (replaceInvalid o f extra).data i =
        if (replaceInvalid o f extra).mask i then f else o.data i := by
  refine ⟨rfl, fun i => ?_⟩
  cases extra with
  | none =>
    refine ⟨by simp [replaceInvalid], ?_⟩
    simp only [replaceInvalid, fillIn]
    by_cases hm : (updateMask o).mask i = true
    · simp [hm]
    · simp only [hm]
      exact (updateMask_valid o i (by simpa using hm)).1
  | some e =>
    refine ⟨by simp [replaceInvalid], ?_⟩
    simp only [replaceInvalid, fillIn]
    by_cases hm : ((updateMask o).mask i || e i) = true
    · simp [hm]
    · simp only [hm]
      simp only [Bool.or_eq_true, not_or, Bool.not_eq_true] at hm
      exact (updateMask_valid o i hm.1).1

/-- C26: after `replace_invalid` the invariant holds exactly if no cell that stays valid already
held the new fill value, and (for objects without a fill value) none is NaN. -/
theorem replaceInvalid_consistent_iff (o : Sp K) (f : Val K) (extra : Option (Idx → Bool)) :
    Consistent (replaceInvalid o f extra) ↔
      ∀ i, o.In i → (replaceInvalid o f extra).mask i = false → o.data i ≠ f ∧ o.data i ≠ none := by
  obtain ⟨hf, hspec⟩ := replaceInvalid_spec o f extra
  have hsh : (replaceInvalid o f extra).shape = o.shape := by simp [replaceInvalid]
  constructor
  · intro h i hi hm
    have := (h f hf i (fun k => by rw [hsh]; exact hi k)).2
    rw [(hspec i).2, if_neg (by simp [hm])] at this
    refine ⟨fun hd => ?_, fun hd => ?_⟩
    · have := this (Or.inl hd); simp [hm] at this
    · have := this (Or.inr hd); simp [hm] at this
  · intro h g hg i hi
    rw [hf] at hg; obtain rfl := Option.some.inj hg
    refine ⟨fun hm => ⟨by rw [(hspec i).2, if_pos hm], fun e he => ?_⟩, fun hd => ?_⟩
    · cases hu : (updateMask o).error with
      | none => simp [replaceInvalid, hu] at he
      | some e0 =>
        simp only [replaceInvalid, hu, Option.map_some, Option.some.injEq] at he
        rw [← he]; simp only [fillIn]
        have hm' : (replaceInvalid o f extra).mask i = true := hm
        simp only [replaceInvalid] at hm'
        rw [if_pos hm']
    · by_contra hm
      have hm : (replaceInvalid o f extra).mask i = false := by simpa using hm
      rw [(hspec i).2, if_neg (by simp [hm])] at hd
      obtain ⟨h1, h2⟩ := h i (fun k => by have := hi k; rwa [hsh] at this) hm
      exact hd.elim h1 h2

/-! ## offset and scale -/

/-- C26: `offset` and `scale` by a number or an array: the result is consistent, has the fill
value of the object, every masked cell stays masked, and a valid cell of a consistent object
holds `op value operand` unless that result is NaN or happens to be the fill value, in which case
it is masked. -/
theorem pointwise_spec (op : K → K → K) (o : Sp K) (v : Idx → Val K) :
    Consistent (pointwise op o v) ∧ (pointwise op o v).fill = o.fill ∧
    (∀ i, o.mask i = true → (pointwise op o v).mask i = true) ∧
    (∀ i, (pointwise op o v).mask i = false →
      (pointwise op o v).data i = vmap2 op (o.data i) (v i)) ∧
    (∀ f, o.fill = some f → ∀ i, (pointwise op o v).mask i = true ↔
      o.mask i = true ∨ vmap2 op (o.data i) (v i) = f ∨ vmap2 op (o.data i) (v i) = none) := by
  refine ⟨updateMask_consistent _, by simp [pointwise], fun i h => ?_, fun i h => ?_,
    fun f hf i => ?_⟩
  · exact updateMask_mask_mono _ i (by simpa using h)
  · exact (updateMask_valid _ i h).1
  · have := updateMask_mask { copy o with data := fun i => vmap2 op (o.data i) (v i) } f
      (by simpa using hf) i
    simpa [pointwise] using this

/-- C26: `offset` adds and `scale` multiplies in every cell that is valid before and after. -/
theorem offset_scale_values (o : Sp K) (i : Idx) (x y : K) (v : Idx → Val K)
    (hx : o.data i = some x) (hy : v i = some y) :
    ((offset o v).mask i = false → (offset o v).data i = some (x + y)) ∧
    ((scale o v).mask i = false → (scale o v).data i = some (x * y)) := by
  refine ⟨fun h => ?_, fun h => ?_⟩
  · have := (pointwise_spec (· + ·) o v).2.2.2.1 i h
    rw [offset, this, hx, hy]; rfl
  · have := (pointwise_spec (fun x y => y * x) o v).2.2.2.1 i h
    rw [scale, this, hx, hy]; simp [vmap2, mul_comm]

/-! ## Histories -/

/-- operations that transform an object -/
inductive Op (K : Type) where
  | update
  | copy
  | offset (v : Idx → Val K)
  | scale (v : Idx → Val K)
  | flip (k : Fin 3)
  | transpose (axes : Equiv.Perm (Fin 3))
  | mean (ts : List ℕ)
  | sum (p : ℕ)

/-- effect of an operation -/
def Op.apply (o : Sp K) : Op K → Sp K
  | .update => updateMask o
  | .copy => Spatial.copy o
  | .offset v => Spatial.offset o v
  | .scale v => Spatial.scale o v
  | .flip k => Spatial.flip o k
  | .transpose axes => Spatial.transpose o axes
  | .mean ts => Spatial.mean o ts
  | .sum p => Spatial.sum o p

theorem Op.apply_consistent (o : Sp K) (h : Consistent o) (op : Op K) : Consistent (op.apply o) := by
  cases op <;> first | exact updateMask_consistent _ | exact copy_consistent o h

theorem Op.apply_fill (o : Sp K) (op : Op K) : (op.apply o).fill = o.fill := by
  cases op <;>
    simp [Op.apply, Spatial.offset, Spatial.scale, pointwise, Spatial.flip, Spatial.transpose,
      Spatial.mean, Spatial.sum, reduced]

/-- C26: every sequence of these operations keeps a consistent object consistent and keeps its
fill value. -/
theorem history_consistent (ops : List (Op K)) (o : Sp K) (h : Consistent o) :
    Consistent (ops.foldl Op.apply o) ∧ (ops.foldl Op.apply o).fill = o.fill := by
  induction ops generalizing o with
  | nil => exact ⟨h, rfl⟩
  | cons op ops ih =>
    obtain ⟨h1, h2⟩ := ih (op.apply o) (Op.apply_consistent o h op)
    exact ⟨h1, by rw [List.foldl_cons, h2, Op.apply_fill]⟩

/-- one-cell object with fill value -1 -/
def ex1 : Sp ℚ :=
  { shape := ![2, 1, 1], ndim3 := true
    data := fun i => if i 0 = 0 then some 2 else some (-1)
    mask := fun i => i 0 ≠ 0, error := none, lat := [0, 1], lon := [0], time := [2002]
    month := [4], fill := some (some (-1)) }

theorem ex1_consistent : Consistent ex1 := by
  intro f hf i hi
  have hf : f = some (-1) := (Option.some.inj hf).symm
  subst hf
  by_cases h : i 0 = 0
  · simp only [ex1, h]; simp; norm_num
  · simp [ex1, h]

/-- C26 (negative): `power` does not update the mask, so masked cells no longer hold the fill
value: the masked cell of `ex1` holds 1 after squaring. -/
theorem power_breaks : Consistent ex1 ∧ ¬ Consistent (power ex1 2) := by
  refine ⟨ex1_consistent, fun h => ?_⟩
  have := ((h (some (-1)) rfl ![1, 0, 0] (by
    intro k; fin_cases k <;> simp [power, copy, replaceMasked, ex1])).1 (by
    simp [power, copy, replaceMasked, ex1])).1
  simp [power, ex1] at this
  norm_num at this

/-- C26 (negative): `replace_invalid` with a value that a valid cell holds: that cell holds the
new fill value but is not masked, and the next `update_mask` masks it. -/
theorem replaceInvalid_breaks :
    Consistent ex1 ∧ ¬ Consistent (replaceInvalid ex1 (some 2) none) ∧
    (updateMask (replaceInvalid ex1 (some 2) none)).mask ![0, 0, 0] = true := by
  refine ⟨ex1_consistent, fun h => ?_, by decide +kernel⟩
  have := (h (some 2) rfl ![0, 0, 0] (by
    intro k; fin_cases k <;> simp [replaceInvalid, updateMask, ex1])).2
  revert this
  decide +kernel

/-- C26 (negative): `offset` masks a valid cell whose new value is the fill value: adding -3 to
the valid value 2 of `ex1` gives -1. -/
theorem offset_masks_valid :
    ex1.mask ![0, 0, 0] = false ∧ (offset ex1 fun _ => some (-3)).mask ![0, 0, 0] = true := by
  decide +kernel

/-! ## C27 flip -/

theorem rev_rev (shape : Fin 3 → ℕ) (k : Fin 3) (i : Idx) (h : i k < shape k) :
    rev shape k (rev shape k i) = i := by
  funext j
  unfold rev
  by_cases hj : j = k
  · subst hj; simp; omega
  · simp [hj]

theorem rev_in (o : Sp K) (k : Fin 3) (i : Idx) (h : o.In i) : o.In (rev o.shape k i) := by
  intro j
  unfold rev
  by_cases hj : j = k
  · subst hj; have := h j; simp; omega
  · simp [hj]; exact h j

@[simp] theorem flip_shape (o : Sp K) (k : Fin 3) : (flip o k).shape = o.shape := by simp [flip]
@[simp] theorem flip_fill (o : Sp K) (k : Fin 3) : (flip o k).fill = o.fill := by simp [flip]

/-- C27: flipping a consistent object reverses data, mask and error along the axis. -/
theorem flip_cell (o : Sp K) (k : Fin 3) (h : Consistent o) (i : Idx) (hi : o.In i) :
    (flip o k).data i = o.data (rev o.shape k i) ∧
    (flip o k).mask i = o.mask (rev o.shape k i) ∧
    ∀ e e', o.error = some e → (flip o k).error = some e' → e' i = e (rev o.shape k i) := by
  set t : Sp K := { copy o with
    lat := if k = 0 then (copy o).lat.reverse else (copy o).lat
    lon := if k = 1 then (copy o).lon.reverse else (copy o).lon
    time := if k = 2 then (copy o).time.reverse else (copy o).time
    data := fun i => o.data (rev o.shape k i)
    mask := fun i => o.mask (rev o.shape k i)
    error := o.error.map fun e i => e (rev o.shape k i) } with ht
  have hflip : flip o k = updateMask t := rfl
  have hts : t.shape = o.shape := by simp [ht]
  have hc : Consistent t := by
    intro f hf i hi
    have hf' : o.fill = some f := by simpa [ht] using hf
    obtain ⟨h1, h2⟩ := h f hf' (rev o.shape k i) (rev_in o k i (fun k => by
      have := hi k; rwa [hts] at this))
    refine ⟨fun hm => ⟨(h1 hm).1, fun e he => ?_⟩, h2⟩
    cases hoe : o.error with
    | none => simp [ht, hoe] at he
    | some e0 =>
      simp only [ht, hoe, Option.map_some, Option.some.injEq] at he
      rw [← he]; exact (h1 hm).2 e0 hoe
  obtain ⟨-, -, -, -, -, -, -, -, hcell⟩ := updateMask_same t hc
  obtain ⟨h1, h2, h3⟩ := hcell i (fun k => by rw [hts]; exact hi k)
  rw [hflip]
  refine ⟨h1, h2, fun e e' he he' => ?_⟩
  rw [h3 (fun i => e (rev o.shape k i)) e' (by simp [ht, he]) he']

/-- C27: flipping twice along the same axis restores the object, for every axis and every
consistent object. -/
theorem flip_flip (o : Sp K) (k : Fin 3) (h : Consistent o) : Same o (flip (flip o k) k) := by
  have hc : Consistent (flip o k) := updateMask_consistent _
  refine ⟨by simp, by simp [flip], ?_, ?_, ?_, by simp [flip], by simp, by simp [flip], ?_⟩
  · simp [flip]; split <;> simp_all
  · simp [flip]; split <;> simp_all
  · simp [flip]; split <;> simp_all
  · intro i hi
    have hr := rev_in o k i hi
    obtain ⟨a1, a2, a3⟩ := flip_cell (flip o k) k hc i (fun j => by rw [flip_shape]; exact hi j)
    rw [flip_shape] at a1 a2 a3
    obtain ⟨b1, b2, b3⟩ := flip_cell o k h _ hr
    rw [rev_rev _ _ _ (hi k)] at b1 b2 b3
    refine ⟨a1.trans b1, a2.trans b2, fun e e' he he' => ?_⟩
    have : (flip o k).error.isSome := by simp [flip, he]
    obtain ⟨e1, he1⟩ := Option.isSome_iff_exists.1 this
    rw [a3 e1 e' he1 he', b3 e e1 he he1]

/-- coordinate of a row, column or date -/
def coord (c : List ℚ) (n : ℕ) : Option ℚ := c[n]?

theorem reverse_coord (c : List ℚ) (n : ℕ) (h : n < c.length) :
    c.reverse[n]? = c[c.length - 1 - n]? := by
  rw [List.getElem?_reverse h]

/-- C27: every cell keeps its latitude, longitude and time: the cell at `i` of the flipped object
shows the value of the cell of the original at `rev i`, and has that cell's coordinates. -/
theorem flip_keeps_coordinates (o : Sp K) (k : Fin 3) (h : Consistent o) (i : Idx) (hi : o.In i)
    (hlat : o.lat.length = o.shape 0) (hlon : o.lon.length = o.shape 1)
    (htime : o.time.length = o.shape 2) :
    ∃ j, o.In j ∧ (flip o k).data i = o.data j ∧ (flip o k).mask i = o.mask j ∧
      (flip o k).lat[i 0]? = o.lat[j 0]? ∧ (flip o k).lon[i 1]? = o.lon[j 1]? ∧
      (flip o k).time[i 2]? = o.time[j 2]? := by
  obtain ⟨h1, h2, -⟩ := flip_cell o k h i hi
  refine ⟨rev o.shape k i, rev_in o k i hi, h1, h2, ?_, ?_, ?_⟩
  · by_cases hk : k = 0
    · subst hk
      simp only [flip, updateMask_lat, copy_lat, if_true, rev, Function.update_self]
      rw [reverse_coord _ _ (by rw [hlat]; exact hi 0), hlat]
    · simp [flip, hk, rev, Ne.symm hk]
  · by_cases hk : k = 1
    · subst hk
      simp only [flip, updateMask_lon, copy_lon, if_true, rev, Function.update_self]
      rw [reverse_coord _ _ (by rw [hlon]; exact hi 1), hlon]
    · simp [flip, hk, rev, Ne.symm hk]
  · by_cases hk : k = 2
    · subst hk
      simp only [flip, updateMask_time, copy_time, if_true, rev, Function.update_self]
      rw [reverse_coord _ _ (by rw [htime]; exact hi 2), htime]
    · simp [flip, hk, rev, Ne.symm hk]

/-- C27 (negative): flipping along the time axis leaves the months in place: the month list of
the result is that of the object, while the fields and times are reversed; so with two dates the
first month is attached to the field and time of the last date. -/
theorem flip_time_months (o : Sp K) (h : Consistent o) (htime : o.time.length = o.shape 2)
    (i : Idx) (hi : o.In i) :
    (flip o 2).month = o.month ∧
    (flip o 2).data i = o.data (atDate i (o.shape 2 - 1 - i 2)) ∧
    (flip o 2).time[i 2]? = o.time[o.shape 2 - 1 - i 2]? := by
  refine ⟨by simp [flip], (flip_cell o 2 h i hi).1, ?_⟩
  simp only [flip, updateMask_time, copy_time, if_true]
  rw [reverse_coord _ _ (by rw [htime]; exact hi 2), htime]

/-! ## C27 transpose -/

@[simp] theorem transpose_shape (o : Sp K) (a : Equiv.Perm (Fin 3)) :
    (transpose o a).shape = fun k => o.shape (a k) := by simp [transpose]

/-- C27: transposing a consistent object permutes data, mask and error: index `i` of the original
is found at the permuted index. -/
theorem transpose_cell (o : Sp K) (a : Equiv.Perm (Fin 3)) (h : Consistent o) (i : Idx)
    (hi : o.In i) :
    (transpose o a).In (fun k => i (a k)) ∧
    (transpose o a).data (fun k => i (a k)) = o.data i ∧
    (transpose o a).mask (fun k => i (a k)) = o.mask i ∧
    ∀ e e', o.error = some e → (transpose o a).error = some e' → e' (fun k => i (a k)) = e i := by
  set t : Sp K := { copy o with
    shape := fun k => o.shape (a k)
    data := fun i => o.data fun k => i (a.symm k)
    mask := fun i => o.mask fun k => i (a.symm k)
    error := o.error.map fun e i => e fun k => i (a.symm k) } with ht
  have htr : transpose o a = updateMask t := rfl
  have hin : ∀ i, t.In i → o.In (fun k => i (a.symm k)) := by
    intro i hi k; have := hi (a.symm k); simpa [ht] using this
  have hc : Consistent t := by
    intro f hf i hi
    have hf' : o.fill = some f := by simpa [ht] using hf
    obtain ⟨h1, h2⟩ := h f hf' _ (hin i hi)
    refine ⟨fun hm => ⟨(h1 hm).1, fun e he => ?_⟩, h2⟩
    cases hoe : o.error with
    | none => simp [ht, hoe] at he
    | some e0 =>
      simp only [ht, hoe, Option.map_some, Option.some.injEq] at he
      rw [← he]; exact (h1 hm).2 e0 hoe
  have hti : t.In (fun k => i (a k)) := fun k => hi (a k)
  have hs : (fun k => (fun k => i (a k)) (a.symm k)) = i := by funext k; simp
  obtain ⟨-, -, -, -, -, -, -, -, hcell⟩ := updateMask_same t hc
  obtain ⟨h1, h2, h3⟩ := hcell _ hti
  rw [htr]
  refine ⟨fun k => by rw [updateMask_shape]; exact hti k, ?_, ?_, fun e e' he he' => ?_⟩
  · rw [h1]; simp only [ht]; simp
  · rw [h2]; simp only [ht]; simp
  · rw [h3 (fun i => e fun k => i (a.symm k)) e' (by simp [ht, he]) he']; simp

/-- C27: transposing with the inverse axes restores the object. -/
theorem transpose_inverse (o : Sp K) (a : Equiv.Perm (Fin 3)) (h : Consistent o) :
    Same o (transpose (transpose o a) a.symm) := by
  have hc : Consistent (transpose o a) := updateMask_consistent _
  refine ⟨by simp, by simp [transpose], by simp [transpose], by simp [transpose],
    by simp [transpose], by simp [transpose], by simp [transpose], by simp [transpose], ?_⟩
  intro i hi
  obtain ⟨a0, a1, a2, a3⟩ := transpose_cell o a h i hi
  obtain ⟨-, b1, b2, b3⟩ := transpose_cell (transpose o a) a.symm hc _ a0
  simp only [Equiv.apply_symm_apply] at b1 b2 b3
  refine ⟨b1.trans a1, b2.trans a2, fun e e' he he' => ?_⟩
  have : (transpose o a).error.isSome := by simp [transpose, he]
  obtain ⟨e1, he1⟩ := Option.isSome_iff_exists.1 this
  rw [b3 e1 e' he1 he', a3 e e1 he he1]

/-- C27 (negative): `transpose` does not exchange the coordinates: a grid of two rows and one
column becomes one row and two columns with still two latitudes. -/
theorem transpose_keeps_latitudes :
    (transpose ex1 (Equiv.swap 0 1)).shape 0 = 1 ∧ (transpose ex1 (Equiv.swap 0 1)).lat.length = 2 := by
  simp [transpose_shape, ex1, transpose]

/-- the hypotheses hold for a grid with a masked cell -/
example : Consistent ex1 ∧ ex1.In ![1, 0, 0] ∧ ex1.lat.length = ex1.shape 0 ∧
    (flip ex1 0).data ![0, 0, 0] = some (-1) := by
  refine ⟨ex1_consistent, ?_, rfl, by decide +kernel⟩
  intro k; fin_cases k <;> simp [ex1]

end Verif.Spatial
