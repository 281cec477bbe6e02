import Verif.Spatial.Mask

/-!
# C59 which operations share memory with their argument

`copy` duplicates the arrays, `np.flip` and `np.transpose` return views of them.  The model has a
heap of buffers; an object refers to a data and a mask buffer through an index map.
-/
set_option linter.unusedSectionVars false
namespace Verif.Spatial.Alias
open Verif.Spatial (Idx Val veq isnan rev)
variable {K : Type} [Field K] [DecidableEq K]

/-! ## Model -/

/-- buffers of numbers and of flags, by address -/
structure Heap (K : Type) where
  dat : ℕ → Idx → Val K
  msk : ℕ → Idx → Bool

/-- a `spatial` object: addresses of its arrays and the map from its indices to those of the
buffers, with a left inverse on the existing indices -/
structure Ref (K : Type) where
  d : ℕ
  m : ℕ
  shape : Fin 3 → ℕ
  view : Idx → Idx
  unview : Idx → Idx
  fill : Option (Val K)

/-- existing index -/
def Ref.In (r : Ref K) (i : Idx) : Prop := ∀ k, i k < r.shape k

instance (r : Ref K) (i : Idx) : Decidable (r.In i) := by unfold Ref.In; exact Nat.decidableForallFin _

/-- value of a cell -/
def Ref.data (h : Heap K) (r : Ref K) (i : Idx) : Val K := h.dat r.d (r.view i)
/-- mask of a cell -/
def Ref.mask (h : Heap K) (r : Ref K) (i : Idx) : Bool := h.msk r.m (r.view i)

/-- buffer position `j` belongs to the view -/
def Ref.covers (r : Ref K) (j : Idx) : Prop := r.In (r.unview j) ∧ r.view (r.unview j) = j

instance (r : Ref K) (j : Idx) : Decidable (r.covers j) := by
  unfold Ref.covers
  have : Decidable (r.view (r.unview j) = j) := by
    have : (r.view (r.unview j) = j) ↔ ∀ k, r.view (r.unview j) k = j k := funext_iff
    exact decidable_of_iff _ this.symm
  infer_instance

/-- `self.data[i] = x` -/
def setCell (h : Heap K) (r : Ref K) (i : Idx) (x : Val K) : Heap K :=
  { h with dat := Function.update h.dat r.d (Function.update (h.dat r.d) (r.view i) x) }

/-- `update_mask` in place (spatial.py:1170-1180), data and mask -/
def updateMask (h : Heap K) (r : Ref K) : Heap K :=
  match r.fill with
  | none => h
  | some f =>
    let msk := Function.update h.msk r.m fun j =>
      h.msk r.m j || (r.covers j && (veq (h.dat r.d j) f || isnan (h.dat r.d j)))
    { msk := msk
      dat := Function.update h.dat r.d fun j =>
        if r.covers j ∧ msk r.m j = true then f else h.dat r.d j }

/-- `copy` (spatial.py:1182-1202) to fresh addresses `a`, `b`: the arrays are duplicated (a
contiguous copy of the view), then masked cells are filled -/
def copyTo (h : Heap K) (r : Ref K) (a b : ℕ) : Heap K × Ref K :=
  ({ dat := Function.update h.dat a fun i => match r.fill with
        | some f => if r.mask h i then f else r.data h i
        | none => r.data h i
     msk := Function.update h.msk b fun i => r.mask h i },
   { r with d := a, m := b, view := id, unview := id })

/-- `flip(axis)` (spatial.py:1503-1529): the data and mask of the result are `np.flip` views of
those of the argument; `update_mask` then works in place on them -/
def flip (h : Heap K) (r : Ref K) (k : Fin 3) : Heap K × Ref K :=
  let t : Ref K := { r with view := fun i => r.view (rev r.shape k i)
                            unview := fun j => rev r.shape k (r.unview j) }
  (updateMask h t, t)

/-- in-place operations on one object -/
inductive InPlace (K : Type) where
  | set (i : Idx) (x : Val K)
  | update

/-- effect -/
def InPlace.run (r : Ref K) (h : Heap K) : InPlace K → Heap K
  | .set i x => setCell h r i x
  | .update => updateMask h r

/-! ## Properties -/

/-- an in-place operation leaves the buffers of other addresses alone -/
theorem run_frame (r : Ref K) (h : Heap K) (op : InPlace K) (a : ℕ) :
    (a ≠ r.d → (op.run r h).dat a = h.dat a) ∧ (a ≠ r.m → (op.run r h).msk a = h.msk a) := by
  cases op with
  | set i x => exact ⟨fun ha => by simp [InPlace.run, setCell, ha], fun _ => rfl⟩
  | update =>
    simp only [InPlace.run, updateMask]
    cases r.fill with
    | none => simp
    | some f => exact ⟨fun ha => by simp [ha], fun ha => by simp [ha]⟩

/-- C59: whatever is done in place to a copy, the original keeps every value and mask. -/
theorem copy_isolated (h : Heap K) (r : Ref K) (a b : ℕ) (ha : a ≠ r.d) (hb : b ≠ r.m)
    (ops : List (InPlace K)) (i : Idx) :
    let h' := ops.foldl (InPlace.run (copyTo h r a b).2) (copyTo h r a b).1
    r.data h' i = r.data h i ∧ r.mask h' i = r.mask h i := by
  intro h'
  have key : ∀ (ops : List (InPlace K)) (g : Heap K) (c : Ref K), c.d = a → c.m = b →
      (ops.foldl (InPlace.run c) g).dat r.d = g.dat r.d ∧
      (ops.foldl (InPlace.run c) g).msk r.m = g.msk r.m := by
    intro ops
    induction ops with
    | nil => intro g c _ _; exact ⟨rfl, rfl⟩
    | cons op ops ih =>
      intro g c hc1 hc2
      obtain ⟨h1, h2⟩ := ih (op.run c g) c hc1 hc2
      obtain ⟨f1, f2⟩ := run_frame c g op r.d
      obtain ⟨_, f4⟩ := run_frame c g op r.m
      rw [List.foldl_cons, h1, h2]
      exact ⟨f1 (by rw [hc1]; exact ha.symm), f4 (by rw [hc2]; exact hb.symm)⟩
  obtain ⟨h1, h2⟩ := key ops (copyTo h r a b).1 (copyTo h r a b).2 rfl rfl
  refine ⟨?_, ?_⟩
  · show h'.dat r.d _ = h.dat r.d _
    rw [show h'.dat r.d = _ from h1]; simp [copyTo, ha.symm]
  · show h'.msk r.m _ = h.msk r.m _
    rw [show h'.msk r.m = _ from h2]; simp [copyTo, hb.symm]

/-- C59: the copy shows the values of the original, with the fill value in masked cells. -/
theorem copy_values (h : Heap K) (r : Ref K) (a b : ℕ) (i : Idx) :
    (copyTo h r a b).2.mask (copyTo h r a b).1 i = r.mask h i ∧
    (r.mask h i = false → (copyTo h r a b).2.data (copyTo h r a b).1 i = r.data h i) := by
  refine ⟨by simp [copyTo, Ref.mask], fun hm => ?_⟩
  simp only [copyTo, Ref.data, id_eq, Function.update_self]
  cases r.fill with
  | none => rfl
  | some f => simp [hm]

theorem rev_rev' (shape : Fin 3 → ℕ) (k : Fin 3) (i : Idx) (h : i k < shape k) :
    rev shape k (rev shape k i) = i := Spatial.rev_rev shape k i h

/-- C59 (negative): the result of `flip` shares its memory with the argument: writing the cell
`i` of the flipped object changes the mirrored cell of the original. -/
theorem flip_shares (h : Heap K) (r : Ref K) (k : Fin 3) (i : Idx) (x : Val K) :
    r.data (setCell (flip h r k).1 (flip h r k).2 i x) (rev r.shape k i) = x := by
  simp [setCell, flip, Ref.data]

/-- C59 (negative): `flip` itself modifies the original: a NaN cell that was not masked is masked
and filled in the original. -/
theorem flip_mutates (h : Heap K) (r : Ref K) (k : Fin 3) (f : Val K) (hf : r.fill = some f)
    (hinv : ∀ i, r.In i → r.unview (r.view i) = i) (i : Idx) (hi : r.In i)
    (hn : r.data h i = none) :
    r.mask (flip h r k).1 i = true ∧ r.data (flip h r k).1 i = f := by
  have hrev : ∀ j : Idx, (∀ k, j k < r.shape k) → ∀ l, rev r.shape k j l < r.shape l := by
    intro j hj l
    unfold rev
    by_cases hl : l = k
    · subst hl; have := hj l; simp; omega
    · simp [hl]; exact hj l
  set t : Ref K := { r with view := fun i => r.view (rev r.shape k i)
                            unview := fun j => rev r.shape k (r.unview j) } with ht
  have hcov : t.covers (r.view i) := by
    refine ⟨?_, ?_⟩
    · show t.In (rev r.shape k (r.unview (r.view i)))
      rw [hinv i hi]; exact hrev i hi
    · show r.view (rev r.shape k (rev r.shape k (r.unview (r.view i)))) = r.view i
      rw [hinv i hi, Spatial.rev_rev _ _ _ (hi k)]
  have hn' : h.dat r.d (r.view i) = none := hn
  have hflip : (flip h r k).1 = updateMask h t := rfl
  rw [hflip]
  have htf : t.fill = some f := hf
  unfold updateMask
  simp only [htf]
  have hm : (h.msk t.m (r.view i) || (decide (t.covers (r.view i)) &&
      (veq (h.dat t.d (r.view i)) f || isnan (h.dat t.d (r.view i))))) = true := by
    simp only [hcov, decide_true, Bool.true_and]
    show (h.msk r.m (r.view i) || (veq (h.dat r.d (r.view i)) f || isnan (h.dat r.d (r.view i)))) = true
    rw [hn']; simp [isnan]
  constructor
  · show Function.update h.msk t.m _ r.m (r.view i) = true
    rw [show t.m = r.m from rfl, Function.update_self]; exact hm
  · show Function.update h.dat t.d _ r.d (r.view i) = f
    rw [show t.d = r.d from rfl, Function.update_self]
    rw [if_pos]
    refine ⟨hcov, ?_⟩
    rw [show t.m = r.m from rfl, Function.update_self]; exact hm

/-- a concrete object with one NaN cell; `flip` masks it in the original -/
def exH : Heap ℚ := { dat := fun _ i => if i 0 = 0 then none else some 1, msk := fun _ _ => false }
/-- its reference -/
def exR : Ref ℚ :=
  { d := 0, m := 0, shape := ![2, 1, 1], view := id, unview := id, fill := some (some (-1)) }

example : exR.data exH ![0, 0, 0] = none ∧ exR.mask exH ![0, 0, 0] = false ∧
    exR.mask (flip exH exR 0).1 ![0, 0, 0] = true ∧
    exR.data (flip exH exR 0).1 ![0, 0, 0] = some (-1) := by decide +kernel

end Verif.Spatial.Alias
