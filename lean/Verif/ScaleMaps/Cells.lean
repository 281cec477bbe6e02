import Verif.ScaleMaps.Spec

/-!
# Cells of scaled maps
-/
namespace Verif.ScaleMaps
open Verif.Spatial

theorem veq_none_left (f : Val ℝ) : veq (none : Val ℝ) f = false := rfl

theorem veq_some (x : ℝ) (f : Val ℝ) : veq (some x) f = true ↔ f = some x := by
  cases f with
  | none => simp [veq]
  | some y => simp [veq, eq_comm]

/-- what is read from a regular file -/
theorem readFactors_regular (f : FactorFile) (h : Regular f) : ∃ k, readFactors f = .ok k ∧ k.lon = f.lon ∧ k.lat = f.lat ∧
    (k.data.rows = f.lat.length ∧ k.data.cols = f.lon.length ∧ sameShape k.data k.error ∧ sameShape k.data k.magnitude) ∧
    (∀ i j x, Valid f i j x → k.mask i j = false ∧ k.data.val i j = some x ∧ k.error.val i j = f.error.val i j ∧
      k.magnitude.val i j = f.power.val i j) ∧
    ∀ i j, Invalid f i j → k.mask i j = true := by
  have hT : ¬ f.lon.length = f.kfactor.rows := by rw [h.kfactor.1]; exact fun e => h.square e.symm
  have hs : sameShape f.kfactor f.error ∧ sameShape f.kfactor f.power := by
    refine ⟨⟨?_, ?_⟩, ?_, ?_⟩
    · rw [h.kfactor.1, h.error.1]
    · rw [h.kfactor.2, h.error.2]
    · rw [h.kfactor.1, h.power.1]
    · rw [h.kfactor.2, h.power.2]
  unfold readFactors
  rw [if_neg hT]
  cases hf : f.fill with
  | none =>
    refine ⟨_, rfl, rfl, rfl, ⟨h.kfactor.1, h.kfactor.2, hs.1, hs.2⟩, fun i j x hx => ⟨rfl, hx.1, rfl, rfl⟩, ?_⟩
    rintro i j ⟨v, hv, -⟩
    rw [hf] at hv; cases hv
  | some v =>
    simp only [updateFactors]
    rw [if_pos hs]
    refine ⟨_, rfl, rfl, rfl, ⟨h.kfactor.1, h.kfactor.2, ⟨hs.1.1, hs.1.2⟩, ⟨hs.2.1, hs.2.2⟩⟩, ?_, ?_⟩
    · intro i j x ⟨h1, h2⟩
      have hm : veq (f.kfactor.val i j) v = false := by
        rw [h1, Bool.eq_false_iff]
        intro e
        rw [veq_some] at e
        exact h2 (by rw [hf, e])
      have hn : isnan (f.kfactor.val i j) = false := by rw [h1]; rfl
      simp only [hm, hn, Bool.or_self]
      exact ⟨trivial, h1, rfl, rfl⟩
    · rintro i j ⟨v', hv', hor⟩
      rw [hf] at hv'; cases hv'
      simp only
      rcases hor with e | e
      · rw [e]; simp [isnan]
      · cases v with
        | none => rw [e]; simp [isnan]
        | some x => rw [e]; simp [veq]

/-- a scaled map at a valid cell -/
theorem scaled_valid (k : Factors) (g : Sp ℝ) (hg : g.fill = none) (hm : g.mask = fun _ => false) (i : Idx) (x v : ℝ)
    (h1 : k.mask (i 0) (i 1) = false) (h2 : k.data.val (i 0) (i 1) = some x) (hv : g.data i = some v) :
    (scaled k g).data i = some (x * v) ∧ (scaled k g).mask i = false := by
  have e : (scaled k g).mask i = false := by
    simp [scaled, replaceInvalid, Spatial.scale, pointwise, Spatial.updateMask, Spatial.copy, replaceMasked, hg, hm, h1]
  refine ⟨?_, e⟩
  have : (scaled k g).data i = if (scaled k g).mask i then invalid else vmap2 (fun x y => y * x) (g.data i) (k.data.val (i 0) (i 1)) := by
    simp [scaled, replaceInvalid, Spatial.scale, pointwise, Spatial.updateMask, Spatial.copy, replaceMasked, hg, fillIn]
  rw [this, e, hv, h2]
  rfl

/-- a scaled map at an invalid cell -/
theorem scaled_invalid (k : Factors) (g : Sp ℝ) (hg : g.fill = none) (i : Idx) (h1 : k.mask (i 0) (i 1) = true) :
    (scaled k g).data i = invalid ∧ (scaled k g).mask i = true := by
  have e : (scaled k g).mask i = true := by
    simp [scaled, replaceInvalid, Spatial.scale, pointwise, Spatial.updateMask, Spatial.copy, replaceMasked, hg, h1]
  refine ⟨?_, e⟩
  have : (scaled k g).data i = if (scaled k g).mask i then invalid else vmap2 (fun x y => y * x) (g.data i) (k.data.val (i 0) (i 1)) := by
    simp [scaled, replaceInvalid, Spatial.scale, pointwise, Spatial.updateMask, Spatial.copy, replaceMasked, hg, fillIn]
  rw [this, e]
  rfl

theorem scaled_fill (k : Factors) (g : Sp ℝ) : (scaled k g).fill = some invalid := rfl

theorem mapM_some (l : List ℕ) (f : ℕ → ℝ) : (l.map fun t => (some (f t) : Option ℝ)).mapM id = some (l.map f) := by
  induction l with
  | nil => rfl
  | cons a r ih => simp [List.mapM_cons, ih]

/-- power of a series at a cell that is valid at all dates -/
theorem powerOf_valid (g : Sp ℝ) (hf : g.fill = some invalid) (i : Idx) (w : ℕ → ℝ)
    (h : ∀ t < g.shape 2, g.data (atDate i t) = some (w t) ∧ g.mask (atDate i t) = false) :
    (powerOf g).data i = some (Real.sqrt (∑ t ∈ Finset.range (g.shape 2), w t ^ 2)) ∧ (powerOf g).mask i = false := by
  have hred : reduceCell (fun xs : List ℝ => some (xs.map (· ^ 2)).sum) g.data (List.range (g.shape 2)) i =
      some (∑ t ∈ Finset.range (g.shape 2), w t ^ 2) := by
    unfold reduceCell
    have : (List.range (g.shape 2)).map (fun t => g.data (atDate i t)) = (List.range (g.shape 2)).map fun t => some (w t) :=
      List.map_congr_left fun t ht => (h t (List.mem_range.1 ht)).1
    rw [this, mapM_some]
    simp only
    rw [List.map_map, sum_map_range]
    rfl
  have hmask : anyMask g.mask (List.range (g.shape 2)) i = false := by
    unfold anyMask
    rw [List.any_eq_false]
    intro t ht
    rw [(h t (List.mem_range.1 ht)).2]
    simp
  have hpos : 0 ≤ ∑ t ∈ Finset.range (g.shape 2), w t ^ 2 := Finset.sum_nonneg fun t _ => sq_nonneg _
  have hne : veq (some (∑ t ∈ Finset.range (g.shape 2), w t ^ 2)) invalid = false := by
    rw [Bool.eq_false_iff]
    intro e
    rw [veq_some] at e
    unfold invalid at e
    have := Option.some.inj e
    linarith
  have hsm : (Spatial.sum g 2).mask i = false := by
    have : (Spatial.sum g 2).mask i = (anyMask g.mask (List.range (g.shape 2)) i ||
        veq (reduceCell (fun xs : List ℝ => some (xs.map (· ^ 2)).sum) g.data (List.range (g.shape 2)) i) invalid ||
        isnan (reduceCell (fun xs : List ℝ => some (xs.map (· ^ 2)).sum) g.data (List.range (g.shape 2)) i)) := by
      simp [Spatial.sum, Spatial.updateMask, reduced, hf]
    rw [this, hmask, hred, hne]
    rfl
  have hsd : (Spatial.sum g 2).data i = some (∑ t ∈ Finset.range (g.shape 2), w t ^ 2) := by
    unfold Spatial.sum at hsm ⊢
    rw [updateMask_data _ invalid (by simp [reduced, hf]), hsm]
    exact hred
  constructor
  · show root ((Spatial.sum g 2).data i) = _
    rw [hsd]
    simp [root, not_lt.2 hpos]
  · have : (powerOf g).mask i = (Spatial.sum g 2).mask i := by
      unfold powerOf Spatial.copy replaceMasked
      simp only
      split <;> rfl
    rw [this, hsm]

theorem leakage_data (k : Factors) (g : Sp ℝ) (hf : g.fill = some invalid) (i : Idx) (v : Val ℝ)
    (hv : v = vmap2 (· * ·) (k.error.val (i 0) (i 1))
      (some (ratioAt ((powerOf g).mask i) ((powerOf g).data i) (k.magnitude.val (i 0) (i 1))))) :
    (leakage k g).data i = if k.mask (i 0) (i 1) || veq v invalid || isnan v then invalid else v := by
  subst hv
  simp only [leakage]
  rw [updateMask_data _ invalid (by simp [Spatial.copy, replaceMasked, hf])]
  simp [Spatial.updateMask, Spatial.copy, replaceMasked, hf]

theorem fill_same (v : ℝ) : (if (false || veq (some v) invalid || isnan (some v)) = true then invalid else some v) = some v := by
  split_ifs with h
  · simp only [isnan, Option.isNone_some, Bool.or_false, Bool.false_or] at h
    exact (veq_some v _).1 h
  · rfl

/-- the leakage error of a valid cell -/
theorem leakage_valid (k : Factors) (g : Sp ℝ) (hf : g.fill = some invalid) (i : Idx) (w : ℕ → ℝ)
    (h : ∀ t < g.shape 2, g.data (atDate i t) = some (w t) ∧ g.mask (atDate i t) = false) (e p : ℝ)
    (h1 : k.mask (i 0) (i 1) = false) (he : k.error.val (i 0) (i 1) = some e) (hp : k.magnitude.val (i 0) (i 1) = some p)
    (hp0 : p ≠ 0) :
    (leakage k g).data i = some (e * (Real.sqrt (∑ t ∈ Finset.range (g.shape 2), w t ^ 2) / p)) := by
  obtain ⟨d, m⟩ := powerOf_valid g hf i w h
  rw [leakage_data k g hf i _ rfl, h1, d, m, he, hp]
  have : ratioAt false (some (Real.sqrt (∑ t ∈ Finset.range (g.shape 2), w t ^ 2))) (some p) =
      Real.sqrt (∑ t ∈ Finset.range (g.shape 2), w t ^ 2) / p := by
    simp [ratioAt, quotient, hp0, div_eq_mul_inv]
  rw [this]
  exact fill_same _

/-- the leakage error where the magnitude is zero: zero for a cell with signal, and the invalid value times the error of the
factor for a cell without any signal -/
theorem leakage_zero (k : Factors) (g : Sp ℝ) (hf : g.fill = some invalid) (i : Idx) (w : ℕ → ℝ)
    (h : ∀ t < g.shape 2, g.data (atDate i t) = some (w t) ∧ g.mask (atDate i t) = false) (e : ℝ)
    (h1 : k.mask (i 0) (i 1) = false) (he : k.error.val (i 0) (i 1) = some e) (hp : k.magnitude.val (i 0) (i 1) = some 0) :
    (leakage k g).data i = some (if ∃ t < g.shape 2, w t ≠ 0 then 0 else -9999 * e) := by
  obtain ⟨d, m⟩ := powerOf_valid g hf i w h
  rw [leakage_data k g hf i _ rfl, h1, d, m, he, hp]
  have hz : Real.sqrt (∑ t ∈ Finset.range (g.shape 2), w t ^ 2) = 0 ↔ ¬ ∃ t < g.shape 2, w t ≠ 0 := by
    rw [Real.sqrt_eq_zero (Finset.sum_nonneg fun t _ => sq_nonneg _), Finset.sum_eq_zero_iff_of_nonneg fun t _ => sq_nonneg _]
    simp
  by_cases hw : ∃ t < g.shape 2, w t ≠ 0
  · rw [if_pos hw]
    have hne : Real.sqrt (∑ t ∈ Finset.range (g.shape 2), w t ^ 2) ≠ 0 := fun e => (hz.1 e) hw
    have : ratioAt false (some (Real.sqrt (∑ t ∈ Finset.range (g.shape 2), w t ^ 2))) (some 0) = 0 := by
      simp only [ratioAt, quotient, if_true, if_neg hne]; rfl
    rw [this]
    rw [show vmap2 (fun x y : ℝ => x * y) (some e) (some 0) = some 0 by simp [vmap2]]
    exact fill_same _
  · rw [if_neg hw]
    have : ratioAt false (some (Real.sqrt (∑ t ∈ Finset.range (g.shape 2), w t ^ 2))) (some 0) = -9999 := by
      simp only [ratioAt, quotient, if_true, if_pos (hz.2 hw)]; rfl
    rw [this]
    rw [show vmap2 (fun x y : ℝ => x * y) (some e) (some (-9999)) = some (-9999 * e) by simp [vmap2, mul_comm]]
    exact fill_same _

/-- the leakage error of an invalid cell -/
theorem leakage_invalid (k : Factors) (g : Sp ℝ) (hf : g.fill = some invalid) (i : Idx) (h1 : k.mask (i 0) (i 1) = true) :
    (leakage k g).data i = invalid := by
  rw [leakage_data k g hf i _ rfl, h1]
  rfl

end Verif.ScaleMaps
