import Verif.PlotGrid.Bilinear
import Verif.Spatial.Mask
import Mathlib.Tactic.FieldSimp
import Mathlib.Tactic.Positivity
/-!
# C114: the values that are shown, averages, levels
-/
namespace Verif.PlotGrid
open Verif.Spatial

/-! ## Scale and direction -/

theorem scaleFlip_shape (c dlat : ℚ) (o : Sp ℚ) : (scaleFlip c dlat o).shape = o.shape := by
  unfold scaleFlip; split_ifs <;> simp [scale, pointwise]

theorem scaleFlip_axes (c dlat : ℚ) (o : Sp ℚ) : (scaleFlip c dlat o).lon = o.lon ∧
    (scaleFlip c dlat o).lat = if dlat < 0 then o.lat.reverse else o.lat := by
  unfold scaleFlip; split_ifs <;> simp [scale, pointwise, Spatial.flip]

/-- the row of the grid that is shown in row `i` -/
def fromRow (dlat : ℚ) (n i : ℕ) : ℕ := if dlat < 0 then n - 1 - i else i

theorem cell_in (o : Sp ℚ) (h2 : 0 < o.shape 2) (i j : ℕ) (hi : i < o.shape 0) (hj : j < o.shape 1) : o.In (cell i j) := by
  intro k; fin_cases k
  · exact hi
  · exact hj
  · exact h2

theorem rev_cell (sh : Fin 3 → ℕ) (i j : ℕ) : rev sh 0 (cell i j) = cell (sh 0 - 1 - i) j := by
  funext k; fin_cases k <;> simp [rev, cell]

theorem scale_cell (c : ℚ) (o : Sp ℚ) (f : ℚ) (hf : o.fill = some (some f)) (i : Idx) :
    (∀ v, o.mask i = false → o.data i = some v → c * v ≠ f →
      (scale o fun _ => some c).mask i = false ∧ (scale o fun _ => some c).data i = some (c * v)) ∧
    (o.mask i = true → (scale o fun _ => some c).mask i = true) ∧
    (∀ v, o.data i = some v → c * v = f → (scale o fun _ => some c).mask i = true) := by
  obtain ⟨-, -, h3, h4, h5⟩ := pointwise_spec (fun x y : ℚ => y * x) o (fun _ => some c)
  refine ⟨fun v hm hd hne => ?_, h3 i, fun v hd he => ?_⟩
  · have hm' : (scale o fun _ => some c).mask i = false := by
      rw [← Bool.not_eq_true]; intro hc
      rcases (h5 _ hf i).1 hc with h | h | h
      · rw [hm] at h; cases h
      · rw [hd] at h; simp only [vmap2, Option.some.injEq] at h; exact hne h
      · rw [hd] at h; simp [vmap2] at h
    refine ⟨hm', ?_⟩
    have := h4 i hm'
    rw [scale, this, hd]; rfl
  · refine (h5 _ hf i).2 (Or.inr (Or.inl ?_))
    rw [hd]; simp [vmap2, he]

/-- C114: a map shows every valid cell with its value times the scale factor, and every missing cell as missing; if the spacing in
latitude is negative, the rows are shown in the opposite order together with their latitudes.  A cell whose scaled value happens
to be the fill value is shown as missing (`scaled_fill`). -/
theorem scaleFlip_cell (c dlat : ℚ) (o : Sp ℚ) (f : ℚ) (hf : o.fill = some (some f)) (hc : Consistent o) (h2 : 0 < o.shape 2)
    (hl : o.lat.length = o.shape 0) (i j : ℕ) (hi : i < o.shape 0) (hj : j < o.shape 1) :
    (scaleFlip c dlat o).lat[i]? = o.lat[fromRow dlat (o.shape 0) i]? ∧
    (o.mask (cell (fromRow dlat (o.shape 0) i) j) = true → (scaleFlip c dlat o).mask (cell i j) = true) ∧
    (∀ v, o.mask (cell (fromRow dlat (o.shape 0) i) j) = false → o.data (cell (fromRow dlat (o.shape 0) i) j) = some v → c * v ≠ f →
      (scaleFlip c dlat o).mask (cell i j) = false ∧ (scaleFlip c dlat o).data (cell i j) = some (c * v)) := by
  have hlat : (scaleFlip c dlat o).lat[i]? = o.lat[fromRow dlat (o.shape 0) i]? := by
    rw [(scaleFlip_axes c dlat o).2]; unfold fromRow
    split_ifs
    · rw [List.getElem?_reverse (by omega), hl]
    · rfl
  refine ⟨hlat, ?_⟩
  set s := if c ≠ 1 then scale o fun _ => some c else o with hs
  have hsc : Consistent s := by
    rw [hs]; split_ifs
    · exact (pointwise_spec _ o _).1
    · exact hc
  have hss : s.shape = o.shape := by rw [hs]; split_ifs <;> simp [scale, pointwise]
  have key : ∀ k : Idx, (o.mask k = true → s.mask k = true) ∧
      ∀ v, o.mask k = false → o.data k = some v → c * v ≠ f → s.mask k = false ∧ s.data k = some (c * v) := by
    intro k
    by_cases h1 : c = 1
    · have : s = o := by rw [hs, if_neg (by simp [h1])]
      rw [this, h1]
      refine ⟨id, fun v hm hd _ => ⟨hm, by rw [hd, one_mul]⟩⟩
    · have : s = scale o fun _ => some c := by rw [hs, if_pos h1]
      rw [this]
      exact ⟨(scale_cell c o f hf k).2.1, (scale_cell c o f hf k).1⟩
  have hsf : scaleFlip c dlat o = if dlat < 0 then flip s 0 else s := rfl
  rw [hsf]
  unfold fromRow
  by_cases hd : dlat < 0
  · simp only [if_pos hd]
    obtain ⟨a, b, -⟩ := flip_cell s 0 hsc (cell i j) (cell_in s (by rw [hss]; exact h2) i j (by rw [hss]; exact hi) (by rw [hss]; exact hj))
    rw [rev_cell, hss] at a b
    rw [a, b]
    exact key _
  · simp only [if_neg hd]
    exact key _

/-- C114 (negative): a value that is scaled to the fill value disappears from the map. -/
theorem scaled_fill (c dlat : ℚ) (o : Sp ℚ) (f v : ℚ) (hf : o.fill = some (some f)) (hc1 : c ≠ 1) (hd : 0 ≤ dlat) (i : Idx)
    (hv : o.data i = some v) (he : c * v = f) : (scaleFlip c dlat o).mask i = true := by
  unfold scaleFlip
  rw [if_pos hc1, if_neg (not_lt.2 hd)]
  exact (scale_cell c o f hf i).2.2 v hv he

/-! ## The land-sea file -/

/-- C114 (negative): with a land-sea file of the dimensions of the grid the map of "only grounded points" hides exactly the cells
of land, lakes and small islands (and the missing ones); the cells of the oceans and ice shelves are shown with their values. -/
theorem landMask_hides_land (o : Sp ℚ) (l : LandSea) (f : ℚ) (hf : o.fill = some (some f)) (hc : Consistent o) (h2 : 0 < o.shape 2)
    (hd : l.nth = o.shape 0 ∧ l.nphi = o.shape 1) (i j : ℕ) (hi : i < o.shape 0) (hj : j < o.shape 1) :
    ((applyMask o (landMask l)).mask (cell i j) = true ↔
      o.mask (cell i j) = true ∨ l.code i j = 1 ∨ l.code i j = 2 ∨ l.code i j = 3) ∧
    (o.mask (cell i j) = false → l.code i j = 0 ∨ l.code i j = 4 →
      (applyMask o (landMask l)).mask (cell i j) = false ∧ (applyMask o (landMask l)).data (cell i j) = o.data (cell i j)) := by
  have ha : applyMask o (landMask l) = replaceInvalid o (some f) (some fun k => (landMask l).val (k 0) (k 1)) := by
    unfold applyMask applicable; rw [hf]
    simp only [landMask, hd, and_self, if_true]
  rw [ha]
  obtain ⟨-, hs⟩ := replaceInvalid_spec o (some f) (some fun k => (landMask l).val (k 0) (k 1))
  have hin := cell_in o h2 i j hi hj
  have hum : (updateMask o).mask (cell i j) = o.mask (cell i j) := by
    obtain ⟨-, -, -, -, -, -, -, -, h⟩ := updateMask_same o hc
    exact (h _ hin).2.1
  have h1 : (replaceInvalid o (some f) (some fun k => (landMask l).val (k 0) (k 1))).mask (cell i j) = true ↔
      o.mask (cell i j) = true ∨ l.code i j = 1 ∨ l.code i j = 2 ∨ l.code i j = 3 := by
    rw [(hs (cell i j)).1, hum]
    refine or_congr Iff.rfl ?_
    simp only [Option.some.injEq, exists_eq_left', landMask, cell, decide_eq_true_eq]
    simp only [if_true, one_ne_zero, if_false]
    omega
  refine ⟨h1, fun hm hw => ?_⟩
  have h3 : (replaceInvalid o (some f) (some fun k => (landMask l).val (k 0) (k 1))).mask (cell i j) = false := by
    rw [← Bool.not_eq_true, h1, hm]; simp only [Bool.false_eq_true, false_or]; omega
  exact ⟨h3, by rw [(hs (cell i j)).2, h3]; rfl⟩

/-- C114 (negative): a land-sea file of other dimensions than the grid is passed over without a message: the map of a consistent
grid is that without mask. -/
theorem landMask_dimensions (o : Sp ℚ) (l : LandSea) (f : ℚ) (hf : o.fill = some (some f)) (hc : Consistent o)
    (hd : ¬ (l.nth = o.shape 0 ∧ l.nphi = o.shape 1)) (i : Idx) (hin : o.In i) :
    (applyMask o (landMask l)).mask i = o.mask i ∧ (applyMask o (landMask l)).data i = o.data i := by
  have ha : applyMask o (landMask l) = replaceInvalid o (some f) none := by
    unfold applyMask applicable; rw [hf]
    rw [if_neg (by exact hd)]
  rw [ha]
  obtain ⟨-, hs⟩ := replaceInvalid_spec o (some f) none
  obtain ⟨-, -, -, -, -, -, -, -, h⟩ := updateMask_same o hc
  have hm : (replaceInvalid o (some f) none).mask i = o.mask i := by
    have := (hs i).1
    rw [(h i hin).2.1] at this
    simp only [reduceCtorEq, false_and, exists_false, or_false] at this
    exact Bool.eq_iff_iff.2 this
  refine ⟨hm, ?_⟩
  rw [(hs i).2, hm]
  split_ifs with hm'
  · exact ((hc _ hf i hin).1 hm').1.symm
  · rfl

/-- C114: for a grid without fill value the mask of the file is added to that of the grid, hidden cells become NaN and the others keep
their values. -/
theorem landMask_noFill (o : Sp ℚ) (l : LandSea) (hf : o.fill = none) (hd : l.nth = o.shape 0 ∧ l.nphi = o.shape 1) (i j : ℕ) :
    ((applyMask o (landMask l)).mask (cell i j) = true ↔
      o.mask (cell i j) = true ∨ l.code i j = 1 ∨ l.code i j = 2 ∨ l.code i j = 3) ∧
    (applyMask o (landMask l)).data (cell i j) = if (applyMask o (landMask l)).mask (cell i j) then none else o.data (cell i j) := by
  have ha : applicable o (landMask l) = some fun k => (landMask l).val (k 0) (k 1) := by
    unfold applicable; rw [if_pos (by exact hd)]
  refine ⟨?_, ?_⟩
  · unfold applyMask; rw [hf]
    simp only [ha, Bool.or_eq_true]
    refine or_congr Iff.rfl ?_
    simp only [landMask, cell, decide_eq_true_eq, if_true, one_ne_zero, if_false]
    omega
  · unfold applyMask; rw [hf]; rfl

/-- C114: the map of `plot_grid` called with a mask is the map of the masked grid, and without one that of the grid itself. -/
theorem prepare_mask (o : Sp ℚ) (l : LandSea) (c dlat : ℚ) :
    prepare (some (landMask l)) c dlat o = prepare none c dlat (applyMask o (landMask l)) := rfl

/-- C114 (negative): the mask given to the program on the command line is not used. -/
theorem main_ignores_mask (a b : LandSea) (c dlat : ℚ) (o : Sp ℚ) : mainMap a c dlat o = mainMap b c dlat o := rfl

/-- C114 (negative): the program shows every valid cell whatever the mask on the command line. -/
theorem main_shows_all (a : LandSea) (c dlat : ℚ) (o : Sp ℚ) (f v : ℚ) (hf : o.fill = some (some f)) (hc : Consistent o)
    (h2 : 0 < o.shape 2) (hl : o.lat.length = o.shape 0) (i j : ℕ) (hi : i < o.shape 0) (hj : j < o.shape 1)
    (hm : o.mask (cell (fromRow dlat (o.shape 0) i) j) = false) (hd : o.data (cell (fromRow dlat (o.shape 0) i) j) = some v)
    (hne : c * v ≠ f) : (mainMap a c dlat o).data (cell i j) = some (c * v) :=
  ((scaleFlip_cell c dlat o f hf hc h2 hl i j hi hj).2.2 v hm hd hne).2

/-- C114: a pixel is shown after `mask_oceans` exactly if it was shown and is not on land of the package's file. -/
theorem oceans_spec (land : Bool) (p : Pixel) : ((oceans land p).2 = false ↔ p.2 = false ∧ land = false) ∧
    ((oceans land p).2 = false → oceans land p = p) := by
  unfold oceans
  rcases p with ⟨v, m⟩
  cases m <;> cases land <;> simp

/-- a grid of two rows and two columns with one missing cell -/
def exSmall : Sp ℚ where
  shape := fun k => if k = 2 then 1 else 2
  data := fun i => if i 0 = 0 ∧ i 1 = 0 then some (-99) else some ((i 0 : ℚ) + 10 * (i 1 : ℚ))
  mask := fun i => i 0 = 0 && i 1 = 0
  error := none
  lat := [45, -45]
  lon := [-90, 90]
  time := []
  month := []
  fill := some (some (-99))
  ndim3 := false

theorem exSmall_consistent : Consistent exSmall := by
  intro f hf i hi
  simp only [exSmall, Option.some.injEq] at hf
  subst hf
  have h0 : i 0 < 2 := hi 0
  have h1 : i 1 < 2 := hi 1
  refine ⟨fun hm => ⟨?_, fun e he => by simp [exSmall] at he⟩, ?_⟩
  · simp only [exSmall, Bool.and_eq_true, decide_eq_true_eq] at hm ⊢
    rw [if_pos hm]
  · intro h
    by_contra hm
    simp only [exSmall, Bool.and_eq_true, decide_eq_true_eq] at hm h
    rw [if_neg hm] at h
    rcases h with h | h
    · have := Option.some.inj h
      have p0 : (0 : ℚ) ≤ (i 0 : ℚ) := by positivity
      have p1 : (0 : ℚ) ≤ (i 1 : ℚ) := by positivity
      linarith
    · cases h

example : (scaleFlip 3 (-90) exSmall).data (cell 1 1) = some 30 ∧ (scaleFlip 3 (-90) exSmall).mask (cell 1 1) = false ∧
    (scaleFlip 3 (-90) exSmall).mask (cell 1 0) = true ∧ (scaleFlip 3 (-90) exSmall).lat = [-45, 45] := by decide +kernel
example : (applyMask exSmall (landMask ⟨2, 2, fun i j => if i = 1 ∧ j = 1 then 1 else 0⟩)).mask (cell 1 1) = true ∧
    (applyMask exSmall (landMask ⟨2, 2, fun i j => if i = 1 ∧ j = 1 then 1 else 0⟩)).mask (cell 1 0) = false ∧
    (applyMask exSmall (landMask ⟨3, 2, fun _ _ => 1⟩)).mask (cell 1 1) = false := by decide +kernel

/-! ## The average -/

/-- weight of a latitude -/
noncomputable def weight (lat : ℚ) : ℝ := Real.cos ((lat : ℝ) * Real.pi / 180)

theorem average_eq (rad dlon dlat : ℝ) (hr : rad ≠ 0) (h1 : dlon ≠ 0) (h2 : dlat ≠ 0) (cs : List (ℚ × ℚ)) :
    average rad dlon dlat cs = if (cs.map fun p => weight p.1).sum = 0 then none else
      some ((cs.map fun p => weight p.1 * (p.2 : ℝ)).sum / (cs.map fun p => weight p.1).sum) := by
  set k := rad ^ 2 * (dlat * Real.pi / 180) * (dlon * Real.pi / 180) with hk
  have hk0 : k ≠ 0 := by
    have := Real.pi_ne_zero
    rw [hk]; positivity
  have e1 : (cs.map fun p => area rad dlon dlat p.1) = cs.map fun p => k * weight p.1 := by
    refine List.map_congr_left fun p _ => rfl
  have e2 : (cs.map fun p => area rad dlon dlat p.1 * (p.2 : ℝ)) = cs.map fun p => k * (weight p.1 * (p.2 : ℝ)) := by
    refine List.map_congr_left fun p _ => ?_
    rw [← mul_assoc]; rfl
  unfold average
  rw [e1, e2, List.sum_map_mul_left, List.sum_map_mul_left]
  simp only [mul_eq_zero, hk0, false_or]
  split_ifs with h
  · rfl
  · rw [mul_div_mul_left _ _ hk0]

/-- C114: the average does not depend on the radius of the Earth or on the spacing of the grid (or its sign). -/
theorem average_scale (rad dlon dlat rad' dlon' dlat' : ℝ) (hr : rad ≠ 0) (h1 : dlon ≠ 0) (h2 : dlat ≠ 0) (hr' : rad' ≠ 0)
    (h1' : dlon' ≠ 0) (h2' : dlat' ≠ 0) (cs : List (ℚ × ℚ)) : average rad dlon dlat cs = average rad' dlon' dlat' cs := by
  rw [average_eq _ _ _ hr h1 h2, average_eq _ _ _ hr' h1' h2']

theorem weight_nonneg (lat : ℚ) (h : |lat| ≤ 90) : 0 ≤ weight lat := by
  have hp := Real.pi_pos
  have h' : |(lat : ℝ)| ≤ 90 := by exact_mod_cast h
  obtain ⟨a, b⟩ := abs_le.1 h'
  refine Real.cos_nonneg_of_mem_Icc ⟨?_, ?_⟩ <;> nlinarith

theorem weight_pos (lat : ℚ) (h : |lat| < 90) : 0 < weight lat := by
  have hp := Real.pi_pos
  have h' : |(lat : ℝ)| < 90 := by exact_mod_cast h
  obtain ⟨a, b⟩ := abs_lt.1 h'
  refine Real.cos_pos_of_mem_Ioo ⟨?_, ?_⟩ <;> nlinarith

theorem weight_sum (cs : List (ℚ × ℚ)) (h : ∀ p ∈ cs, |p.1| ≤ 90) (hs : ∃ p ∈ cs, |p.1| < 90) :
    0 < (cs.map fun p => weight p.1).sum := by
  obtain ⟨p, hp, hl⟩ := hs
  refine lt_of_lt_of_le (weight_pos _ hl) ?_
  refine List.single_le_sum ?_ _ (List.mem_map.2 ⟨p, hp, rfl⟩)
  intro x hx
  obtain ⟨q, hq, rfl⟩ := List.mem_map.1 hx
  exact weight_nonneg _ (h q hq)

/-- C114: with latitudes between the poles, not all at the poles, there is an average, and it lies between the smallest and the
largest of the values that are not missing. -/
theorem average_between (rad dlon dlat : ℝ) (hr : rad ≠ 0) (h1 : dlon ≠ 0) (h2 : dlat ≠ 0) (cs : List (ℚ × ℚ))
    (h : ∀ p ∈ cs, |p.1| ≤ 90) (hs : ∃ p ∈ cs, |p.1| < 90) (a b : ℝ) (hab : ∀ p ∈ cs, a ≤ (p.2 : ℝ) ∧ (p.2 : ℝ) ≤ b) :
    ∃ m, average rad dlon dlat cs = some m ∧ a ≤ m ∧ m ≤ b := by
  have hpos := weight_sum cs h hs
  rw [average_eq _ _ _ hr h1 h2, if_neg hpos.ne']
  refine ⟨_, rfl, ?_, ?_⟩
  · rw [le_div_iff₀ hpos, mul_comm, ← List.sum_map_mul_right]
    refine List.sum_le_sum fun p hp => ?_
    exact mul_le_mul_of_nonneg_left (hab p hp).1 (weight_nonneg _ (h p hp))
  · rw [div_le_iff₀ hpos, mul_comm b, ← List.sum_map_mul_right]
    refine List.sum_le_sum fun p hp => ?_
    exact mul_le_mul_of_nonneg_left (hab p hp).2 (weight_nonneg _ (h p hp))

/-- C114: the average of a constant field is its value. -/
theorem average_constant (rad dlon dlat : ℝ) (hr : rad ≠ 0) (h1 : dlon ≠ 0) (h2 : dlat ≠ 0) (cs : List (ℚ × ℚ))
    (h : ∀ p ∈ cs, |p.1| ≤ 90) (hs : ∃ p ∈ cs, |p.1| < 90) (v : ℚ) (hv : ∀ p ∈ cs, p.2 = v) :
    average rad dlon dlat cs = some (v : ℝ) := by
  obtain ⟨m, hm, ha, hb⟩ := average_between rad dlon dlat hr h1 h2 cs h hs v v (fun p hp => by rw [hv p hp]; exact ⟨le_rfl, le_rfl⟩)
  rw [hm, le_antisymm hb ha]

/-- C114: the cells that are averaged are those that are not masked, each with the latitude of its row. -/
theorem valid_mem (o : Sp ℚ) (p : ℚ × Val ℚ) : p ∈ valid o ↔ ∃ i j, i < o.shape 0 ∧ j < o.shape 1 ∧ o.mask (cell i j) = false ∧
    p = (o.lat.getD i 0, o.data (cell i j)) := by
  unfold valid
  simp only [List.mem_filterMap, List.mem_flatMap, List.mem_range, List.mem_map]
  constructor
  · rintro ⟨⟨a, b⟩, ⟨i, hi, j, hj, he⟩, h⟩
    obtain ⟨rfl, rfl⟩ := Prod.mk.inj he
    by_cases hm : o.mask (cell i j) = true
    · simp [hm] at h
    · simp only [hm] at h
      exact ⟨i, j, hi, hj, by simpa using hm, (Option.some.inj h).symm⟩
  · rintro ⟨i, j, hi, hj, hm, rfl⟩
    exact ⟨(i, j), ⟨i, hi, j, hj, rfl⟩, by simp [hm]⟩

/-- C114: each valid cell is averaged once: the number of cells is that of the valid ones. -/
theorem valid_length (o : Sp ℚ) : (valid o).length =
    ((List.range (o.shape 0)).map fun i : ℕ => (List.range (o.shape 1)).countP fun j : ℕ => !o.mask (cell i j)).sum := by
  unfold valid
  induction List.range (o.shape 0) with
  | nil => rfl
  | cons i l ih =>
    rw [List.flatMap_cons, List.filterMap_append, List.length_append, ih, List.map_cons, List.sum_cons]
    congr 1
    induction List.range (o.shape 1) with
    | nil => rfl
    | cons j l ih =>
      rw [List.map_cons, List.filterMap_cons, List.countP_cons]
      by_cases hm : o.mask (cell i j) = true
      · simp only [hm, if_true, Bool.not_true, Bool.false_eq_true, if_false, add_zero]
        exact ih
      · have hm' : o.mask (cell i j) = false := by simpa using hm
        simp only [hm', Bool.false_eq_true, if_false, Bool.not_false, if_true, List.length_cons]
        rw [← ih]

/-- C114: a map without valid cells has no average. -/
theorem average_empty (rad dlon dlat : ℝ) : average rad dlon dlat [] = none := by simp [average]

example : (valid exSmall) = [(45, some 10), (-45, some 1), (-45, some 11)] := by decide +kernel
example : ∃ m, average 6371000 1 (-1) [(45, 10), (-45, 1), (-45, 11)] = some m ∧ (1 : ℝ) ≤ m ∧ m ≤ 11 :=
  average_between _ _ _ (by norm_num) (by norm_num) (by norm_num) _ (by norm_num) ⟨(45, 10), by simp, by norm_num⟩ _ _ (by norm_num)

/-! ## Levels -/

theorem arange_ok (a b s : ℚ) (hs : s ≠ 0) :
    arange a b s = .ok ((List.range ⌈(b + s - a) / s⌉.toNat).map fun k : ℕ => a + s * (k : ℚ)) := by
  unfold arange; rw [if_neg hs]

/-- C114: the levels of a range with a positive step: every `a + k·s` (for `k = 0, 1, …`) that is below `b + s`, in increasing order
and once; so they start at `a`, are `s` apart, and the last one is at or above `b`, by less than a step. -/
theorem arange_spec (a b s : ℚ) (hs : 0 < s) (hab : a ≤ b) :
    ∃ n : ℕ, arange a b s = .ok ((List.range (n + 1)).map fun k : ℕ => a + s * (k : ℚ)) ∧
      b ≤ a + s * (n : ℚ) ∧ a + s * (n : ℚ) < b + s := by
  rw [arange_ok a b s hs.ne']
  have h1 : 1 ≤ (b + s - a) / s := by rw [le_div_iff₀ hs]; linarith
  have hc : 1 ≤ ⌈(b + s - a) / s⌉ := by
    have := Int.ceil_mono h1; simpa using this
  obtain ⟨n, hn⟩ : ∃ n : ℕ, ⌈(b + s - a) / s⌉ = (n : ℤ) + 1 := ⟨(⌈(b + s - a) / s⌉ - 1).toNat, by omega⟩
  refine ⟨n, by rw [hn]; rfl, ?_, ?_⟩
  · have := Int.le_ceil ((b + s - a) / s)
    rw [hn, div_le_iff₀ hs] at this
    push_cast at this; nlinarith
  · have := Int.ceil_lt_add_one ((b + s - a) / s)
    rw [hn] at this
    push_cast at this
    have h3 : (n : ℚ) < (b + s - a) / s := by linarith
    rw [lt_div_iff₀ hs] at h3; nlinarith

/-- C114: the upper end of the range is a level exactly if the range is a whole number of steps; otherwise the last level is above
the range. -/
theorem arange_end (a b s : ℚ) (hs : 0 < s) (hab : a ≤ b) (l : List ℚ) (h : arange a b s = .ok l) :
    (b ∈ l ↔ ∃ k : ℕ, b = a + s * (k : ℚ)) ∧ ((¬ ∃ k : ℕ, b = a + s * (k : ℚ)) → ∃ x ∈ l, b < x) := by
  obtain ⟨n, hn, h1, h2⟩ := arange_spec a b s hs hab
  rw [hn] at h; obtain rfl := Except.ok.inj h
  refine ⟨⟨fun hb => ?_, fun ⟨k, hk⟩ => ?_⟩, fun hno => ⟨a + s * (n : ℚ), List.mem_map.2 ⟨n, by simp, rfl⟩, ?_⟩⟩
  · obtain ⟨k, -, rfl⟩ := List.mem_map.1 hb; exact ⟨k, rfl⟩
  · refine List.mem_map.2 ⟨k, List.mem_range.2 ?_, hk.symm⟩
    by_contra hlt
    have : (n : ℚ) + 1 ≤ k := by exact_mod_cast not_lt.1 hlt
    nlinarith
  · exact lt_of_le_of_ne h1 fun e => hno ⟨n, e⟩

/-- C114: which levels the colour bar has: those of the list if one is given, otherwise those of the range; a step of zero is a
`ZeroDivisionError` and without both there is a `TypeError`. -/
theorem levels_spec (range : Option (ℚ × ℚ × ℚ)) (l : List ℚ) :
    levels range (some l) = .ok l ∧ (∀ r, levels (some r) none = arange r.1 r.2.1 r.2.2) ∧
    levels none none = .error .type ∧ (∀ a b, levels (some (a, b, 0)) none = .error .zeroDivision) :=
  ⟨rfl, fun _ => rfl, rfl, fun a b => by simp [levels, arange]⟩

/-- C114: the contours: every level of the range other than zero is drawn in grey, zero is drawn in red, always and once, also if it
is not in the range; there are no others. -/
theorem contours_spec (r : ℚ × ℚ × ℚ) (l : List ℚ) (c : List (ℚ × String)) (hl : arange r.1 r.2.1 r.2.2 = .ok l)
    (hc : contours r = .ok c) (x : ℚ) (col : String) :
    ((x, col) ∈ c ↔ (x = 0 ∧ col = "red") ∨ (x ≠ 0 ∧ x ∈ l ∧ col = "0.2")) ∧
    (c.map Prod.fst).count 0 = 1 ∧ (x ≠ 0 → (c.map Prod.fst).count x = l.count x) := by
  unfold contours at hc
  rw [hl] at hc
  obtain rfl := Except.ok.inj hc
  refine ⟨?_, ?_, fun hx => ?_⟩
  · simp only [List.mem_append, List.mem_map, reduced, List.mem_filter, decide_eq_true_eq, Prod.mk.injEq, List.mem_singleton]
    constructor
    · rintro (⟨y, ⟨h1, h2⟩, rfl, rfl⟩ | ⟨rfl, rfl⟩)
      · exact Or.inr ⟨h2, h1, rfl⟩
      · exact Or.inl ⟨rfl, rfl⟩
    · rintro (⟨rfl, rfl⟩ | ⟨h1, h2, rfl⟩)
      · exact Or.inr ⟨rfl, rfl⟩
      · exact Or.inl ⟨x, ⟨h2, h1⟩, rfl, rfl⟩
  · rw [List.map_append, List.map_map, List.count_append]
    have : (reduced l).map (Prod.fst ∘ fun x => (x, "0.2")) = reduced l := by simp [Function.comp_def]
    rw [this, List.count_eq_zero_of_not_mem (by simp [reduced])]; rfl
  · rw [List.map_append, List.map_map, List.count_append]
    have : (reduced l).map (Prod.fst ∘ fun x => (x, "0.2")) = reduced l := by simp [Function.comp_def]
    rw [this, reduced, List.count_filter (by simpa using hx)]
    simp [Ne.symm hx]

example : (arange (-2) 2 1).toOption = some [-2, -1, 0, 1, 2] ∧ (arange 0 1 (2 / 5)).toOption = some [0, 2 / 5, 4 / 5, 6 / 5] ∧
    (contours (-1, 1, 1)).toOption = some [(-1, "0.2"), (1, "0.2"), (0, "red")] ∧
    (contours (1, 2, 1)).toOption = some [(1, "0.2"), (2, "0.2"), (0, "red")] := by decide +kernel

/-! ## Spacing and dimensions -/

/-- C114: one spacing serves for both directions, of several the first two are longitude and latitude. -/
theorem spacing_spec (d a b : ℚ) (l : List ℚ) : spacing [d] = .ok (d, d) ∧ spacing (a :: b :: l) = .ok (a, b) ∧
    spacing [] = .error .index := ⟨rfl, rfl, rfl⟩

/-- C114: for a spacing that divides the circle and the half circle the dimensions are the numbers of points: with the end points
(interval 1) or of the centres of the cells (interval 2). -/
theorem dims_spec (m n : ℕ) (hm : 0 < m) (hn : 0 < n) :
    dims 1 (360 / (m : ℚ)) (180 / (n : ℚ)) = .ok (some ((m : ℤ) + 1, (n : ℤ) + 1)) ∧
    dims 2 (360 / (m : ℚ)) (180 / (n : ℚ)) = .ok (some ((m : ℤ), (n : ℤ))) := by
  have hm' : (m : ℚ) ≠ 0 := by positivity
  have hn' : (n : ℚ) ≠ 0 := by positivity
  have e1 : (360 : ℚ) / (360 / m) = m := by field_simp
  have e2 : (180 : ℚ) / (180 / n) = n := by field_simp
  have z : ¬ ((360 : ℚ) / m = 0 ∨ (180 : ℚ) / n = 0) := by
    rw [div_eq_zero_iff, div_eq_zero_iff]; simp [hm', hn']
  have t : ∀ k : ℕ, trunc ((k : ℚ)) = (k : ℤ) := fun k => by unfold trunc; rw [if_pos (by positivity)]; simp
  have t1 : ∀ k : ℕ, trunc ((k : ℚ) + 1) = (k : ℤ) + 1 := fun k => by exact_mod_cast t (k + 1)
  refine ⟨?_, ?_⟩
  · unfold dims; rw [if_pos rfl, if_neg z, e1, e2, t1, t1]
  · unfold dims; rw [if_neg (by norm_num), if_pos rfl, if_neg z, e1, e2, t, t]

/-- C114 (negative): a negative spacing in latitude, with which the rows are reversed, gives a negative number of rows: with interval 1
and `n` steps in latitude it is `1 − n` and not `n + 1` (so a text file cannot be read into an array). -/
theorem dims_negative (m n : ℕ) (hm : 0 < m) (hn : 1 < n) :
    dims 1 (360 / (m : ℚ)) (-(180 / (n : ℚ))) = .ok (some ((m : ℤ) + 1, 1 - (n : ℤ))) := by
  have hm' : (m : ℚ) ≠ 0 := by positivity
  have hn' : (n : ℚ) ≠ 0 := by positivity
  have e1 : (360 : ℚ) / (360 / m) = m := by field_simp
  have e2 : (180 : ℚ) / (-(180 / n)) = -n := by rw [div_neg]; field_simp
  have z : ¬ ((360 : ℚ) / m = 0 ∨ -((180 : ℚ) / n) = 0) := by
    rw [neg_eq_zero, div_eq_zero_iff, div_eq_zero_iff]; simp [hm', hn']
  have t1 : trunc ((m : ℚ) + 1) = (m : ℤ) + 1 := by
    unfold trunc; rw [if_pos (by positivity)]
    rw [show (m : ℚ) + 1 = ((m + 1 : ℤ) : ℚ) by push_cast; rfl, Int.floor_intCast]
  have t2 : trunc (-(n : ℚ) + 1) = 1 - (n : ℤ) := by
    have : (1 : ℚ) < n := by exact_mod_cast hn
    unfold trunc; rw [if_neg (by linarith)]
    rw [show -(n : ℚ) + 1 = ((1 - n : ℤ) : ℚ) by push_cast; ring, Int.ceil_intCast]
  unfold dims; rw [if_pos rfl, if_neg z, e1, e2, t1, t2]

/-- C114: other intervals leave the dimensions without a value; a spacing of zero is a `ZeroDivisionError`. -/
theorem dims_other (i : ℤ) (a b : ℚ) (h1 : i ≠ 1) (h2 : i ≠ 2) : dims i a b = .ok none ∧
    dims 1 0 b = .error .zeroDivision ∧ dims 2 a 0 = .error .zeroDivision := by
  refine ⟨by simp [dims, h1, h2], by simp [dims], by simp [dims]⟩

/-- C114: the interpolations that exist; for any other name the image raises an `UnboundLocalError` (if the columns can be moved). -/
theorem order_spec (s : String) : order s = none ↔ s ≠ "nearest" ∧ s ≠ "bilinear" ∧ s ≠ "cubic" := by
  unfold order; split_ifs <;> simp_all

theorem image_unknown (interval : ℤ) (s : String) (dlon : ℚ) (o : Sp ℚ) (x y : ℚ)
    (hs : s ≠ "nearest" ∧ s ≠ "bilinear" ∧ s ≠ "cubic") (hb : beyond o.lon = false) :
    image interval s dlon o x y = .error .unbound := by
  have : ∀ {A : Type} (d : List (List A)), shifted interval dlon o.lon d = .ok (d, o.lon) := by
    intro A d; unfold shifted; simp [hb]
  unfold image
  rw [this, this]
  simp only [(order_spec s).2 hs]

end Verif.PlotGrid
