import Verif.Raster.Model
import Verif.Maps.Props

/-!
# C105: monthly fields on a projected grid (`grace_raster_grids`)

The specification of the fields is that of the monthly maps (`Verif.Maps.signal`, `Verif.Maps.series`).
-/
namespace Verif.Raster
open Verif.Harmonics Verif.Maps Verif.Synthesis Verif.Legendre

/-! ## Fields -/

/-- the Clenshaw sum of a field with degrees from `LMIN` -/
theorem synth_series (LMIN LMAX : ℕ) (f : ℕ → ℝ) (C S C' S' : ℕ → ℕ → ℝ) (t u phi : ℝ)
    (h : ∀ l m, l ≤ LMAX → m ≤ l → C l m = (if LMIN ≤ l then C' l m else 0) ∧ S l m = (if LMIN ≤ l then S' l m else 0)) :
    synth LMAX f C S t u phi = series LMIN LMAX LMAX f C' S' t u phi := by
  unfold synth series
  have hsub : Finset.Icc LMIN LMAX ⊆ Finset.range (LMAX + 1) := by
    intro l hl
    have := Finset.mem_Icc.1 hl
    exact Finset.mem_range.2 (by omega)
  rw [← Finset.sum_subset hsub]
  · apply Finset.sum_congr rfl
    intro l hl
    have hl := Finset.mem_Icc.1 hl
    rw [Nat.min_eq_left hl.2]
    apply Finset.sum_congr rfl
    intro m hm
    have hm := Finset.mem_range.1 hm
    obtain ⟨h1, h2⟩ := h l m hl.2 (by omega)
    rw [h1, h2, if_pos hl.1, if_pos hl.1]
  · intro l hl hn
    have hl := Finset.mem_range.1 hl
    have hlt : ¬ LMIN ≤ l := fun hh => hn (Finset.mem_Icc.2 ⟨hh, by omega⟩)
    apply Finset.sum_eq_zero
    intro m hm
    have hm := Finset.mem_range.1 hm
    obtain ⟨h1, h2⟩ := h l m (by omega) (by omega)
    rw [h1, h2, if_neg hlt, if_neg hlt]
    ring

/-- one month -/
theorem monthField_value (scale cutoff : ℝ) (hs : scale ≠ 0) (o : Opts) (hL : 1 ≤ o.LMAX) (hM : o.order = o.LMAX)
    (d w : ℕ → ℝ) (hw : weights cutoff o.RAD o.LMAX = some w)
    (a r rate : Harm ℝ) (n : ℕ) (time : List ℚ) (month : List ℤ) (v x : Bool → ℕ → ℕ → ℕ → ℝ)
    (ha : a.nt = some n) (hr : r.nt = some n) (ht : time.length = n) (hmo : month.length = n)
    (A : Holds a o.LMAX o.order n time month v) (R : Holds r o.LMAX o.order n time month x)
    (i : ℕ) (hi : i < n) :
    monthField scale cutoff o d a (giaSeries rate a) r i =
      .ok (fun p => series o.LMIN o.LMAX o.LMAX (fun l => d l * w l)
            (fun l m => v false i l m - coef false rate 0 l m * (((time.getD i 0 : ℚ) : ℝ) - 2003.3) - x false i l m)
            (fun l m => v true i l m - coef true rate 0 l m * (((time.getD i 0 : ℚ) : ℝ) - 2003.3) - x true i l m)
            (Real.cos ((90 - p.2) * Real.pi / 180)) (Real.sin ((90 - p.2) * Real.pi / 180)) (p.1 * Real.pi / 180),
        [time.getD i 0]) := by
  have wa : a.WF := ⟨by rw [A.time, ha]; exact ht, by rw [A.month, ha]; exact hmo⟩
  have wr : r.WF := ⟨by rw [R.time, hr]; exact ht, by rw [R.month, hr]; exact hmo⟩
  have hg : (giaSeries rate a).nt = some n := by
    show some a.time.length = _
    rw [A.time, ht]
  have wg : (giaSeries rate a).WF := by
    refine ⟨?_, ?_⟩
    · show a.time.length = _
      rw [hg, A.time]; exact ht
    · show a.month.length = _
      rw [hg, A.month]; exact hmo
  have gv : ∀ b l m, val b (giaSeries rate a) i l m = val b rate 0 l m * (((time.getD i 0 : ℚ) : ℝ) - 2003.3) := by
    intro b l m
    cases b
    · simp only [val, Bool.false_eq_true, if_false, giaSeries, drift, A.time]
      push_cast; norm_num
    · simp only [val, if_true, giaSeries, drift, A.time]
      push_cast; norm_num
  unfold monthField
  rw [index_ok a n i ha wa hi, index_ok _ n i hg wg hi, index_ok r n i hr wr hi]
  simp only
  have wf1 : ∀ h : Harm ℝ, (dateField h i).WF := fun h => ⟨rfl, rfl⟩
  obtain ⟨y, y1, y2, y3, y4, y5, y6, y7⟩ := windowed_val (· - ·) (by simp) (dateField a i) (dateField (giaSeries rate a) i)
    ⟨wf1 a, Or.inl rfl⟩
  rw [show subtract (dateField a i) (dateField (giaSeries rate a) i) = _ from y1]
  simp only
  have yn : y.nt = none := y4
  have wy : y.WF := ⟨by rw [y5, y4]; exact (wf1 a).1, by rw [y6, y4]; exact (wf1 a).2⟩
  obtain ⟨z, z1, z2, z3, z4, z5, z6, z7⟩ := windowed_val (· - ·) (by simp) y (dateField r i) ⟨wy, Or.inl yn.symm⟩
  rw [show subtract y (dateField r i) = _ from z1]
  simp only
  have zn : z.nt = none := z4.trans yn
  have zl : z.lmax = o.LMAX := z2.trans (y2.trans A.lmax)
  have zm : z.mmax = o.order := z3.trans (y3.trans A.mmax)
  have zval : ∀ b l m, m ≤ l → l ≤ o.LMAX → m ≤ o.order → val b z 0 l m =
      v b i l m - coef b rate 0 l m * (((time.getD i 0 : ℚ) : ℝ) - 2003.3) - x b i l m := by
    intro b l m hml hl hm
    have ay : y.lmax = o.LMAX := y2.trans A.lmax
    have ay' : y.mmax = o.order := y3.trans A.mmax
    have al : (dateField a i).lmax = o.LMAX := A.lmax
    have al' : (dateField a i).mmax = o.order := A.mmax
    rw [z7 b l m 0 (by rw [yn]; simp) (by omega) (by omega),
      y7 b l m 0 (by show 0 < 1; omega) (by omega) (by omega)]
    rw [dateField_val, A.vals b i l m hi hml hl hm, coef_val, coef_val, dateField_val, dateField_val, gv, coef_val,
      R.vals b i l m hi hml hl hm]
    rw [if_pos (show l ≤ (dateField r i).lmax ∧ m ≤ (dateField r i).mmax from ⟨by rw [show (dateField r i).lmax = _ from R.lmax]; exact hl,
      by rw [show (dateField r i).mmax = _ from R.mmax]; exact hm⟩)]
    show _ - (if l ≤ rate.lmax ∧ m ≤ rate.mmax then _ else 0) - _ = _
    by_cases hw : l ≤ rate.lmax ∧ m ≤ rate.mmax
    · rw [if_pos hw, if_pos hw]
    · rw [if_neg hw, if_neg hw, zero_mul]
  obtain ⟨t1, t2, t3, t4, t5, t6⟩ := truncate_spec z o.LMAX o.LMIN o.order (by omega)
  unfold fieldAt
  rw [hw]
  simp only
  rw [if_neg (by rw [t1, t2]; omega)]
  simp only
  congr 2
  · funext p
    rw [clenshaw_correct scale hs _ _ _ o.LMAX hL]
    apply synth_series
    intro l m hl hm
    obtain ⟨q1, q2⟩ := t6 l m 0
    rw [q1, q2, zl, zm]
    have e1 := zval false l m hm hl (by omega)
    have e2 := zval true l m hm hl (by omega)
    simp only [val, Bool.false_eq_true, if_false, if_true] at e1 e2
    have hmo' : m ≤ o.order := by omega
    by_cases h0 : o.LMIN ≤ l
    · simp only [h0, hl, hmo', and_self, if_true]
      exact ⟨e1, e2⟩
    · simp only [h0, false_and, if_false, and_self]
  · rw [z5, y5]
    simp only [dateField, A.time]

/-- Specification: the land function of a point, smoothed with the weights `w` -/
noncomputable def landAt (LMAX : ℕ) (dland w : ℕ → ℝ) (land : Harm ℝ) (p : ℝ × ℝ) : ℝ :=
  series 0 LMAX LMAX (fun l => dland l * w l) (fun l m => land.clm l m 0) (fun l m => land.slm l m 0)
    (Real.cos ((90 - p.2) * Real.pi / 180)) (Real.sin ((90 - p.2) * Real.pi / 180)) (p.1 * Real.pi / 180)

open scoped Classical in
/-- **The raster** has the coordinates of the cells, one date per month, and in every cell and month the spherical harmonic series
of the anomaly minus GIA minus removed fields at the position of the cell, if the land function smoothed with twice the radius
is above 0.025 there, and the fill value otherwise.  At every point, the poles included. -/
theorem raster_value (scale cutoff : ℝ) (hs : scale ≠ 0) (o : Opts) (hL : 1 ≤ o.LMAX) (hM : o.order = o.LMAX)
    (grace : Harm ℝ) (n : ℕ) (D : Data o grace n) (meanFile : Option (Harm ℝ)) (hmf : ∀ f, meanFile = some f → f.nt = none)
    (gia : Harm ℝ) (removed : List (Harm ℝ)) (C : ∀ h ∈ removed, Covers grace h)
    (ho : ∀ oc, o.ocean = some oc → 2 ≤ n ∧ oc.lmax = o.LMAX ∧ oc.mmax = o.order)
    (land : Harm ℝ) (hl1 : land.lmax = o.LMAX) (hl2 : land.mmax = o.order)
    (dland dfactor wt wt2 : ℕ → ℝ) (hw : weights cutoff o.RAD o.LMAX = some wt) (hw2 : weights cutoff (2 * o.RAD) o.LMAX = some wt2)
    (spacing bounds xs ys : List ℚ) (hc : cells spacing bounds = some (xs, ys)) (pos : ℚ → ℚ → ℝ × ℝ) :
    raster scale cutoff o grace meanFile gia (removed.map .index) land dland dfactor spacing bounds pos = .ok
      { x := xs, y := ys, time := (List.range n).map fun i => [grace.time.getD i 0]
        z := ys.map fun y => xs.map fun x => (List.range n).map fun i =>
          if landAt o.LMAX dland wt2 land (pos x y) > 0.025 then
            series o.LMIN o.LMAX o.LMAX (fun l => dfactor l * wt l)
              (signal false o grace n meanFile gia removed i) (signal true o grace n meanFile gia removed i)
              (Real.cos ((90 - (pos x y).2) * Real.pi / 180)) (Real.sin ((90 - (pos x y).2) * Real.pi / 180))
              ((pos x y).1 * Real.pi / 180)
          else -9999 } := by
  have ht : grace.time.length = n := by rw [D.wf.1, D.nt]; rfl
  have hmo : grace.month.length = n := by rw [D.wf.2, D.nt]; rfl
  obtain ⟨a, a1, a2, A⟩ := anomaly_holds o grace n D meanFile hmf
  obtain ⟨f, f1, f2, F⟩ := filtered_holds o (by omega) a n _ _ _ A
  have hz : Holds (zerosLike f) o.LMAX o.order n grace.time grace.month (fun _ _ _ _ => 0) :=
    ⟨F.lmax, F.mmax, F.nt, F.time, F.month, fun b t l m _ _ _ _ => by cases b <;> rfl⟩
  obtain ⟨r, r1, r2, R⟩ := removedSum_holds o (by omega) grace f n D F.month ho removed C (zerosLike f) _ (f2.trans a2) hz
  have key := mapM_ok (monthField scale cutoff o dfactor f (giaSeries gia f) r) _ (List.range n)
    fun i hi => monthField_value scale cutoff hs o hL hM dfactor wt hw f r gia n grace.time grace.month _ _ (f2.trans a2) r2 ht hmo F R
      i (List.mem_range.1 hi)
  have hland : fieldAt scale cutoff (2 * o.RAD) o.LMAX dland land = .ok (landAt o.LMAX dland wt2 land) := by
    unfold fieldAt
    rw [hw2]
    simp only
    rw [if_neg (by omega)]
    congr 1
    funext p
    rw [clenshaw_correct scale hs _ _ _ o.LMAX hL]
    exact synth_series 0 _ _ _ _ _ _ _ _ _ fun l m _ _ => ⟨by rw [if_pos (Nat.zero_le _)], by rw [if_pos (Nat.zero_le _)]⟩
  unfold raster
  rw [a1]
  simp only
  rw [f1]
  simp only
  rw [r1]
  simp only
  rw [hc]
  simp only
  rw [hland]
  simp only
  rw [F.month, hmo, key]
  simp only [rasterize, List.map_map, threshold, fillValue, zero_add]
  rfl

/-- **A smaller maximum order cannot be used**: with `MMAX < LMAX` there is no raster. -/
theorem raster_order_fails (scale cutoff : ℝ) (o : Opts) (grace : Harm ℝ) (meanFile : Option (Harm ℝ))
    (gia : Harm ℝ) (sources : List Source) (land : Harm ℝ) (hl : land.mmax = o.order) (hM : o.order < o.LMAX)
    (dland dfactor : ℕ → ℝ) (spacing bounds : List ℚ) (pos : ℚ → ℚ → ℝ × ℝ) (g : Grid) :
    raster scale cutoff o grace meanFile gia sources land dland dfactor spacing bounds pos ≠ .ok g := by
  have hland : fieldAt scale cutoff (2 * o.RAD) o.LMAX dland land = .error .indexError := by
    unfold fieldAt
    cases weights cutoff (2 * o.RAD) o.LMAX with
    | none => rfl
    | some w => simp only; rw [if_pos (Or.inr (by omega))]
  intro h
  unfold raster at h
  rw [hland] at h
  revert h
  cases anomaly grace meanFile with
  | error e => simp
  | ok a =>
    simp only
    cases filtered o a with
    | error e => simp
    | ok f =>
      simp only
      cases removedSum o f (zerosLike f) sources with
      | error e => simp
      | ok r =>
        simp only
        cases cells spacing bounds with
        | none => simp
        | some c => simp

/-- **The raster agrees with the monthly maps**: where a cell on land has the position of a point of the grid of
`grace_spatial_maps` between the poles, both programs give the same value for the same options. -/
theorem raster_agrees (scale eps scalef cutoff : ℝ) (hs : scale ≠ 0) (hsc : scalef ≠ 0) (o : Opts) (hL : 2 ≤ o.LMAX)
    (hM : o.order = o.LMAX) (grace : Harm ℝ) (n : ℕ) (D : Data o grace n) (meanFile : Option (Harm ℝ))
    (hmf : ∀ f, meanFile = some f → f.nt = none)
    (gia : Harm ℝ) (removed : List (Harm ℝ)) (C : ∀ h ∈ removed, Covers grace h)
    (ho : ∀ oc, o.ocean = some oc → 2 ≤ n ∧ oc.lmax = o.LMAX ∧ oc.mmax = o.order)
    (land : Harm ℝ) (hl1 : land.lmax = o.LMAX) (hl2 : land.mmax = o.order)
    (dland dfactor wt wt2 : ℕ → ℝ) (hw : weights cutoff o.RAD o.LMAX = some wt) (hw2 : weights cutoff (2 * o.RAD) o.LMAX = some wt2)
    (spacing bounds xs ys : List ℚ) (hc : cells spacing bounds = some (xs, ys)) (pos : ℚ → ℚ → ℝ × ℝ) (lons lats : List ℚ)
    (G : Grid) (maps : List Map)
    (hG : raster scale cutoff o grace meanFile gia (removed.map .index) land dland dfactor spacing bounds pos = .ok G)
    (hmaps : spatialMaps eps scalef cutoff o grace meanFile gia (removed.map .index) dfactor lons lats = .ok maps)
    (a b j k i : ℕ) (x y lon lat : ℚ) (hi : i < n) (ha : xs[a]? = some x) (hb : ys[b]? = some y) (hj : lats[j]? = some lat)
    (hk : lons[k]? = some lon) (hp : pos x y = ((lon : ℝ), (lat : ℝ))) (h1 : -90 < lat) (h2 : lat < 90)
    (hland : landAt o.LMAX dland wt2 land ((lon : ℝ), (lat : ℝ)) > 0.025) :
    ∃ v M row, G.z[b]?.bind (·[a]?) = some v ∧ maps[i]? = some M ∧ M.data[j]? = some row ∧ v[i]? = row[k]? ∧ (v[i]?).isSome := by
  have e := raster_value scale cutoff hs o (by omega) hM grace n D meanFile hmf gia removed C ho land hl1 hl2 dland dfactor wt wt2 hw
    hw2 spacing bounds xs ys hc pos
  rw [hG] at e
  obtain rfl := Except.ok.inj e
  obtain ⟨maps', m1, m2, m3⟩ := spatialMaps_value eps scalef cutoff hsc o hL (by omega) grace n D meanFile hmf gia removed C ho dfactor wt
    hw lons lats
  rw [hmaps] at m1
  obtain rfl := Except.ok.inj m1
  obtain ⟨M, p1, p2, p3, p4, p5⟩ := m3 i hi
  obtain ⟨row, q1, q2, q3⟩ := p5 j lat hj
  refine ⟨_, M, row, by simp only [List.getElem?_map, hb, Option.map_some, Option.bind_some, ha]; rfl, p1, q1, ?_, ?_⟩
  · rw [q3 k lon hk, List.getElem?_map, List.getElem?_range hi, Option.map_some, hp, if_pos hland,
      series_interior eps (lat : ℝ) (by exact_mod_cast h1) (by exact_mod_cast h2), hM]
  · rw [List.getElem?_map, List.getElem?_range hi]; rfl

/-! ## Cells -/

/-- `np.arange` from a cell centre to one step beyond the last boundary -/
theorem arange_cells (a d : ℚ) (hd : 0 < d) (s : ℚ) (h0 : 0 < s) (h1 : s ≤ 1) (p : ℕ) :
    arange a (a + p * d + s * d) d = (List.range (p + 1)).map fun i : ℕ => a + i * d := by
  unfold arange
  have e : (a + p * d + s * d - a) / d = (p : ℚ) + s := by field_simp; ring
  have hceil : ⌈(p : ℚ) + s⌉ = (p : ℤ) + 1 := by
    rw [Int.ceil_eq_iff]
    push_cast
    constructor <;> linarith
  rw [e, hceil]
  congr 2

/-- **The cells**: with one spacing that divides the bounds into `p` columns and `q` rows, the cell centres are those of these cells
(deviation:) and of one more column and one more row, outside of the bounds. -/
theorem cells_square (d xmin ymin : ℚ) (hd : 0 < d) (p q : ℕ) :
    cells [d] [xmin, xmin + p * d, ymin, ymin + q * d] = some
      ((List.range (p + 1)).map (fun i : ℕ => xmin + (i + 1 / 2) * d), (List.range (q + 1)).map (fun i : ℕ => ymin + (i + 1 / 2) * d)) := by
  unfold cells
  simp only
  have key : ∀ (a : ℚ) (p : ℕ), arange (a + d / 2) (a + p * d + d) d = (List.range (p + 1)).map fun i : ℕ => a + (i + 1 / 2) * d := by
    intro a p
    rw [show a + p * d + d = (a + d / 2) + p * d + (1 / 2) * d by ring, arange_cells _ d hd (1 / 2) (by norm_num) (by norm_num)]
    apply List.map_congr_left
    intro i _
    ring
  rw [key, key]

/-- **The last column and the last row lie outside the bounds.** -/
theorem cells_outside (d xmin ymin : ℚ) (hd : 0 < d) (p q : ℕ) (xs ys : List ℚ)
    (h : cells [d] [xmin, xmin + p * d, ymin, ymin + q * d] = some (xs, ys)) :
    (∃ x ∈ xs, xmin + p * d < x) ∧ (∃ y ∈ ys, ymin + q * d < y) := by
  rw [cells_square d xmin ymin hd] at h
  simp only [Option.some.injEq, Prod.mk.injEq] at h
  rw [← h.1, ← h.2]
  exact ⟨⟨_, List.mem_map.2 ⟨p, List.mem_range.2 (by omega), rfl⟩, by nlinarith⟩,
    ⟨_, List.mem_map.2 ⟨q, List.mem_range.2 (by omega), rfl⟩, by nlinarith⟩⟩

/-- **Deviation: different spacings.** With `dx ≠ dy` the rows are displaced by `(dx - dy) / 2` from the centres of the cells. -/
theorem cells_displaced (dx dy xmin xmax ymin : ℚ) (h0 : 0 < dx) (h1 : 0 < dy) (h2 : dx < 2 * dy) (q : ℕ) (xs ys : List ℚ)
    (h : cells [dx, dy] [xmin, xmax, ymin, ymin + q * dy] = some (xs, ys)) :
    ys = (List.range (q + 1)).map fun j : ℕ => ymin + (j + 1 / 2) * dy + (dx - dy) / 2 := by
  unfold cells at h
  simp only [Option.some.injEq, Prod.mk.injEq] at h
  rw [← h.2]
  rw [show ymin + q * dy + dy = (ymin + dx / 2) + q * dy + (1 - dx / (2 * dy)) * dy by field_simp; ring,
    arange_cells _ dy h1 (1 - dx / (2 * dy)) (by rw [sub_pos, div_lt_one (by positivity)]; exact h2)
      (by rw [sub_le_self_iff]; positivity)]
  apply List.map_congr_left
  intro i _
  ring

/-! ## Concrete cases -/

example : cells [1 / 2] [-1, 1, 0, 1] = some ([-3 / 4, -1 / 4, 1 / 4, 3 / 4, 5 / 4], [1 / 4, 3 / 4, 5 / 4]) := by decide +kernel
example : cells [2, 4] [0, 4, 0, 8] = some ([1, 3, 5], [1, 5, 9]) := by decide +kernel
example : cells [1, 2, 3] [0, 4, 0, 8] = none := by decide +kernel

/-- the hypotheses of `raster_value` can be met: three months, a filtered field, a series to remove -/
example : sampleOpts.order = sampleOpts.LMAX ∧ Data sampleOpts sampleGrace 3 ∧ Covers sampleGrace sampleRemoved ∧
    weights 1e-10 sampleOpts.RAD sampleOpts.LMAX = some (fun _ => 1) ∧
    weights 1e-10 (2 * sampleOpts.RAD) sampleOpts.LMAX = some (fun _ => 1) := by
  refine ⟨rfl, ⟨rfl, rfl, rfl, ⟨rfl, rfl⟩, by decide⟩, ⟨⟨4, rfl⟩, ⟨rfl, rfl⟩, by decide, by decide⟩, ?_, ?_⟩ <;>
    simp [weights, sampleOpts]

/-- a smaller order -/
example : (⟨0, 60, 30, 0, false, none⟩ : Opts).order < (⟨0, 60, 30, 0, false, none⟩ : Opts).LMAX := by decide

end Verif.Raster
