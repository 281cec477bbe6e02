import Verif.Tools.Model
import Mathlib.Tactic.Linarith
import Mathlib.Tactic.FieldSimp
import Mathlib.Tactic.Ring
import Mathlib.Data.Rat.Floor
import Mathlib.Data.List.Sort

/-!
# Longitudes, shifted grids, nearest-neighbour grids and colour tables (C43, C67, C68)
-/
namespace Verif.Tools
open Verif.Time (npRound)

/-! ## wrap_longitudes -/

/-- **C43** wrapped longitudes lie in (-180, 180] -/
theorem wrapLongitudes_range (lon : ℝ) : -180 < wrapLongitudes lon ∧ wrapLongitudes lon ≤ 180 := by
  unfold wrapLongitudes
  have h1 := Complex.neg_pi_lt_arg ⟨Real.cos (lon * Real.pi / 180), Real.sin (lon * Real.pi / 180)⟩
  have h2 := Complex.arg_le_pi ⟨Real.cos (lon * Real.pi / 180), Real.sin (lon * Real.pi / 180)⟩
  have hp := Real.pi_pos
  constructor
  · rw [lt_div_iff₀ hp]; nlinarith
  · rw [div_le_iff₀ hp]; nlinarith

/-- **C43** and differ from the input by a whole number of turns -/
theorem wrapLongitudes_congr (lon : ℝ) : ∃ k : ℤ, wrapLongitudes lon = lon + 360 * k := by
  have hp := Real.pi_ne_zero
  set θ : ℝ := lon * Real.pi / 180 with hθ
  have hz : (⟨Real.cos θ, Real.sin θ⟩ : ℂ) = Complex.cos θ + Complex.sin θ * Complex.I := by
    apply Complex.ext
    · simp [← Complex.ofReal_cos, ← Complex.ofReal_sin]
    · simp [← Complex.ofReal_cos, ← Complex.ofReal_sin]
  have harg : Complex.arg ⟨Real.cos θ, Real.sin θ⟩ = toIocMod Real.two_pi_pos (-Real.pi) θ := by
    rw [hz]; exact Complex.arg_cos_add_sin_mul_I_eq_toIocMod θ
  refine ⟨-toIocDiv Real.two_pi_pos (-Real.pi) θ, ?_⟩
  have : wrapLongitudes lon = Complex.arg ⟨Real.cos θ, Real.sin θ⟩ * 180 / Real.pi := rfl
  rw [this, harg, toIocMod, zsmul_eq_mul, hθ]
  push_cast
  field_simp
  ring

/-- **C43** a longitude already in (-180, 180] is unchanged -/
theorem wrapLongitudes_fixed (lon : ℝ) (h1 : -180 < lon) (h2 : lon ≤ 180) : wrapLongitudes lon = lon := by
  obtain ⟨k, hk⟩ := wrapLongitudes_congr lon
  obtain ⟨ha, hb⟩ := wrapLongitudes_range lon
  rw [hk] at ha hb
  have hk0 : k = 0 := by
    have h3 : (k : ℝ) < 1 := by linarith
    have h4 : (-1 : ℝ) < k := by linarith
    have h5 : k < 1 := by exact_mod_cast h3
    have h6 : -1 < k := by exact_mod_cast h4
    omega
  rw [hk, hk0]; simp

/-- **C43** wrapping twice is wrapping once, and longitudes a turn apart have the same wrapped value -/
theorem wrapLongitudes_idem (lon : ℝ) : wrapLongitudes (wrapLongitudes lon) = wrapLongitudes lon :=
  wrapLongitudes_fixed _ (wrapLongitudes_range lon).1 (wrapLongitudes_range lon).2

theorem wrapLongitudes_periodic (lon : ℝ) (k : ℤ) : wrapLongitudes (lon + 360 * k) = wrapLongitudes lon := by
  obtain ⟨a, ha⟩ := wrapLongitudes_congr (lon + 360 * k)
  obtain ⟨b, hb⟩ := wrapLongitudes_congr lon
  have h : wrapLongitudes (lon + 360 * k) = wrapLongitudes lon + 360 * ((a + k - b : ℤ) : ℝ) := by
    rw [ha, hb]; push_cast; ring
  have r1 := wrapLongitudes_range (lon + 360 * k)
  have r2 := wrapLongitudes_range lon
  have : (a + k - b : ℤ) = 0 := by
    have h3 : ((a + k - b : ℤ) : ℝ) < 1 := by linarith [r1.2, r2.1]
    have h4 : (-1 : ℝ) < ((a + k - b : ℤ) : ℝ) := by linarith [r1.1, r2.2]
    have h5 : a + k - b < 1 := by exact_mod_cast h3
    have h6 : -1 < a + k - b := by exact_mod_cast h4
    omega
  rw [h, this]; simp

example : wrapLongitudes 270 = -90 := by
  have := wrapLongitudes_periodic (-90) 1
  rw [wrapLongitudes_fixed (-90) (by norm_num) (by norm_num)] at this
  rw [← this]; norm_num

/-! ## shift_grid -/

/-- the index of the base longitude: the smallest distance, the first one on a tie -/
theorem argminAbs_spec (lon : List ℚ) (lon0 : ℚ) (hne : lon ≠ []) :
    ∃ h : argminAbs lon lon0 < lon.length,
      (∀ x ∈ lon, |lon[argminAbs lon lon0] - lon0| ≤ |x - lon0|) ∧
      ∀ j (hj : j < argminAbs lon lon0),
        |lon[argminAbs lon lon0] - lon0| < |lon[j]'(hj.trans h) - lon0| := by
  have hex : ∃ x ∈ lon, ∀ y ∈ lon, |x - lon0| ≤ |y - lon0| := by
    clear * - hne
    induction lon with
    | nil => exact absurd rfl hne
    | cons a t ih =>
      by_cases ht : t = []
      · subst ht; exact ⟨a, by simp, by simp⟩
      · obtain ⟨x, hx, hm⟩ := ih ht
        by_cases hc : |a - lon0| ≤ |x - lon0|
        · refine ⟨a, by simp, fun y hy => ?_⟩
          rcases List.mem_cons.1 hy with rfl | hy
          · exact le_refl _
          · exact hc.trans (hm y hy)
        · refine ⟨x, by simp [hx], fun y hy => ?_⟩
          rcases List.mem_cons.1 hy with rfl | hy
          · exact (not_le.1 hc).le
          · exact hm y hy
  obtain ⟨x, hx, hm⟩ := hex
  set d := lon.map fun x => |x - lon0| with hd
  have hi : argminAbs lon lon0 = d.findIdx fun x => d.all fun y => decide (x ≤ y) := rfl
  have hlt : argminAbs lon lon0 < d.length := by
    rw [hi]
    refine List.findIdx_lt_length_of_exists ⟨|x - lon0|, List.mem_map.2 ⟨x, hx, rfl⟩, ?_⟩
    simp only [List.all_eq_true, decide_eq_true_eq]
    intro y hy
    obtain ⟨z, hz, rfl⟩ := List.mem_map.1 hy
    exact hm z hz
  have hlen : d.length = lon.length := by simp [hd]
  have hat : ∀ y ∈ d, d[argminAbs lon lon0] ≤ y := by
    have := List.findIdx_getElem (p := fun x => d.all fun y => decide (x ≤ y)) (w := hi ▸ hlt)
    simp only [List.all_eq_true, decide_eq_true_eq] at this
    simpa only [hi] using this
  refine ⟨hlen ▸ hlt, fun x hx => ?_, fun j hj => ?_⟩
  · have := hat |x - lon0| (List.mem_map.2 ⟨x, hx, rfl⟩)
    simpa [hd] using this
  · have hnot := List.not_of_lt_findIdx (p := fun x => d.all fun y => decide (x ≤ y)) (xs := d) (i := j) (hi ▸ hj)
    have hjd : j < d.length := hj.trans hlt
    by_contra hcon
    rw [not_lt] at hcon
    refine absurd ?_ (Bool.eq_false_iff.1 hnot)
    simp only [List.all_eq_true, decide_eq_true_eq]
    intro y hy
    have h1 := hat y hy
    have h2 : d[j] ≤ d[argminAbs lon lon0] := by simpa [hd] using hcon
    exact h2.trans h1

/-- **C43** (a defect) when the first longitude is a nearest one to `lon0` — the call that should change
nothing or shift by one period — every call raises, whatever the data -/
theorem shiftGrid_first_raises {A : Type} (lon0 cyclic x0 : ℚ) (rest : List ℚ) (data : List (List A))
    (h : ∀ x ∈ rest, |x0 - lon0| ≤ |x - lon0|) : shiftGrid lon0 data (x0 :: rest) cyclic = none := by
  have h0 : argminAbs (x0 :: rest) lon0 = 0 := by
    by_contra hne
    obtain ⟨_, hm, hs⟩ := argminAbs_spec (x0 :: rest) lon0 (by simp)
    have h1 := hs 0 (Nat.pos_of_ne_zero hne)
    simp only [List.getElem_cons_zero] at h1
    have h2 : (x0 :: rest)[argminAbs (x0 :: rest) lon0] ∈ x0 :: rest := List.getElem_mem _
    rcases List.mem_cons.1 h2 with h3 | h3
    · rw [h3] at h1; exact lt_irrefl _ h1
    · exact absurd (h _ h3) (not_le.2 h1)
  simp only [shiftGrid, h0, twoSlices, assignSlice]
  cases rest <;> simp

example : shiftGrid (-180) [[1, 2, 3]] [-180, 0, 180] 360 = none := by decide +kernel

theorem twoSlices_eq {A : Type} (n i0 s : ℕ) (row : List A) (f : A → A) (h0 : 0 < i0) (hn : i0 < n) (hs : s ≤ 1)
    (hl : row.length = n) :
    twoSlices n i0 ((row.drop i0).map f) ((row.drop s).take i0) =
      some ((row.drop i0).map f ++ (row.drop s).take i0) := by
  have h1 : ((row.drop i0).map f).length = n - i0 := by simp [hl]
  have h2 : ((row.drop s).take i0).length = i0 := by simp [hl]; omega
  have hi : i0 ≠ 0 := by omega
  simp only [twoSlices, assignSlice, if_neg hi, h1, h2, if_true]

theorem mapM_some {A B : Type} (f : A → Option B) (g : A → B) (l : List A) (h : ∀ a ∈ l, f a = some (g a)) :
    l.mapM f = some (l.map g) := by
  induction l with
  | nil => rfl
  | cons a t ih =>
    rw [List.mapM_cons, h a (by simp), ih fun b hb => h b (by simp [hb])]
    rfl

/-- **C43** in every other case the columns and the longitudes move together: with `i` the index of the
nearest longitude, output column `k` is input column `i + k` moved one period west, and after the last
input column, input column `k - (n - i)` (plus one when the input repeats its first column a period
later) unmoved -/
theorem shiftGrid_columns {A : Type} (lon0 cyclic : ℚ) (lon : List ℚ) (data : List (List A)) (hne : lon ≠ [])
    (h : ∃ x ∈ lon, |x - lon0| < |lon.head hne - lon0|)
    (hdata : ∀ row ∈ data, row.length = lon.length) :
    ∃ (i s : ℕ) (d : List (List A)) (l : List ℚ) (hi : i < lon.length),
      shiftGrid lon0 data lon cyclic = some (d, l) ∧
      0 < i ∧ (∀ x ∈ lon, |lon[i] - lon0| ≤ |x - lon0|) ∧
      (∀ j (hj : j < i), |lon[i] - lon0| < |lon[j] - lon0|) ∧
      (s = if |lon.getLast hne - lon.head hne - cyclic| ≤ 1 / 10000 then 1 else 0) ∧
      l.length = lon.length ∧ d.length = data.length ∧
      ∀ k, k < lon.length → ∃ j, ∃ hj : j < lon.length,
        j = (if k < lon.length - i then i + k else k - (lon.length - i) + s) ∧
        l[k]? = some (lon[j] - if k < lon.length - i then cyclic else 0) ∧
        ∀ r (hr : r < data.length), ∃ row, d[r]? = some row ∧ row.length = lon.length ∧
          row[k]? = data[r][j]? := by
  obtain ⟨hlt, hm, hs⟩ := argminAbs_spec lon lon0 hne
  have hx0 : lon.headD 0 = lon.head hne := by cases lon <;> simp at hne ⊢
  have hxl : lon.getLastD 0 = lon.getLast hne := by
    rw [List.getLastD_eq_getLast?, List.getLast?_eq_getLast_of_ne_nil hne]; rfl
  generalize hi : argminAbs lon lon0 = i at hlt hm hs
  have hi0 : 0 < i := by
    rcases Nat.eq_zero_or_pos i with h0 | h0
    · exfalso
      obtain ⟨x, hx, hxl⟩ := h
      have h1 := hm x hx
      subst h0
      rw [← List.head_eq_getElem hne] at h1
      exact absurd hxl (not_lt.2 h1)
    · exact h0
  obtain ⟨s, hsdef⟩ : ∃ s, startIdx lon cyclic = s := ⟨_, rfl⟩
  have hs1 : s ≤ 1 := by rw [← hsdef]; unfold startIdx; split <;> simp
  have hlonmap : twoSlices lon.length i ((lon.drop i).map (· - cyclic)) ((lon.drop s).take i) =
      some ((lon.drop i).map (· - cyclic) ++ (lon.drop s).take i) :=
    twoSlices_eq _ _ _ _ _ hi0 hlt hs1 rfl
  have hrow : ∀ row ∈ data, twoSlices row.length i (row.drop i) ((row.drop s).take i) =
      some (row.drop i ++ (row.drop s).take i) := by
    intro row hr
    have := twoSlices_eq row.length i s row id hi0 (by rw [hdata row hr]; exact hlt) hs1 rfl
    simpa using this
  have hgl : ∀ row ∈ data, (row.drop i ++ (row.drop s).take i).length = lon.length := by
    intro row hr
    simp only [List.length_append, List.length_drop, List.length_take, hdata row hr]
    omega
  refine ⟨i, s, data.map fun row => row.drop i ++ (row.drop s).take i,
    (lon.drop i).map (· - cyclic) ++ (lon.drop s).take i, hlt, ?_, hi0, hm,
    fun j hj => hs j hj, ?_, ?_, by simp, ?_⟩
  · simp only [shiftGrid, if_neg hne, hi, hsdef, hlonmap, mapM_some _ _ data hrow]
  · rw [← hsdef]; unfold startIdx
    rw [hx0, hxl]
    split_ifs <;> first | rfl | (exfalso; linarith)
  · simp only [List.length_append, List.length_map, List.length_drop, List.length_take]
    omega
  · intro k hk
    by_cases hc : k < lon.length - i
    · refine ⟨i + k, by omega, by rw [if_pos hc], ?_, ?_⟩
      · rw [if_pos hc, List.getElem?_append_left (by simpa using hc), List.getElem?_map, List.getElem?_drop,
          List.getElem?_eq_getElem (by omega)]
        rfl
      · intro r hr
        have hrl := hdata _ (List.getElem_mem hr)
        refine ⟨_, by rw [List.getElem?_map, List.getElem?_eq_getElem hr]; rfl, hgl _ (List.getElem_mem hr), ?_⟩
        rw [List.getElem?_append_left (by rw [List.length_drop, hrl]; exact hc), List.getElem?_drop]
    · refine ⟨k - (lon.length - i) + s, by omega, by rw [if_neg hc], ?_, ?_⟩
      · rw [if_neg hc, List.getElem?_append_right (by simp; omega)]
        simp only [List.length_map, List.length_drop, sub_zero]
        rw [List.getElem?_take_of_lt (by omega), List.getElem?_drop, List.getElem?_eq_getElem (by omega)]
        congr 2
        omega
      · intro r hr
        have hrl := hdata _ (List.getElem_mem hr)
        refine ⟨_, by rw [List.getElem?_map, List.getElem?_eq_getElem hr]; rfl, hgl _ (List.getElem_mem hr), ?_⟩
        rw [List.getElem?_append_right (by rw [List.length_drop, hrl]; omega), List.length_drop, hrl,
          List.getElem?_take_of_lt (by omega), List.getElem?_drop]
        congr 1
        omega

example : shiftGrid 180 [[1, 2, 3, 4]] [0, 90, 180, 270] 360 = some ([[3, 4, 1, 2]], [-180, -90, 0, 90]) := by
  decide +kernel
example : shiftGrid 180 [[1, 2, 3, 4, 1]] [0, 90, 180, 270, 360] 360 =
    some ([[3, 4, 1, 2, 3]], [-180, -90, 0, 90, 180]) := by decide +kernel

/-- **C43** without a repeated column nothing is lost: every output row is a rearrangement of its input
row -/
theorem shiftGrid_perm {A : Type} (lon0 cyclic x0 : ℚ) (rest : List ℚ) (data d : List (List A)) (l : List ℚ)
    (hdata : ∀ row ∈ data, row.length = (x0 :: rest).length)
    (hc : 1 / 10000 < |(x0 :: rest).getLastD 0 - x0 - cyclic|)
    (hres : shiftGrid lon0 data (x0 :: rest) cyclic = some (d, l)) :
    List.Forall₂ List.Perm d data := by
  by_cases h : ∃ x ∈ rest, |x - lon0| < |x0 - lon0|
  swap
  · push Not at h
    rw [shiftGrid_first_raises lon0 cyclic x0 rest data h] at hres
    exact absurd hres (by simp)
  obtain ⟨hlt, hm, _⟩ := argminAbs_spec (x0 :: rest) lon0 (by simp)
  have hi0 : 0 < argminAbs (x0 :: rest) lon0 := by
    rcases Nat.eq_zero_or_pos (argminAbs (x0 :: rest) lon0) with h0 | h0
    · exfalso
      obtain ⟨x, hx, hxl⟩ := h
      have h1 := hm x (by simp [hx])
      simp only [h0, List.getElem_cons_zero] at h1
      exact absurd hxl (not_lt.2 h1)
    · exact h0
  have hs : startIdx (x0 :: rest) cyclic = 0 := by
    unfold startIdx; rw [if_pos]; simpa using hc
  have hrow : ∀ row ∈ data, twoSlices row.length (argminAbs (x0 :: rest) lon0)
      (row.drop (argminAbs (x0 :: rest) lon0)) ((row.drop 0).take (argminAbs (x0 :: rest) lon0)) =
      some (row.drop (argminAbs (x0 :: rest) lon0) ++ row.take (argminAbs (x0 :: rest) lon0)) := by
    intro row hr
    have := twoSlices_eq row.length (argminAbs (x0 :: rest) lon0) 0 row id hi0
      (by rw [hdata row hr]; exact hlt) (by omega) rfl
    simpa using this
  have hl2 := twoSlices_eq (x0 :: rest).length (argminAbs (x0 :: rest) lon0) 0 (x0 :: rest) (· - cyclic) hi0 hlt
    (by omega) rfl
  simp only [shiftGrid, List.cons_ne_nil, if_false, hs, hl2, mapM_some _ _ data hrow, Option.some.injEq,
    Prod.mk.injEq] at hres
  rw [← hres.1]
  clear * -
  induction data with
  | nil => exact List.Forall₂.nil
  | cons a t ih =>
    refine List.Forall₂.cons ?_ ih
    exact List.perm_append_comm.trans (by rw [List.take_append_drop])

/-- **C43** a strictly increasing global axis stays strictly increasing: without a repeated column when
the axis spans less than a period, with one when its step exceeds the tolerance -/
theorem shiftGrid_increasing {A : Type} (lon0 cyclic x0 : ℚ) (rest : List ℚ) (data d : List (List A)) (l : List ℚ)
    (hinc : (x0 :: rest).Pairwise (· < ·))
    (hspan : (x0 :: rest).getLastD 0 - x0 < cyclic - 1 / 10000 ∨
      (|(x0 :: rest).getLastD 0 - x0 - cyclic| ≤ 1 / 10000 ∧ ∀ y ∈ rest, x0 + 1 / 10000 < y))
    (hres : shiftGrid lon0 data (x0 :: rest) cyclic = some (d, l)) : l.Pairwise (· < ·) := by
  by_cases h : ∃ x ∈ rest, |x - lon0| < |x0 - lon0|
  swap
  · push Not at h
    rw [shiftGrid_first_raises lon0 cyclic x0 rest data h] at hres
    exact absurd hres (by simp)
  obtain ⟨hlt, hm, _⟩ := argminAbs_spec (x0 :: rest) lon0 (by simp)
  have hi0 : 0 < argminAbs (x0 :: rest) lon0 := by
    rcases Nat.eq_zero_or_pos (argminAbs (x0 :: rest) lon0) with h0 | h0
    · exfalso
      obtain ⟨x, hx, hxl⟩ := h
      have h1 := hm x (by simp [hx])
      simp only [h0, List.getElem_cons_zero] at h1
      exact absurd hxl (not_lt.2 h1)
    · exact h0
  have hs1 : startIdx (x0 :: rest) cyclic ≤ 1 := by unfold startIdx; split <;> simp
  have hl2 := twoSlices_eq (x0 :: rest).length (argminAbs (x0 :: rest) lon0) (startIdx (x0 :: rest) cyclic)
    (x0 :: rest) (· - cyclic) hi0 hlt hs1 rfl
  have hlast : ∀ x ∈ x0 :: rest, x ≤ (x0 :: rest).getLastD 0 := by
    intro x hx
    rw [show (x0 :: rest).getLastD 0 = (x0 :: rest).getLast (by simp) from by simp [List.getLastD_eq_getLast?, List.getLast?_eq_getLast_of_ne_nil]]
    exact (hinc.imp le_of_lt).rel_getLast hx
  simp only [shiftGrid, List.cons_ne_nil, if_false, hl2] at hres
  split at hres
  · exact absurd hres (by simp)
  · rw [Option.some.injEq, Prod.mk.injEq] at hres
    rw [← hres.2, List.pairwise_append]
    refine ⟨?_, ?_, ?_⟩
    · rw [List.pairwise_map]
      exact (hinc.sublist (List.drop_sublist _ _)).imp (by intro a b hab; linarith)
    · exact hinc.sublist ((List.take_sublist _ _).trans (List.drop_sublist _ _))
    · intro a ha b hb
      obtain ⟨c, hc, rfl⟩ := List.mem_map.1 ha
      have hc2 := hlast c (List.mem_of_mem_drop hc)
      have hb2 := List.mem_of_mem_take hb
      rcases hspan with hsp | ⟨hsp, hy⟩
      · have hb3 : x0 ≤ b := by
          rcases List.mem_cons.1 (List.mem_of_mem_drop hb2) with rfl | hbr
          · exact le_refl _
          · exact ((List.pairwise_cons.1 hinc).1 b hbr).le
        linarith
      · have : startIdx (x0 :: rest) cyclic = 1 := by
          unfold startIdx; rw [if_neg]; simpa using hsp
        rw [this] at hb2
        have hb3 := hy b (by simpa using hb2)
        have := (abs_le.1 hsp).2
        linarith

example : ([0, 90, 180, 270, 360] : List ℚ).Pairwise (· < ·) ∧
    (|([0, 90, 180, 270, 360] : List ℚ).getLastD 0 - 0 - 360| ≤ 1 / 10000 ∧
      ∀ y ∈ ([90, 180, 270, 360] : List ℚ), (0 : ℚ) + 1 / 10000 < y) := by decide +kernel

/-! ## interp_grid with order 0 and mask_oceans -/

theorem npRound_near (x : ℚ) : |(npRound x : ℚ) - x| ≤ 1 / 2 := by
  unfold npRound
  have h1 := Int.floor_le x
  have h2 := Int.lt_floor_add_one x
  split_ifs <;> rw [abs_le] <;> push_cast <;> constructor <;> linarith

theorem npRound_int (k : ℤ) : npRound (k : ℚ) = k := by
  have := npRound_near (k : ℚ)
  rw [abs_le] at this
  have h1 : ((npRound (k : ℚ) : ℤ) : ℚ) < ((k + 1 : ℤ) : ℚ) := by push_cast; linarith
  have h2 : ((k - 1 : ℤ) : ℚ) < ((npRound (k : ℚ) : ℤ) : ℚ) := by push_cast; linarith
  have h3 : npRound (k : ℚ) < k + 1 := by exact_mod_cast h1
  have h4 : k - 1 < npRound (k : ℚ) := by exact_mod_cast h2
  omega

/-- the regular axis from `x0` with step `h` -/
def axis (x0 h : ℚ) (i : ℕ) : ℚ := x0 + h * i

/-- the index of the nearest node is valid and no node is nearer, also for output points outside the
axis, in either direction of the axis -/
theorem nearestIdx_spec (n : ℕ) (hn : 2 ≤ n) (x0 h : ℚ) (hh : h ≠ 0) (o : ℚ) :
    0 ≤ nearestIdx n (axis x0 h) o ∧ nearestIdx n (axis x0 h) o < n ∧
      ∀ j : ℕ, j < n → |axis x0 h (nearestIdx n (axis x0 h) o).toNat - o| ≤ |axis x0 h j - o| := by
  have hN : ((n - 1 : ℕ) : ℚ) = n - 1 := by rw [Nat.cast_sub (by omega)]; simp
  have hn1 : (1 : ℚ) ≤ ((n - 1 : ℕ) : ℚ) := by exact_mod_cast (by omega : 1 ≤ n - 1)
  have hcval : ((n - 1 : ℕ) : ℚ) * (o - axis x0 h 0) / (axis x0 h (n - 1) - axis x0 h 0) = (o - x0) / h := by
    have hne : ((n - 1 : ℕ) : ℚ) ≠ 0 := by linarith
    unfold axis
    have : (x0 + h * ((n - 1 : ℕ) : ℚ) - (x0 + h * ((0 : ℕ) : ℚ))) = h * ((n - 1 : ℕ) : ℚ) := by push_cast; ring
    rw [this]
    push_cast
    field_simp
    ring
  have hidx : nearestIdx n (axis x0 h) o = npRound (min (max ((o - x0) / h) 0) ((n - 1 : ℕ) : ℚ)) := by
    simp only [nearestIdx, hcval]
  set c : ℚ := (o - x0) / h with hc
  have ho : o = x0 + h * c := by rw [hc]; field_simp; ring
  set c' : ℚ := min (max c 0) ((n - 1 : ℕ) : ℚ) with hc'
  have hr := abs_le.1 (npRound_near c')
  have hc0 : 0 ≤ c' := le_min (le_max_right _ _) (by linarith)
  have hc1 : c' ≤ ((n - 1 : ℕ) : ℚ) := min_le_right _ _
  have hpos : 0 ≤ npRound c' := by
    have : ((-1 : ℤ) : ℚ) < (npRound c' : ℚ) := by push_cast; linarith
    have : -1 < npRound c' := by exact_mod_cast this
    omega
  have hlt : npRound c' < n := by
    have : ((npRound c' : ℤ) : ℚ) < ((n : ℤ) : ℚ) := by push_cast; linarith
    exact_mod_cast this
  rw [hidx]
  refine ⟨hpos, hlt, fun j hj => ?_⟩
  have hcast : (((npRound c').toNat : ℕ) : ℚ) = ((npRound c' : ℤ) : ℚ) := by
    have : (((npRound c').toNat : ℕ) : ℤ) = npRound c' := Int.toNat_of_nonneg hpos
    exact_mod_cast congrArg (Int.cast : ℤ → ℚ) this
  have e1 : axis x0 h (npRound c').toNat - o = h * ((npRound c' : ℤ) - c) := by
    rw [ho]; unfold axis; rw [hcast]; ring
  have e2 : axis x0 h j - o = h * (j - c) := by rw [ho]; unfold axis; ring
  rw [e1, e2, abs_mul, abs_mul]
  refine mul_le_mul_of_nonneg_left ?_ (abs_nonneg _)
  have hjn : (j : ℚ) ≤ ((n - 1 : ℕ) : ℚ) := by exact_mod_cast (by omega : j ≤ n - 1)
  have hj0 : (0 : ℚ) ≤ j := by positivity
  rcases lt_or_ge c 0 with hneg | hnn
  · have : c' = 0 := by rw [hc', max_eq_right hneg.le, min_eq_left (by linarith)]
    have h0 : npRound c' = 0 := by rw [this]; exact npRound_int 0
    rw [h0, abs_of_nonneg (by push_cast; linarith), abs_of_nonneg (by linarith)]
    push_cast; linarith
  · rcases lt_or_ge ((n - 1 : ℕ) : ℚ) c with hbig | hle
    · have : c' = ((n - 1 : ℕ) : ℚ) := by rw [hc', max_eq_left hnn, min_eq_right hbig.le]
      have h0 : npRound c' = ((n - 1 : ℕ) : ℤ) := by
        rw [this]; exact_mod_cast npRound_int ((n - 1 : ℕ) : ℤ)
      rw [h0, abs_of_nonpos (by push_cast; linarith), abs_of_nonpos (by linarith)]
      push_cast; linarith
    · have hcc : c' = c := by rw [hc', max_eq_left hnn, min_eq_left hle]
      rw [hcc] at hr ⊢
      by_cases hje : npRound c = (j : ℤ)
      · rw [hje]; push_cast; exact le_refl _
      · have hhalf : |(npRound c : ℚ) - c| ≤ 1 / 2 := npRound_near c
        refine hhalf.trans ?_
        rcases lt_or_gt_of_ne hje with hl | hg
        · have : (npRound c : ℚ) + 1 ≤ (j : ℚ) := by exact_mod_cast hl
          rw [le_abs]; left; linarith [hr.1, hr.2]
        · have : (j : ℚ) + 1 ≤ (npRound c : ℚ) := by exact_mod_cast hg
          rw [le_abs]; right; linarith [hr.1, hr.2]

/-- **C67** nearest-neighbour interpolation of a regular grid gives, at every output point, the value of a
node nearest to it along both axes; outside the grid that is the edge node -/
theorem interpGrid_nearest {A : Type} (nx ny : ℕ) (hx : 2 ≤ nx) (hy : 2 ≤ ny) (data : ℕ → ℕ → A)
    (x0 dx y0 dy : ℚ) (hdx : dx ≠ 0) (hdy : dy ≠ 0) (xo yo : ℚ) :
    ∃ i j, i < ny ∧ j < nx ∧ interpGrid nx ny data (axis x0 dx) (axis y0 dy) xo yo = data i j ∧
      (∀ j', j' < nx → |axis x0 dx j - xo| ≤ |axis x0 dx j' - xo|) ∧
      (∀ i', i' < ny → |axis y0 dy i - yo| ≤ |axis y0 dy i' - yo|) := by
  obtain ⟨h1, h2, h3⟩ := nearestIdx_spec nx hx x0 dx hdx xo
  obtain ⟨g1, g2, g3⟩ := nearestIdx_spec ny hy y0 dy hdy yo
  exact ⟨_, _, by omega, by omega, rfl, h3, g3⟩

/-- **C67** at the nodes the data come back unchanged -/
theorem interpGrid_nodes {A : Type} (nx ny : ℕ) (hx : 2 ≤ nx) (hy : 2 ≤ ny) (data : ℕ → ℕ → A)
    (x0 dx y0 dy : ℚ) (hdx : dx ≠ 0) (hdy : dy ≠ 0) (i j : ℕ) (hi : i < ny) (hj : j < nx) :
    interpGrid nx ny data (axis x0 dx) (axis y0 dy) (axis x0 dx j) (axis y0 dy i) = data i j := by
  obtain ⟨i', j', hi', hj', he, hxm, hym⟩ := interpGrid_nearest nx ny hx hy data x0 dx y0 dy hdx hdy
    (axis x0 dx j) (axis y0 dy i)
  have key : ∀ (c d : ℚ) (a b : ℕ), d ≠ 0 → |axis c d a - axis c d b| ≤ 0 → a = b := by
    intro c d a b hd h
    have h0 := abs_eq_zero.1 (le_antisymm h (abs_nonneg _))
    have : d * ((a : ℚ) - b) = 0 := by rw [← h0]; unfold axis; ring
    rcases mul_eq_zero.1 this with h1 | h1
    · exact absurd h1 hd
    · exact_mod_cast sub_eq_zero.1 h1
  have hj2 := hxm j hj
  have hi2 := hym i hi
  simp only [sub_self, abs_zero] at hj2 hi2
  rw [he, key _ _ _ _ hdx hj2, key _ _ _ _ hdy hi2]

example : interpGrid 3 2 (fun i j => 10 * i + j) (axis 0 1) (axis 0 1) (8 / 5) (-3) = 2 := by decide +kernel

/-- the surface classes of the land-sea mask -/
inductive Surface where
  | ocean | land | lake | island | iceShelf
  deriving DecidableEq

def Surface.code : Surface → ℤ
  | .ocean => 0 | .land => 1 | .lake => 2 | .island => 3 | .iceShelf => 4

/-- **C67** (contradicts the docstring "Mask a data grid over global ocean and water points"): the mask is
set at exactly the points whose nearest cell is land or a small island, a lake when `lakes` is set, or an
ice shelf when `iceshelves` is set; it is never set over the ocean -/
theorem oceanMask_surface (lakes iceshelves : Bool) (nphi nth : ℕ) (surf : ℕ → ℕ → Surface)
    (x0 dx y0 dy : ℚ) (hx : 2 ≤ nphi) (hy : 2 ≤ nth) (hdx : dx ≠ 0) (hdy : dy ≠ 0) (x y : ℚ) :
    ∃ i j, i < nth ∧ j < nphi ∧
      (∀ j', j' < nphi → |axis x0 dx j - x| ≤ |axis x0 dx j' - x|) ∧
      (∀ i', i' < nth → |axis y0 dy i - y| ≤ |axis y0 dy i' - y|) ∧
      (oceanMask lakes iceshelves nphi nth (fun i j => (surf i j).code) (axis x0 dx) (axis y0 dy) x y = true ↔
        surf i j = .land ∨ surf i j = .island ∨ (lakes = true ∧ surf i j = .lake) ∨
          (iceshelves = true ∧ surf i j = .iceShelf)) := by
  obtain ⟨i, j, hi, hj, he, h1, h2⟩ := interpGrid_nearest nphi nth hx hy
    (fun i j => landCode lakes iceshelves (surf i j).code) x0 dx y0 dy hdx hdy x y
  refine ⟨i, j, hi, hj, h1, h2, ?_⟩
  unfold oceanMask
  rw [he]
  cases surf i j <;> cases lakes <;> cases iceshelves <;> simp [landCode, Surface.code]

/-- **C67** so over an ocean cell the mask stays clear, whatever the options -/
theorem oceanMask_not_ocean (lakes iceshelves : Bool) (nphi nth : ℕ) (surf : ℕ → ℕ → Surface)
    (x0 dx y0 dy : ℚ) (hx : 2 ≤ nphi) (hy : 2 ≤ nth) (hdx : dx ≠ 0) (hdy : dy ≠ 0) (i j : ℕ)
    (hi : i < nth) (hj : j < nphi) (ho : surf i j = .ocean) :
    oceanMask lakes iceshelves nphi nth (fun i j => (surf i j).code) (axis x0 dx) (axis y0 dy)
      (axis x0 dx j) (axis y0 dy i) = false := by
  unfold oceanMask
  rw [interpGrid_nodes nphi nth hx hy _ x0 dx y0 dy hdx hdy i j hi hj]
  dsimp only
  rw [ho]
  cases lakes <;> cases iceshelves <;> rfl

/-- **C67** masking data: the mask only grows, masked cells hold the fill value, the others are
unchanged -/
theorem maskCell_spec (m : Bool) (fill : ℚ) (v : ℚ) (k : Bool) :
    ((maskCell m fill (v, k)).2 = true ↔ k = true ∨ m = true) ∧
    ((maskCell m fill (v, k)).2 = true → (maskCell m fill (v, k)).1 = fill) ∧
    ((maskCell m fill (v, k)).2 = false → (maskCell m fill (v, k)).1 = v) := by
  cases m <;> cases k <;> simp [maskCell]

/-! ## colour tables and levels -/

/-- **C68** the tick levels: the first is the lower limit, neighbours differ by the step, the last is at
or above the upper limit by less than a step -/
theorem levels_spec (cmin cmax step : ℤ) (hs : 0 < step) (hc : cmin ≤ cmax) :
    ∃ n : ℕ, (levels cmin cmax step).length = n + 1 ∧
      (∀ k : ℕ, k ≤ n → (levels cmin cmax step)[k]? = some (cmin + step * k)) ∧
      cmax ≤ cmin + step * n ∧ cmin + step * n < cmax + step := by
  set q := ((cmax + step - cmin) + step - 1) / step with hq
  have hm := Int.emod_add_mul_ediv ((cmax + step - cmin) + step - 1) step
  have hm0 := Int.emod_nonneg ((cmax + step - cmin) + step - 1) hs.ne'
  have hm1 := Int.emod_lt_of_pos ((cmax + step - cmin) + step - 1) hs
  rw [← hq] at hm
  have hq1 : 1 ≤ q := by
    by_contra hcon
    have : q ≤ 0 := by omega
    nlinarith
  refine ⟨(q - 1).toNat, ?_, ?_, ?_, ?_⟩
  · simp only [levels, List.length_map, List.length_range, ← hq]; omega
  · intro k hk
    simp only [levels, ← hq]
    rw [List.getElem?_map, List.getElem?_range (by omega)]
    rfl
  · have : (((q - 1).toNat : ℕ) : ℤ) = q - 1 := Int.toNat_of_nonneg (by omega)
    rw [this]; nlinarith
  · have : (((q - 1).toNat : ℕ) : ℤ) = q - 1 := Int.toNat_of_nonneg (by omega)
    rw [this]; nlinarith

example : levels (-100) 100 50 = [-100, -50, 0, 50, 100] ∧ levels 0 10 4 = [0, 4, 8, 12] := by decide +kernel

/-- the colour segments of a table, in order -/
def segments : List CptLine → List ((ℚ × ℚ × ℚ × ℚ) × (ℚ × ℚ × ℚ × ℚ))
  | [] => []
  | .colour x1 r1 g1 b1 x2 r2 g2 b2 :: t => ((x1, r1, g1, b1), (x2, r2, g2, b2)) :: segments t
  | _ :: t => segments t

/-- the colour model a table declares: that of its last declaration -/
def declared (d : Bool) : List CptLine → Bool
  | [] => d
  | .model h :: t => declared h t
  | _ :: t => declared d t

theorem fold_cpt (ls : List CptLine) (hbad : CptLine.bad ∉ ls) (s : CptState) :
    ∃ s', ls.foldlM cptStep s = some s' ∧ s'.entries = s.entries ++ (segments ls).map Prod.fst ∧
      s'.last = (match (segments ls).getLast? with | some p => some p.2 | none => s.last) ∧
      s'.hsv = declared s.hsv ls := by
  induction ls generalizing s with
  | nil => exact ⟨s, rfl, by simp [segments], by simp [segments], rfl⟩
  | cons a t ih =>
    have hbt : CptLine.bad ∉ t := fun h => hbad (by simp [h])
    cases a with
    | bad => exact absurd (by simp) hbad
    | comment =>
      obtain ⟨s', h⟩ := ih hbt s
      exact ⟨s', h⟩
    | flag c r =>
      obtain ⟨s', h⟩ := ih hbt s
      exact ⟨s', h⟩
    | model hv =>
      obtain ⟨s', h⟩ := ih hbt { s with hsv := hv }
      exact ⟨s', h⟩
    | colour x1 r1 g1 b1 x2 r2 g2 b2 =>
      obtain ⟨s', h1, h2, h3, h4⟩ := ih hbt
        { s with entries := s.entries ++ [(x1, r1, g1, b1)], last := some (x2, r2, g2, b2) }
      refine ⟨s', h1, ?_, ?_, h4⟩
      · rw [h2]; simp [segments]
      · rw [h3]
        simp only [segments]
        cases hg : (segments t).getLast? with
        | none =>
          have : segments t = [] := List.getLast?_eq_none_iff.1 hg
          simp [this]
        | some p => rw [List.getLast?_cons, hg]; simp

theorem head_append {A B C : Type} (l : List ((A × B) × C)) (hne : l ≠ []) (e : A × B) :
    ((l.map Prod.fst ++ [e]).headD e).1 = (l.head hne).1.1 := by
  cases l with
  | nil => exact absurd rfl hne
  | cons a t => simp

theorem head_append' {A B C : Type} (l : List ((A × B) × C)) (hne : l ≠ []) (e : A × B) :
    (l.map Prod.fst ++ [e]).head? = some (l.head hne).1 := by
  cases l with
  | nil => exact absurd rfl hne
  | cons a t => simp

theorem head_le {B C : Type} (l : List ((ℚ × B) × C)) (hne : l ≠ [])
    (hinc : (l.map fun p => p.1.1).Pairwise (· < ·)) (p : (ℚ × B) × C) (hp : p ∈ l) : (l.head hne).1.1 ≤ p.1.1 := by
  cases l with
  | nil => exact absurd rfl hne
  | cons a t =>
    rcases List.mem_cons.1 hp with rfl | hp
    · exact le_refl _
    · rw [List.map_cons, List.pairwise_cons] at hinc
      exact (hinc.1 _ (List.mem_map.2 ⟨p, hp, rfl⟩)).le

/-- **C68** a table with `n ≥ 1` segments and no malformed line gives `n + 1` colour nodes: the start of
every segment in order and then the end of the last one, each at its position relative to the whole
range and with its colour converted by the table's colour model -/
theorem cptNodes_spec (toRgb : Bool → ℚ × ℚ × ℚ → ℚ × ℚ × ℚ) (ls : List CptLine) (hbad : CptLine.bad ∉ ls)
    (hne : segments ls ≠ []) (hrange : ((segments ls).getLast hne).2.1 ≠ ((segments ls).head hne).1.1) :
    ∃ nodes, cptNodes toRgb ls = some nodes ∧
      nodes = ((segments ls).map Prod.fst ++ [((segments ls).getLast hne).2]).map fun p =>
        ((p.1 - ((segments ls).head hne).1.1) / (((segments ls).getLast hne).2.1 - ((segments ls).head hne).1.1),
          toRgb (declared false ls) p.2) := by
  obtain ⟨s', h1, h2, h3, h4⟩ := fold_cpt ls hbad {}
  rw [List.getLast?_eq_getLast_of_ne_nil hne] at h3
  dsimp only at h3 h2 h4
  rw [List.nil_append] at h2
  have hhead : ∀ e, (((segments ls).map Prod.fst ++ [e]).headD e).1 = ((segments ls).head hne).1.1 := by
    intro e
    exact head_append _ hne e
  refine ⟨_, ?_, rfl⟩
  unfold cptNodes
  simp only [h1, h3, h2, h4, hhead]
  rw [if_neg (sub_ne_zero.2 hrange)]

/-- **C68** the first node is at 0 and the last at 1 -/
theorem cptNodes_ends (toRgb : Bool → ℚ × ℚ × ℚ → ℚ × ℚ × ℚ) (ls : List CptLine) (hbad : CptLine.bad ∉ ls)
    (hne : segments ls ≠ []) (hrange : ((segments ls).getLast hne).2.1 ≠ ((segments ls).head hne).1.1)
    (nodes : List (ℚ × ℚ × ℚ × ℚ)) (h : cptNodes toRgb ls = some nodes) :
    nodes.length = (segments ls).length + 1 ∧ (nodes.head?.map Prod.fst) = some 0 ∧
      (nodes.getLast?.map Prod.fst) = some 1 := by
  obtain ⟨n', h1, h2⟩ := cptNodes_spec toRgb ls hbad hne hrange
  rw [h1, Option.some.injEq] at h
  rw [← h, h2]
  have hd := sub_ne_zero.2 hrange
  refine ⟨by simp, ?_, ?_⟩
  · rw [List.head?_map, Option.map_map, head_append']
    · simp
    · exact hne
  · simp [div_self hd]

/-- **C68** positions increase with the table: for segments whose starts increase and whose last end is
beyond every start, node positions are strictly increasing and in [0, 1] -/
theorem cptNodes_increasing (toRgb : Bool → ℚ × ℚ × ℚ → ℚ × ℚ × ℚ) (ls : List CptLine) (hbad : CptLine.bad ∉ ls)
    (hne : segments ls ≠ [])
    (hinc : ((segments ls).map fun p => p.1.1).Pairwise (· < ·))
    (hend : ∀ p ∈ segments ls, p.1.1 < ((segments ls).getLast hne).2.1)
    (nodes : List (ℚ × ℚ × ℚ × ℚ)) (h : cptNodes toRgb ls = some nodes) :
    (nodes.map Prod.fst).Pairwise (· < ·) ∧ ∀ p ∈ nodes, 0 ≤ p.1 ∧ p.1 ≤ 1 := by
  have hr := hend _ (List.head_mem hne)
  obtain ⟨n', h1, h2⟩ := cptNodes_spec toRgb ls hbad hne hr.ne'
  rw [h1, Option.some.injEq] at h
  rw [← h, h2]
  have hd : 0 < ((segments ls).getLast hne).2.1 - ((segments ls).head hne).1.1 := sub_pos.2 hr
  have hmin : ∀ p ∈ segments ls, ((segments ls).head hne).1.1 ≤ p.1.1 := by
    intro p hp
    exact head_le _ hne hinc p hp
  constructor
  · rw [List.map_map, List.pairwise_map, List.pairwise_append]
    refine ⟨?_, by simp, ?_⟩
    · rw [List.pairwise_map] at hinc ⊢
      refine hinc.imp ?_
      intro a b hab
      simp only [Function.comp]
      exact div_lt_div_of_pos_right (by linarith) hd
    · intro a ha b hb
      obtain ⟨p, hp, rfl⟩ := List.mem_map.1 ha
      rw [List.mem_singleton] at hb
      subst hb
      simp only [Function.comp]
      exact div_lt_div_of_pos_right (by linarith [hend p hp]) hd
  · intro p hp
    obtain ⟨q, hq, rfl⟩ := List.mem_map.1 hp
    dsimp only
    rcases List.mem_append.1 hq with hq | hq
    · obtain ⟨w, hw, rfl⟩ := List.mem_map.1 hq
      exact ⟨div_nonneg (sub_nonneg.2 (hmin w hw)) hd.le,
        (div_le_one hd).2 (by linarith [hend w hw])⟩
    · rw [List.mem_singleton] at hq
      subst hq
      exact ⟨div_nonneg hd.le hd.le, by rw [div_self hd.ne']⟩

/-- **C68** a table without a colour segment, or with a malformed line, is refused -/
theorem cptNodes_refused (toRgb : Bool → ℚ × ℚ × ℚ → ℚ × ℚ × ℚ) (ls : List CptLine)
    (h : CptLine.bad ∈ ls ∨ segments ls = []) : cptNodes toRgb ls = none := by
  by_cases hb : CptLine.bad ∈ ls
  · have : ∀ s, ls.foldlM cptStep s = none := by
      clear h
      induction ls with
      | nil => simp at hb
      | cons a t ih =>
        intro s
        rw [List.foldlM_cons]
        rcases List.mem_cons.1 hb with rfl | hb
        · rfl
        · cases hc : cptStep s a with
          | none => rfl
          | some s' => exact ih hb s'
    unfold cptNodes; rw [this]
  · have hs := h.resolve_left hb
    obtain ⟨s', h1, h2, h3, h4⟩ := fold_cpt ls hb {}
    rw [hs] at h3
    simp only [List.getLast?_nil] at h3
    unfold cptNodes
    simp only [h1, h3]

/-- **C68** RGB tables are scaled from 0..255 to 0..1 -/
theorem rgb255_range (r g b : ℚ) (hr : 0 ≤ r ∧ r ≤ 255) (hg : 0 ≤ g ∧ g ≤ 255) (hb : 0 ≤ b ∧ b ≤ 255) :
    (0 ≤ (rgb255 (r, g, b)).1 ∧ (rgb255 (r, g, b)).1 ≤ 1) ∧
    (0 ≤ (rgb255 (r, g, b)).2.1 ∧ (rgb255 (r, g, b)).2.1 ≤ 1) ∧
    (0 ≤ (rgb255 (r, g, b)).2.2 ∧ (rgb255 (r, g, b)).2.2 ≤ 1) ∧
    (rgb255 (255, 255, 255) = (1, 1, 1)) := by
  have hz : ∀ x : ℚ, 0 ≤ x ∧ x ≤ 255 → 0 ≤ x / 255 ∧ x / 255 ≤ 1 := fun x hx =>
    ⟨by linarith [hx.1], by linarith [hx.2]⟩
  exact ⟨hz r hr, hz g hg, hz b hb, by norm_num [rgb255]⟩

example : cptNodes (fun _ => rgb255) [.comment, .colour 0 0 0 255 10 255 0 0, .flag 'B' [], .colour 10 0 255 0 40 255 255 255] =
    some [(0, 0, 0, 1), (1 / 4, 0, 1, 0), (1, 1, 1, 1)] := by decide +kernel

/-- **C68** the end colour of a segment other than the last is not used: two tables that differ only
there give the same colour map (so discontinuous tables are not reproduced) -/
theorem cptNodes_ignores_inner_ends (toRgb : Bool → ℚ × ℚ × ℚ → ℚ × ℚ × ℚ) (a b : List CptLine)
    (x1 r1 g1 b1 x2 r2 g2 b2 x2' r2' g2' b2' : ℚ) (hbad : CptLine.bad ∉ b) (hne : segments b ≠ []) :
    cptNodes toRgb (a ++ .colour x1 r1 g1 b1 x2 r2 g2 b2 :: b) =
      cptNodes toRgb (a ++ .colour x1 r1 g1 b1 x2' r2' g2' b2' :: b) := by
  unfold cptNodes
  simp only [List.foldlM_append, List.foldlM_cons]
  cases ha : a.foldlM cptStep {} with
  | none => rfl
  | some s =>
    simp only [Option.bind_eq_bind, Option.bind_some, cptStep]
    obtain ⟨s1, e1, e2, e3, e4⟩ := fold_cpt b hbad
      { s with entries := s.entries ++ [(x1, r1, g1, b1)], last := some (x2, r2, g2, b2) }
    obtain ⟨s2, f1, f2, f3, f4⟩ := fold_cpt b hbad
      { s with entries := s.entries ++ [(x1, r1, g1, b1)], last := some (x2', r2', g2', b2') }
    rw [List.getLast?_eq_getLast_of_ne_nil hne] at e3 f3
    simp only [e1, f1, e2, f2, e3, f3, e4, f4]

/-- **C68** (a defect) the degree widget handler compares the selection widget, which equals no string,
with the centre names: every change of release raises -/
theorem setMaxDegree_raises (release : String) : setMaxDegree (fun _ => false) release = none := rfl

/-- degree limits of the products: (centre, release, limit) -/
def degreeTable : List (String × String × ℕ) :=
  [("CNES", "RL01", 50), ("CNES", "RL02", 50), ("CNES", "RL03", 80), ("CNES", "RL04", 90), ("CNES", "RL05", 90),
   ("CSR", "RL04", 60), ("CSR", "RL05", 60), ("CSR", "RL06", 60), ("JPL", "RL04", 60), ("JPL", "RL05", 60),
   ("JPL", "RL06", 60), ("GFZ", "RL04", 90), ("GFZ", "RL05", 90), ("GFZ", "RL06", 60)]

/-- **C68** what it would do if it read the value of the selection: for every centre and release, the limit
of the table, nothing for products that are not in it -/
theorem setMaxDegree_intended (center release : String) (n : ℕ) :
    setMaxDegree (center == ·) release = some n ↔ (center, release, n) ∈ degreeTable := by
  unfold setMaxDegree degreeTable
  simp only [beq_iff_eq, Bool.or_eq_true, List.mem_cons, Prod.mk.injEq, List.not_mem_nil, or_false]
  split_ifs with h1 h2 h3
  · subst h1
    split <;> simp_all <;> omega
  · rcases h2 with rfl | rfl <;> split <;> simp_all <;> omega
  · subst h3
    split <;> simp_all <;> omega
  · push Not at h2
    simp [h1, h2.1, h2.2, h3]

end Verif.Tools
