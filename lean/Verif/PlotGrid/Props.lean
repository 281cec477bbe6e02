import Verif.PlotGrid.Spec
import Verif.Tools.Props
import Mathlib.Tactic.SplitIfs
/-!
# C114: the pixels of a map (nearest neighbour)
-/
namespace Verif.PlotGrid
open Verif.Spatial
open Verif.Tools (shiftGrid interpGrid nearestIdx axis nearestIdx_spec argminAbs argminAbs_spec startIdx twoSlices twoSlices_eq mapM_some)

theorem nearestIdx_congr (n : ℕ) (f g : ℕ → ℚ) (o : ℚ) (h0 : f 0 = g 0) (h1 : f (n - 1) = g (n - 1)) :
    nearestIdx n f o = nearestIdx n g o := by
  simp only [nearestIdx, h0, h1]

theorem getD_range_map (n : ℕ) (f : ℕ → ℚ) (k : ℕ) (hk : k < n) : ((List.range n).map f).getD k 0 = f k := by
  rw [List.getD_eq_getElem?_getD, List.getElem?_map, List.getElem?_range hk]; rfl

theorem rows_get {A : Type} (o : Sp ℚ) (f : Idx → A) (z : A) (i j : ℕ) (hi : i < o.shape 0) (hj : j < o.shape 1) :
    at_ (rows o f) z i j = f (cell i j) := by
  unfold at_ rows
  rw [List.getD_eq_getElem?_getD (l := (List.range (o.shape 0)).map _), List.getElem?_map, List.getElem?_range hi]
  simp only [Option.map_some, Option.getD_some]
  rw [List.getD_eq_getElem?_getD, List.getElem?_map, List.getElem?_range hj]
  rfl

theorem rows_length {A : Type} (o : Sp ℚ) (f : Idx → A) : (rows o f).length = o.shape 0 := by simp [rows]

theorem rows_row {A : Type} (o : Sp ℚ) (f : Idx → A) : ∀ r ∈ rows o f, r.length = o.shape 1 := by
  intro r hr
  obtain ⟨i, _, rfl⟩ := List.mem_map.1 hr
  simp

/-- the column of the input that is column `k` after the shift -/
def source (n i0 s k : ℕ) : ℕ := if k < n - i0 then i0 + k else k - (n - i0) + s

theorem shift_get {A : Type} (n i0 s : ℕ) (r : List A) (hr : r.length = n) (hi : i0 < n) (k : ℕ)
    (hk : k < n) : (r.drop i0 ++ (r.drop s).take i0)[k]? = r[source n i0 s k]? := by
  unfold source
  split_ifs with h
  · rw [List.getElem?_append_left (by rw [List.length_drop, hr]; exact h), List.getElem?_drop]
  · rw [List.getElem?_append_right (by rw [List.length_drop, hr]; omega), List.length_drop, hr,
      List.getElem?_take_of_lt (by omega), List.getElem?_drop]
    congr 1; omega

theorem source_lt (n i0 s k : ℕ) (hi : i0 < n) (hs : s ≤ 1) (hk : k < n) (hi0 : 0 < i0) : source n i0 s k < n := by
  unfold source; split_ifs <;> omega

/-- the shift of a regular axis that goes once around the Earth -/
theorem shift_axis {A : Type} (t x0 h : ℚ) (n i0 s : ℕ) (d : List (List A)) (hd : ∀ r ∈ d, r.length = n)
    (hi : argminAbs ((List.range n).map (axis x0 h)) t = i0) (hi0 : 0 < i0) (hin : i0 < n) (hh : 1 / 10000 < h)
    (hs : (s = 0 ∧ h * n = 360) ∨ (s = 1 ∧ h * (n - 1) = 360)) :
    shiftGrid t d ((List.range n).map (axis x0 h)) 360 =
      some (d.map (fun r => r.drop i0 ++ (r.drop s).take i0), (List.range n).map (axis (x0 + h * i0 - 360) h)) := by
  have hn : 0 < n := by omega
  set lon := (List.range n).map (axis x0 h) with hlon
  have hlen : lon.length = n := by simp [hlon]
  have hne : lon ≠ [] := by intro h0; rw [h0] at hlen; simp at hlen; omega
  have hs1 : s ≤ 1 := by omega
  have hhead : lon.headD 0 = x0 := by
    rw [List.headD_eq_head?_getD, List.head?_eq_getElem?, hlon, List.getElem?_map, List.getElem?_range hn]
    simp [axis]
  have hlast : lon.getLastD 0 = x0 + h * ((n : ℚ) - 1) := by
    rw [List.getLastD_eq_getLast?, List.getLast?_eq_getElem?, hlen, hlon, List.getElem?_map,
      List.getElem?_range (by omega)]
    simp only [axis, Option.map_some, Option.getD_some]
    rw [Nat.cast_sub (by omega)]; simp
  have hst : startIdx lon 360 = s := by
    unfold startIdx
    rw [hhead, hlast]
    rcases hs with ⟨rfl, h1⟩ | ⟨rfl, h1⟩
    · rw [if_pos]
      have : x0 + h * ((n : ℚ) - 1) - x0 - 360 = -h := by linarith
      rw [this, abs_neg, abs_of_pos (by linarith)]; exact hh
    · rw [if_neg]
      have : x0 + h * ((n : ℚ) - 1) - x0 - 360 = 0 := by linarith
      rw [this]; norm_num
  have hl := twoSlices_eq n i0 s lon (· - 360) hi0 hin hs1 hlen
  have hrow : ∀ r ∈ d, twoSlices r.length i0 (r.drop i0) ((r.drop s).take i0) =
      some (r.drop i0 ++ (r.drop s).take i0) := by
    intro r hr
    have := twoSlices_eq r.length i0 s r id hi0 (by rw [hd r hr]; exact hin) hs1 rfl
    simpa using this
  have hmap : (lon.drop i0).map (· - 360) ++ (lon.drop s).take i0 =
      (List.range n).map (axis (x0 + h * i0 - 360) h) := by
    refine List.ext_getElem (by simp [hlen]; omega) fun k h1 h2 => ?_
    have hk : k < n := by simpa using h2
    rw [← Option.some_inj, ← List.getElem?_eq_getElem, ← List.getElem?_eq_getElem]
    rw [List.getElem?_map, List.getElem?_range hk]
    by_cases hc : k < n - i0
    · rw [List.getElem?_append_left (by simpa [hlen] using hc), List.getElem?_map, List.getElem?_drop, hlon,
        List.getElem?_map, List.getElem?_range (by omega)]
      simp only [Option.map_some, axis, Option.some.injEq]
      push_cast; ring
    · rw [List.getElem?_append_right (by simp [hlen]; omega)]
      simp only [List.length_map, List.length_drop, hlen]
      rw [List.getElem?_take_of_lt (by omega), List.getElem?_drop, hlon, List.getElem?_map,
        List.getElem?_range (by omega)]
      simp only [Option.map_some, axis, Option.some.injEq]
      rw [Nat.cast_add, Nat.cast_sub (by omega), Nat.cast_sub (by omega)]
      rcases hs with ⟨rfl, h1⟩ | ⟨rfl, h1⟩
      · push_cast; linarith
      · push_cast; linarith
  simp only [shiftGrid, if_neg hne, hi, hst, hlen, hl, mapM_some _ _ d hrow, hmap]

/-- column `source` of the input is the shifted longitude up to whole turns -/
theorem source_lon (x0 h : ℚ) (n i0 s k : ℕ) (hin : i0 < n) (hk : k < n)
    (hs : (s = 0 ∧ h * n = 360) ∨ (s = 1 ∧ h * (n - 1) = 360)) :
    ∃ t : ℤ, axis x0 h (source n i0 s k) + 360 * (t : ℚ) = axis (x0 + h * i0 - 360) h k := by
  unfold source
  split_ifs with hc
  · refine ⟨-1, ?_⟩
    simp only [axis]; push_cast; ring
  · refine ⟨0, ?_⟩
    simp only [axis]
    rw [Nat.cast_add, Nat.cast_sub (by omega), Nat.cast_sub (by omega)]
    rcases hs with ⟨rfl, h1⟩ | ⟨rfl, h1⟩
    · push_cast; linarith
    · push_cast; linarith

/-- a nearest node of a regular axis is at most half a step away, for points up to half a step outside -/
theorem half_step (n : ℕ) (hn : 2 ≤ n) (x0 h x : ℚ) (hh : 0 < h) (k : ℕ)
    (hmin : ∀ j < n, |axis x0 h k - x| ≤ |axis x0 h j - x|) (h1 : x0 - h / 2 ≤ x) (h2 : x ≤ x0 + h * ((n : ℚ) - 1) + h / 2) :
    |axis x0 h k - x| ≤ h / 2 := by
  -- the node found by rounding
  obtain ⟨j, hj, hjx⟩ : ∃ j < n, |axis x0 h j - x| ≤ h / 2 := by
    by_cases ha : x ≤ x0
    · exact ⟨0, by omega, by simp only [axis]; rw [abs_le]; push_cast; constructor <;> linarith⟩
    · by_cases hb : x0 + h * ((n : ℚ) - 1) ≤ x
      · refine ⟨n - 1, by omega, ?_⟩
        simp only [axis]; rw [Nat.cast_sub (by omega), abs_le]; push_cast; constructor <;> linarith
      · push Not at ha hb
        set c := (x - x0) / h with hc
        have hx : x = x0 + h * c := by rw [hc]; field_simp; ring
        have hc0 : 0 < c := div_pos (by linarith) hh
        have hcn : c < (n : ℚ) - 1 := by
          rw [hc, div_lt_iff₀ hh]; linarith
        have hf0 : 0 ≤ ⌊c + 1 / 2⌋ := Int.floor_nonneg.2 (by linarith)
        obtain ⟨j, hj⟩ := Int.eq_ofNat_of_zero_le hf0
        have hfl := Int.floor_le (c + 1 / 2)
        have hfu := Int.lt_floor_add_one (c + 1 / 2)
        rw [hj] at hfl hfu
        push_cast at hfl hfu
        refine ⟨j, ?_, ?_⟩
        · have : (j : ℚ) < n := by linarith
          exact_mod_cast this
        · simp only [axis]
          have : x0 + h * (j : ℚ) - x = h * ((j : ℚ) - c) := by rw [hx]; ring
          rw [this, abs_mul, abs_of_pos hh]
          have : |(j : ℚ) - c| ≤ 1 / 2 := by rw [abs_le]; constructor <;> linarith
          nlinarith
  exact (hmin j hj).trans hjx

/-- the pixel of a regular grid after a shift by whole columns -/
theorem nearest_shifted {A : Type} (z : A) (o : Sp ℚ) (f : Idx → A) (n i0 s : ℕ) (x0 h : ℚ) (nlat : ℕ) (y0 dy : ℚ)
    (hn : 2 ≤ n) (hlat2 : 2 ≤ nlat) (hdy : dy ≠ 0) (hlat : Regular o.lat y0 dy nlat) (hsh0 : o.shape 0 = nlat)
    (hsh1 : o.shape 1 = n) (hi0 : 0 < i0) (hin : i0 < n) (hs : s ≤ 1) (x y : ℚ) :
    nearest ((rows o f).map (fun r => r.drop i0 ++ (r.drop s).take i0)) z
        ((List.range n).map (axis x0 h)) o.lat x y =
      f (cell (nearestIdx nlat (axis y0 dy) y).toNat (source n i0 s (nearestIdx n (axis x0 h) x).toNat)) ∨ h = 0 := by
  by_cases hh : h = 0
  · exact Or.inr hh
  left
  obtain ⟨a1, a2, _⟩ := nearestIdx_spec n hn x0 h hh x
  obtain ⟨b1, b2, _⟩ := nearestIdx_spec nlat hlat2 y0 dy hdy y
  have hlat' : o.lat = (List.range nlat).map (axis y0 dy) := hlat
  unfold nearest interpGrid
  rw [List.length_map, List.length_range, hlat', List.length_map, List.length_range]
  rw [nearestIdx_congr nlat (fun k => ((List.range nlat).map (axis y0 dy)).getD k 0) (axis y0 dy) y
    (getD_range_map _ _ _ (by omega)) (getD_range_map _ _ _ (by omega)),
    nearestIdx_congr n (fun k => ((List.range n).map (axis x0 h)).getD k 0) (axis x0 h) x
    (getD_range_map _ _ _ (by omega)) (getD_range_map _ _ _ (by omega))]
  set I := (nearestIdx nlat (axis y0 dy) y).toNat with hI
  set J := (nearestIdx n (axis x0 h) x).toNat with hJ
  have hIl : I < nlat := by omega
  have hJl : J < n := by omega
  have hsl := source_lt n i0 s J hin hs hJl hi0
  have hrow : (rows o f)[I]? = some ((List.range n).map fun j : ℕ => f (cell I j)) := by
    unfold rows
    rw [List.getElem?_map, List.getElem?_range (by omega), hsh1]
    rfl
  unfold at_
  rw [List.getD_eq_getElem?_getD (l := List.map _ (rows o f)), List.getElem?_map, hrow]
  simp only [Option.map_some, Option.getD_some]
  rw [List.getD_eq_getElem?_getD, shift_get n i0 s _ (by simp) hin J hJl, List.getElem?_map,
    List.getElem?_range hsl]
  rfl

/-- the pixel of a regular grid that is not shifted -/
theorem nearest_plain {A : Type} (z : A) (o : Sp ℚ) (f : Idx → A) (n : ℕ) (x0 h : ℚ) (nlat : ℕ) (y0 dy : ℚ)
    (hn : 2 ≤ n) (hlat2 : 2 ≤ nlat) (hdy : dy ≠ 0) (hh : h ≠ 0) (hlat : Regular o.lat y0 dy nlat) (hsh0 : o.shape 0 = nlat)
    (hsh1 : o.shape 1 = n) (x y : ℚ) :
    nearest (rows o f) z ((List.range n).map (axis x0 h)) o.lat x y =
      f (cell (nearestIdx nlat (axis y0 dy) y).toNat (nearestIdx n (axis x0 h) x).toNat) := by
  obtain ⟨a1, a2, _⟩ := nearestIdx_spec n hn x0 h hh x
  obtain ⟨b1, b2, _⟩ := nearestIdx_spec nlat hlat2 y0 dy hdy y
  have hlat' : o.lat = (List.range nlat).map (axis y0 dy) := hlat
  unfold nearest interpGrid
  rw [List.length_map, List.length_range, hlat', List.length_map, List.length_range]
  rw [nearestIdx_congr nlat (fun k => ((List.range nlat).map (axis y0 dy)).getD k 0) (axis y0 dy) y
    (getD_range_map _ _ _ (by omega)) (getD_range_map _ _ _ (by omega)),
    nearestIdx_congr n (fun k => ((List.range n).map (axis x0 h)).getD k 0) (axis x0 h) x
    (getD_range_map _ _ _ (by omega)) (getD_range_map _ _ _ (by omega))]
  exact rows_get o f z _ _ (by omega) (by omega)

theorem nearestLat_of (lat : List ℚ) (y0 dy : ℚ) (nlat : ℕ) (h2 : 2 ≤ nlat) (hdy : dy ≠ 0) (hlat : Regular lat y0 dy nlat)
    (y : ℚ) : NearestLat lat (nearestIdx nlat (axis y0 dy) y).toNat y := by
  obtain ⟨b1, b2, b3⟩ := nearestIdx_spec nlat h2 y0 dy hdy y
  have hlat' : lat = (List.range nlat).map (axis y0 dy) := hlat
  refine ⟨axis y0 dy (nearestIdx nlat (axis y0 dy) y).toNat, ?_, ?_⟩
  · rw [hlat', List.getElem?_map, List.getElem?_range (by omega)]; rfl
  · intro b hb
    rw [hlat'] at hb
    obtain ⟨k, hk, rfl⟩ := List.mem_map.1 hb
    exact b3 k (List.mem_range.1 hk)

/-- first index of the smallest distance on a regular axis -/
theorem argmin_axis (x0 h t : ℚ) (n k : ℕ) (hk : k < n) (hh : 0 < h) (h1 : |axis x0 h k - t| ≤ h / 2)
    (h2 : t ≠ axis x0 h k - h / 2 ) : argminAbs ((List.range n).map (axis x0 h)) t = k := by
  have hne : (List.range n).map (axis x0 h) ≠ [] := by
    intro h0
    have := congrArg List.length h0
    simp at this; omega
  obtain ⟨hlt, hm, hs⟩ := argminAbs_spec ((List.range n).map (axis x0 h)) t hne
  set i := argminAbs ((List.range n).map (axis x0 h)) t with hi
  have hin : i < n := by simpa using hlt
  have hget : ((List.range n).map (axis x0 h))[i] = axis x0 h i := by simp
  rw [hget] at hm hs
  have hk1 := abs_le.1 h1
  have hki : |axis x0 h i - t| ≤ |axis x0 h k - t| := hm _ (List.mem_map.2 ⟨k, List.mem_range.2 hk, rfl⟩)
  have hi2 : |axis x0 h i - t| ≤ h / 2 := hki.trans h1
  have hi1 := abs_le.1 hi2
  simp only [axis] at hk1 hi1 h2 hki
  rcases lt_trichotomy i k with hlt' | heq | hgt
  · exfalso
    have : (i : ℚ) + 1 ≤ k := by exact_mod_cast hlt'
    have hm1 : h * ((i : ℚ) + 1) ≤ h * k := by nlinarith
    apply h2
    linarith [hk1.2, hi1.1]
  · exact heq
  · exfalso
    have hki' := hs k hgt
    have hget2 : ((List.range n).map (axis x0 h))[k]'(by simpa using hk) = axis x0 h k := by simp
    rw [hget2] at hki'
    simp only [axis] at hki'
    have : (k : ℚ) + 1 ≤ i := by exact_mod_cast hgt
    have hm1 : h * ((k : ℚ) + 1) ≤ h * i := by nlinarith
    -- both are at most half a step away
    have e1 : x0 + h * (k : ℚ) - t ≤ -(h / 2) := by linarith [hi1.2]
    have e2 : x0 + h * (k : ℚ) - t = -(h / 2) := le_antisymm e1 (by linarith [hk1.1])
    have e3 : x0 + h * (i : ℚ) - t = h / 2 := by
      apply le_antisymm hi1.2
      linarith
    rw [e2, e3, abs_neg] at hki'
    exact lt_irrefl _ hki'

/-- what `image` is for a grid whose columns have been shifted -/
theorem image_shifted (interval : ℤ) (dlon t : ℚ) (o : Sp ℚ) (n i0 s nlat : ℕ) (x0 h y0 dy x y : ℚ)
    (ht : (interval = 1 ∧ t = 180) ∨ (interval = 2 ∧ t = 180 + dlon)) (hb : beyond o.lon = true)
    (hn : 2 ≤ n) (hlat2 : 2 ≤ nlat) (hdy : dy ≠ 0) (hlat : Regular o.lat y0 dy nlat) (hlon : Regular o.lon x0 h n) (hf : Fits o)
    (hi : argminAbs ((List.range n).map (axis x0 h)) t = i0) (hi0 : 0 < i0) (hin : i0 < n) (hh : 1 / 10000 < h)
    (hs : (s = 0 ∧ h * n = 360) ∨ (s = 1 ∧ h * (n - 1) = 360)) :
    Shows (image interval "nearest" dlon o x y) o (nearestIdx nlat (axis y0 dy) y).toNat
      (source n i0 s (nearestIdx n (axis (x0 + h * i0 - 360) h) x).toNat) := by
  have hlon' : o.lon = (List.range n).map (axis x0 h) := hlon
  have hs1 : s ≤ 1 := by omega
  have hsh0 : o.shape 0 = nlat := by rw [hf.1, hlat]; simp
  have hsh1 : o.shape 1 = n := by rw [hf.2, hlon]; simp
  have hsh : ∀ {A : Type} (f : Idx → A), shifted interval dlon o.lon (rows o f) =
      .ok ((rows o f).map (fun r => r.drop i0 ++ (r.drop s).take i0), (List.range n).map (axis (x0 + h * i0 - 360) h)) := by
    intro A f
    have := shift_axis t x0 h n i0 s (rows o f) (fun r hr => by rw [rows_row o f r hr, hsh1]) hi hi0 hin hh hs
    rw [← hlon'] at this
    unfold shifted
    rcases ht with ⟨h1, h2⟩ | ⟨h1, h2⟩
    · rw [if_pos ⟨h1, hb⟩, ← h2, this]
    · rw [if_neg (by omega), if_pos ⟨h1, hb⟩, ← h2, this]
  unfold Shows image
  rw [hsh, hsh]
  simp only [order, if_true]
  have hne : h ≠ 0 := by intro h0; rw [h0] at hh; norm_num at hh
  have e1 := (nearest_shifted (none : Val ℚ) o o.data n i0 s (x0 + h * i0 - 360) h nlat y0 dy hn hlat2 hdy hlat hsh0 hsh1 hi0
    hin hs1 x y).resolve_right hne
  have e2 := (nearest_shifted false o o.mask n i0 s (x0 + h * i0 - 360) h nlat y0 dy hn hlat2 hdy hlat hsh0 hsh1 hi0
    hin hs1 x y).resolve_right hne
  rw [e1, e2]

/-- the pixel is the cell at most half a step away, if the shifted axis reaches that far -/
theorem shows_near (n i0 s nlat : ℕ) (o : Sp ℚ) (x0 h y0 dy x y : ℚ) (r : Except Err (Option Pixel))
    (hn : 2 ≤ n) (hlat2 : 2 ≤ nlat) (hdy : dy ≠ 0) (hlat : Regular o.lat y0 dy nlat) (hlon : Regular o.lon x0 h n)
    (hi0 : 0 < i0) (hin : i0 < n) (hh : 0 < h)
    (hs : (s = 0 ∧ h * n = 360) ∨ (s = 1 ∧ h * (n - 1) = 360))
    (h1 : x0 + h * i0 - 360 - h / 2 ≤ x) (h2 : x ≤ x0 + h * i0 - 360 + h * ((n : ℚ) - 1) + h / 2)
    (hr : Shows r o (nearestIdx nlat (axis y0 dy) y).toNat
      (source n i0 s (nearestIdx n (axis (x0 + h * i0 - 360) h) x).toNat)) :
    ∃ i j l, i < nlat ∧ o.lon[j]? = some l ∧ Shows r o i j ∧ NearLon (h / 2) l x ∧ NearestLat o.lat i y := by
  obtain ⟨a1, a2, a3⟩ := nearestIdx_spec n hn (x0 + h * i0 - 360) h hh.ne' x
  obtain ⟨b1, b2, _⟩ := nearestIdx_spec nlat hlat2 y0 dy hdy y
  set J := (nearestIdx n (axis (x0 + h * i0 - 360) h) x).toNat with hJ
  have hJn : J < n := by omega
  have hs1 : s ≤ 1 := by omega
  refine ⟨_, _, axis x0 h (source n i0 s J), by omega, ?_, hr, ?_, nearestLat_of o.lat y0 dy nlat hlat2 hdy hlat y⟩
  · rw [hlon, List.getElem?_map, List.getElem?_range (source_lt n i0 s J hin hs1 hJn hi0)]; rfl
  · obtain ⟨k, hk⟩ := source_lon x0 h n i0 s J hin hJn hs
    refine ⟨k, ?_⟩
    rw [hk]
    exact half_step n hn _ h x hh J a3 h1 h2

/-- **C114** a grid of cells centred at 0.5, 1.5, 2.5, ... steps east of Greenwich (interval 2), an even number of them: every point
of the map from -180 to 180 shows the value and the mask of a cell whose centre is at most half a cell away in longitude, across
the date line too, and nearest in latitude -/
theorem pixel_centered (o : Sp ℚ) (m nlat : ℕ) (y0 dy x y : ℚ) (hm : 1 ≤ m) (hm2 : (1 : ℚ) / 10000 < 180 / m)
    (hlon : Regular o.lon (180 / m / 2) (180 / m) (2 * m)) (hlat2 : 2 ≤ nlat) (hdy : dy ≠ 0) (hlat : Regular o.lat y0 dy nlat)
    (hf : Fits o) (hx1 : -180 ≤ x) (hx2 : x ≤ 180) :
    ∃ i j l, i < nlat ∧ o.lon[j]? = some l ∧ Shows (image 2 "nearest" (180 / m) o x y) o i j ∧
      NearLon (180 / m / 2) l x ∧ NearestLat o.lat i y := by
  have hm0 : (0 : ℚ) < m := by exact_mod_cast hm
  set h : ℚ := 180 / m with hh
  have hhm : h * m = 180 := by rw [hh]; field_simp
  have hhp : 0 < h := by linarith
  have hax : axis (h / 2) h m = 180 + h / 2 := by simp only [axis]; linarith
  have hi : argminAbs ((List.range (2 * m)).map (axis (h / 2) h)) (180 + h) = m := by
    refine argmin_axis _ _ _ _ _ (by omega) hhp ?_ ?_
    · rw [hax, abs_le]; constructor <;> linarith
    · rw [hax]; intro hc; linarith
  have hb : beyond o.lon = true := by
    unfold beyond
    rw [List.any_eq_true]
    refine ⟨h / 2 + h * m, ?_, ?_⟩
    · rw [hlon]; exact List.mem_map.2 ⟨m, List.mem_range.2 (by omega), rfl⟩
    · simp only [decide_eq_true_eq]; linarith
  have hs : ((0 : ℕ) = 0 ∧ h * ((2 * m : ℕ) : ℚ) = 360) ∨ ((0 : ℕ) = 1 ∧ h * (((2 * m : ℕ) : ℚ) - 1) = 360) := by
    left; refine ⟨rfl, ?_⟩; push_cast; linarith
  have hsh := image_shifted 2 h (180 + h) o (2 * m) m 0 nlat (h / 2) h y0 dy x y (Or.inr ⟨rfl, rfl⟩) hb (by omega) hlat2 hdy hlat
    hlon hf hi (by omega) (by omega) hm2 hs
  refine shows_near (2 * m) m 0 nlat o (h / 2) h y0 dy x y _ (by omega) hlat2 hdy hlat hlon (by omega) (by omega) hhp hs ?_ ?_ hsh
  · linarith
  · push_cast; linarith

/-- **C114** the same for a grid with points at 0, 1, 2, ... steps up to 360 degrees (interval 1) -/
theorem pixel_global (o : Sp ℚ) (m nlat : ℕ) (y0 dy x y dlon : ℚ) (hm : 1 ≤ m) (hm2 : (1 : ℚ) / 10000 < 180 / m)
    (hlon : Regular o.lon 0 (180 / m) (2 * m + 1)) (hlat2 : 2 ≤ nlat) (hdy : dy ≠ 0) (hlat : Regular o.lat y0 dy nlat)
    (hf : Fits o) (hx1 : -180 ≤ x) (hx2 : x ≤ 180) :
    ∃ i j l, i < nlat ∧ o.lon[j]? = some l ∧ Shows (image 1 "nearest" dlon o x y) o i j ∧
      NearLon (180 / m / 2) l x ∧ NearestLat o.lat i y := by
  have hm0 : (0 : ℚ) < m := by exact_mod_cast hm
  set h : ℚ := 180 / m with hh
  have hhm : h * m = 180 := by rw [hh]; field_simp
  have hhp : 0 < h := by linarith
  have hax : axis 0 h m = 180 := by simp only [axis]; linarith
  have hi : argminAbs ((List.range (2 * m + 1)).map (axis 0 h)) 180 = m := by
    refine argmin_axis _ _ _ _ _ (by omega) hhp ?_ ?_
    · rw [hax, abs_le]; constructor <;> linarith
    · rw [hax]; intro hc; linarith
  have hb : beyond o.lon = true := by
    unfold beyond
    rw [List.any_eq_true]
    refine ⟨0 + h * ((2 * m : ℕ) : ℚ), ?_, ?_⟩
    · rw [hlon]; exact List.mem_map.2 ⟨2 * m, List.mem_range.2 (by omega), rfl⟩
    · simp only [decide_eq_true_eq]; push_cast; linarith
  have hs : ((1 : ℕ) = 0 ∧ h * ((2 * m + 1 : ℕ) : ℚ) = 360) ∨ ((1 : ℕ) = 1 ∧ h * (((2 * m + 1 : ℕ) : ℚ) - 1) = 360) := by
    right; refine ⟨rfl, ?_⟩; push_cast; linarith
  have hsh := image_shifted 1 dlon 180 o (2 * m + 1) m 1 nlat 0 h y0 dy x y (Or.inl ⟨rfl, rfl⟩) hb (by omega) hlat2 hdy hlat
    hlon hf hi (by omega) (by omega) hm2 hs
  refine shows_near (2 * m + 1) m 1 nlat o 0 h y0 dy x y _ (by omega) hlat2 hdy hlat hlon (by omega) (by omega) hhp hs ?_ ?_ hsh
  · linarith
  · push_cast; linarith

/-- **C114** the same for a grid whose longitudes do not exceed 180 degrees, any interval: points up to half a step outside the
columns -/
theorem pixel_plain (o : Sp ℚ) (interval : ℤ) (n nlat : ℕ) (x0 h y0 dy x y dlon : ℚ) (hn : 2 ≤ n) (hh : 0 < h)
    (hlon : Regular o.lon x0 h n) (hlat2 : 2 ≤ nlat) (hdy : dy ≠ 0) (hlat : Regular o.lat y0 dy nlat)
    (hf : Fits o) (hmax : ∀ l ∈ o.lon, l ≤ 180) (hx1 : x0 - h / 2 ≤ x) (hx2 : x ≤ x0 + h * ((n : ℚ) - 1) + h / 2) :
    ∃ i j l, i < nlat ∧ o.lon[j]? = some l ∧ Shows (image interval "nearest" dlon o x y) o i j ∧
      |l - x| ≤ h / 2 ∧ NearestLat o.lat i y := by
  obtain ⟨a1, a2, a3⟩ := nearestIdx_spec n hn x0 h hh.ne' x
  obtain ⟨b1, b2, _⟩ := nearestIdx_spec nlat hlat2 y0 dy hdy y
  have hb : beyond o.lon = false := by
    unfold beyond
    rw [List.any_eq_false]
    intro l hl
    simpa using hmax l hl
  have hlon' : o.lon = (List.range n).map (axis x0 h) := hlon
  have hsh0 : o.shape 0 = nlat := by rw [hf.1, hlat]; simp
  have hsh1 : o.shape 1 = n := by rw [hf.2, hlon]; simp
  refine ⟨(nearestIdx nlat (axis y0 dy) y).toNat, (nearestIdx n (axis x0 h) x).toNat, axis x0 h (nearestIdx n (axis x0 h) x).toNat,
    by omega, ?_, ?_, half_step n hn x0 h x hh _ a3 hx1 hx2, nearestLat_of o.lat y0 dy nlat hlat2 hdy hlat y⟩
  · rw [hlon', List.getElem?_map, List.getElem?_range (by omega)]; rfl
  · unfold Shows image shifted
    simp only [hb, Bool.false_eq_true, and_false, if_false, order, if_true]
    rw [hlon', nearest_plain none o o.data n x0 h nlat y0 dy hn hlat2 hdy hh.ne' hlat hsh0 hsh1,
      nearest_plain false o o.mask n x0 h nlat y0 dy hn hlat2 hdy hh.ne' hlat hsh0 hsh1]

/-- a grid of four columns and two rows, one cell masked -/
def exGrid (lon : List ℚ) : Sp ℚ :=
  { shape := fun k => if k = 0 then 2 else if k = 1 then lon.length else 1
    ndim3 := false
    data := fun i => some (10 * (i 0 : ℚ) + (i 1 : ℚ))
    mask := fun i => i 0 = 1 ∧ i 1 = 2
    error := none, lat := [-45, 45], lon := lon, time := [], month := [], fill := some (some (-9999)) }

example : Regular (exGrid [45, 135, 225, 315]).lon (180 / (2 : ℕ) / 2) (180 / (2 : ℕ)) (2 * 2) ∧
    Regular (exGrid [45, 135, 225, 315]).lat (-45) 90 2 ∧ Fits (exGrid [45, 135, 225, 315]) := by
  refine ⟨by unfold Regular; decide +kernel, by unfold Regular; decide +kernel, rfl, rfl⟩

/-- the point 150 W, 30 N lies in the column of 225 E, which is masked in the north -/
example : image 2 "nearest" 90 (exGrid [45, 135, 225, 315]) (-150) 30 = .ok (some (some 12, true)) := by
  have h : ∀ r : Except Err (Option Pixel), (match r with | .ok p => decide (p = some (some 12, true)) | .error _ => false) = true →
      r = .ok (some (some 12, true)) := by
    intro r hr
    cases r with
    | error => simp at hr
    | ok p => simpa using hr
  exact h _ (by decide +kernel)

example : Regular (exGrid [0, 90, 180, 270, 360]).lon 0 (180 / (2 : ℕ)) (2 * 2 + 1) ∧ Fits (exGrid [0, 90, 180, 270, 360]) := by
  refine ⟨by unfold Regular; decide +kernel, rfl, rfl⟩

/-- **C114** (a defect) with an odd number of columns (interval 2) the western edge of the map shows the cell of the second column
from the date line: here the point 179 W shows the cell centred at 60 W although 179 W lies in the cell centred at 180 -/
theorem odd_columns_wrong : ∃ o : Sp ℚ, Regular o.lon 60 120 3 ∧ Regular o.lat (-45) 90 2 ∧ Fits o ∧
    Shows (image 2 "nearest" 120 o (-179) 30) o 1 2 ∧ ¬ NearLon 60 300 (-179) ∧ NearLon 60 180 (-179) := by
  have h : ∀ r : Except Err (Option Pixel), (match r with | .ok p => decide (p = some (some 12, true)) | .error _ => false) = true →
      r = .ok (some (some 12, true)) := by
    intro r hr
    cases r with
    | error => simp at hr
    | ok p => simpa using hr
  refine ⟨exGrid [60, 180, 300], by unfold Regular; decide +kernel, by unfold Regular; decide +kernel, ⟨rfl, rfl⟩, ?_, ?_, ?_⟩
  · have e : ((exGrid [60, 180, 300]).data (cell 1 2), (exGrid [60, 180, 300]).mask (cell 1 2)) = ((some 12, true) : Pixel) := by
      decide +kernel
    unfold Shows
    rw [e]
    exact h (image 2 "nearest" 120 (exGrid [60, 180, 300]) (-179) 30) (by decide +kernel)
  · rintro ⟨k, hk⟩
    have := abs_le.1 hk
    have h1 : (k : ℚ) < 0 := by linarith
    have h2 : (-2 : ℚ) < k := by linarith
    have h3 : k < 0 := by exact_mod_cast h1
    have h4 : -2 < k := by exact_mod_cast h2
    have : k = -1 := by omega
    rw [this] at hk
    norm_num at hk
  · exact ⟨-1, by norm_num [abs_le]⟩

end Verif.PlotGrid
