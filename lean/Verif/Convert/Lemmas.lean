import Verif.Convert.Spec
import Verif.Harmonics.Series

/-!
# Lemmas on `convert_harmonics`
-/
namespace Verif.Convert
open Verif.Analysis Verif.Units Verif.Harmonics
open Verif.SpatialIO.Data (Sp Arr expandDims updateMask Grid Consistent at3 atleast1d addDim)

/-- the maps of an object, dates aside -/
structure Shape (o : Sp) (nlat nlon nt : ℕ) : Prop where
  lat : o.lat.shape = [nlat] ∧ o.lat.flat.length = nlat
  lon : o.lon.shape = [nlon] ∧ o.lon.flat.length = nlon
  data : o.data.shape = [nlat, nlon, nt] ∨ nt = 1 ∧ o.data.shape = [nlat, nlon]
  mask : o.mask.shape = o.data.shape
  size : o.data.flat.length = nlat * nlon * nt ∧ o.mask.flat.length = nlat * nlon * nt

theorem Shape.grid (o : Sp) (nlat nlon nt : ℕ) (h : Shape o nlat nlon nt) :
    Grid { o with time := ⟨[nt], List.replicate nt none⟩ } nlat nlon nt :=
  ⟨h.lat, h.lon, ⟨Or.inl rfl, List.length_replicate⟩, h.data, h.mask, h.size⟩

theorem updateMask_time (o : Sp) (t : Arr (Option ℚ)) : updateMask { o with time := t } = { updateMask o with time := t } := by
  cases h : o.fill <;> simp [updateMask, h]

theorem updateMask_keeps (o : Sp) : (updateMask o).time = o.time ∧ (updateMask o).lat = o.lat ∧ (updateMask o).lon = o.lon ∧
    (updateMask o).fill = o.fill := by
  cases h : o.fill <;> simp [updateMask, h]

theorem expandDims_time (o : Sp) (t : Arr (Option ℚ)) :
    expandDims { o with time := t } = { expandDims o with time := atleast1d t } := by
  unfold expandDims
  rw [← updateMask_time]

/-- the maps after reading -/
theorem expand_shape (o : Sp) (nlat nlon nt : ℕ) (h : Shape o nlat nlon nt) (hc : Consistent o) :
    (expandDims o).lat = o.lat ∧ (expandDims o).lon = o.lon ∧ (expandDims o).time = atleast1d o.time ∧
      (expandDims o).data = ⟨[nlat, nlon, nt], o.data.flat⟩ ∧ (expandDims o).mask = ⟨[nlat, nlon, nt], o.mask.flat⟩ ∧
      (expandDims o).fill = o.fill := by
  have hc' : Consistent { o with time := ⟨[nt], List.replicate nt none⟩ } := hc
  obtain ⟨e1, e2, e3, e4, e5, e6, e7⟩ := SpatialIO.Data.expand_grid _ nlat nlon nt h.grid hc'
  rw [expandDims_time] at e1 e2 e4 e5 e6
  refine ⟨e1, e2, ?_, e4, e5, e6⟩
  unfold expandDims
  exact (updateMask_keeps _).1

theorem index_lt (nlat nlon nt j i t : ℕ) (hj : j < nlat) (hi : i < nlon) (ht : t < nt) :
    (j * nlon + i) * nt + t < nlat * nlon * nt := by
  have h1 : j * nlon + i < nlat * nlon := by nlinarith
  nlinarith

theorem zipWith_getD {A B C : Type} (f : A → B → C) (l : List A) (m : List B) (k : ℕ) (a : A) (b : B) (d : C) (ha : l[k]? = some a)
    (hb : m[k]? = some b) : (List.zipWith f l m).getD k d = f a b := by
  rw [List.getD_eq_getElem?_getD, List.getElem?_zipWith, ha, hb]
  rfl

/-- shape, axes and cells of the prepared maps -/
theorem prepared_cells (date : Bool) (f : SpatialIO.Data.File) (o : Sp) (hr : SpatialIO.Data.read {} date f = .ok o)
    (nlat nlon nt : ℕ) (h : Shape o nlat nlon nt) (hc : Consistent o) :
    ∃ p, prepared date f = .ok p ∧ p.lat = o.lat ∧ p.lon = o.lon ∧ p.time = atleast1d o.time ∧ p.data.shape = [nlat, nlon, nt] ∧
      ∀ j < nlat, ∀ i < nlon, ∀ t < nt, ∀ x, Holds o j i t x → cell p nlon nt j i t = some x := by
  obtain ⟨e1, e2, e3, e4, e5, e6⟩ := expand_shape o nlat nlon nt h hc
  have hce : Consistent (expandDims o) := by
    intro k x b h1 h2
    rw [e4] at h1
    rw [e5] at h2
    rw [e6]
    exact hc k x b h1 h2
  have hu : updateMask (expandDims o) = expandDims o :=
    SpatialIO.Data.updateMask_consistent _ hce (by rw [e4, e5]; exact h.size.1.trans h.size.2.symm)
  unfold prepared
  rw [hr]
  refine ⟨_, rfl, ?_, ?_, ?_, ?_, ?_⟩
  · simp only [replaceZero, hu, e1]
  · simp only [replaceZero, hu, e2]
  · simp only [replaceZero, hu, e3]
  · simp only [replaceZero, hu, e4]
  · intro j hj i hi t ht x hx
    unfold cell
    simp only [replaceZero, hu, e4, e5]
    have hk := index_lt nlat nlon nt j i t hj hi ht
    have hD : at3 o.data j i t = o.data.flat[(j * nlon + i) * nt + t]? ∧ at3 o.mask j i t = o.mask.flat[(j * nlon + i) * nt + t]? := by
      obtain ⟨q1, q2⟩ := SpatialIO.Data.at3_grid _ nlat nlon nt h.grid j i t
      rw [SpatialIO.Data.at3_three, if_pos ⟨hj, hi, ht⟩] at q1 q2
      exact ⟨q1, q2⟩
    rcases hx with ⟨m, d⟩ | ⟨m, rfl⟩
    · rw [hD.2] at m
      rw [hD.1] at d
      rw [zipWith_getD _ _ _ _ _ _ _ d m]
      rfl
    · rw [hD.2] at m
      rw [zipWith_getD _ _ _ _ _ _ _ (List.getElem?_eq_getElem (by rw [h.size.1]; exact hk)) m]
      rfl

/-- what `gen_stokes` sees of the values `v` (latitude, longitude): on square grids the map is transposed -/
def seen (nlat nlon : ℕ) (v : ℕ → ℕ → ℚ) (i j : ℕ) : ℝ := if nlon = nlat then ((v i j : ℚ) : ℝ) else ((v j i : ℚ) : ℝ)

theorem lonLat_seen (nlat nlon : ℕ) (h1 : 2 ≤ nlon) (h2 : 2 ≤ nlat) (w : ℕ → ℕ → ℝ) :
    GridOk ⟨nlon, nlat, w⟩ nlon nlat ∧ lonLat nlat ⟨nlon, nlat, w⟩ = fun i j => if nlon = nlat then w j i else w i j := by
  by_cases h : nlon = nlat
  · subst h
    obtain ⟨a, b⟩ := gridOk_latlon nlon nlon w h1 h2
    refine ⟨a, ?_⟩
    rw [b]
    simp
  · obtain ⟨a, b⟩ := gridOk_lonlat nlon nlat w h1 h2 h
    refine ⟨a, ?_⟩
    rw [b]
    simp [h]

/-- one map -/
theorem oneMap_value (E : Earth) (eps scalef : ℝ) (hs : scalef ≠ 0) (LMAX : ℕ) (hL : 2 ≤ LMAX) (MMAX : Option ℕ)
    (hM : MMAX.getD LMAX ≤ LMAX) (u : UnitArg) (kl df w : ℕ → ℝ) (date : Bool) (p : Sp) (nlat nlon nt t : ℕ) (h1 : 2 ≤ nlon) (h2 : 2 ≤ nlat)
    (hlon : p.lon.flat.length = nlon) (hlat : p.lat.flat.length = nlat) (hu : StokesSpec E u kl (axis p.lon) (axis p.lat) df w)
    (hpole : ∀ j < nlat, (-90 < axis p.lat j ∧ axis p.lat j < 90) ∨ w j = 0) (ht : t < p.time.shape.headD 0)
    (v : ℕ → ℕ → ℚ) (hv : ∀ j < nlat, ∀ i < nlon, cell p nlon nt j i t = some (v j i)) :
    ∃ y, oneMap E eps scalef LMAX MMAX u kl date p nlat nlon nt t = .ok y ∧ y.lmax = LMAX ∧ y.mmax = MMAX.getD LMAX ∧
      y.time = (if date then [timeAt p t] else []) ∧ y.month = (if date then [Time.calendarToGrace (timeAt p t)] else []) ∧
      IsExpansion LMAX (MMAX.getD LMAX) df nlon nlat (axis p.lon) (axis p.lat) w (seen nlat nlon v) (fun l m => y.clm l m 0)
        (fun l m => y.slm l m 0) := by
  have hmap : mapAt p nlat nlon nt t = some ⟨nlon, nlat, fun i j => (((cell p nlon nt j i t).getD 0 : ℚ) : ℝ)⟩ := by
    unfold mapAt
    rw [if_neg]
    rintro ⟨j, hj, i, hi, h⟩
    rw [hv j hj i hi] at h
    cases h
  obtain ⟨gk, ll⟩ := lonLat_seen nlat nlon h1 h2 fun i j => (((cell p nlon nt j i t).getD 0 : ℚ) : ℝ)
  obtain ⟨r, hr, hval⟩ := genStokes_correct E eps scalef hs _ nlon nlat (axis p.lon) (axis p.lat) 0 LMAX hL MMAX hM u kl df w gk hu hpole
  unfold oneMap
  rw [if_neg (by omega), hmap]
  simp only
  rw [hlon, hlat, hr]
  refine ⟨_, rfl, rfl, rfl, rfl, rfl, ?_⟩
  intro l m hl hm
  have hsum : ∀ f : ℝ → ℝ, cellSum nlon nlat f (trueP (axis p.lat) l m) w (phiRad (axis p.lon))
      (lonLat nlat ⟨nlon, nlat, fun i j => (((cell p nlon nt j i t).getD 0 : ℚ) : ℝ)⟩) m =
      integral f nlon nlat (axis p.lon) (axis p.lat) w (seen nlat nlon v) l m := by
    intro f
    unfold cellSum integral trueP
    apply Finset.sum_congr rfl; intro i hi
    apply Finset.sum_congr rfl; intro j hj
    rw [ll]
    have hi' := Finset.mem_range.1 hi
    have hj' := Finset.mem_range.1 hj
    have : (if nlon = nlat then (((cell p nlon nt i j t).getD 0 : ℚ) : ℝ) else (((cell p nlon nt j i t).getD 0 : ℚ) : ℝ)) =
        seen nlat nlon v i j := by
      unfold seen
      by_cases h : nlon = nlat
      · rw [if_pos h, if_pos h, hv i (by omega) j (by omega)]; rfl
      · rw [if_neg h, if_neg h, hv j hj' i hi']; rfl
    simp only
    rw [this]
  refine ⟨fun hml => ?_, fun hml => ?_⟩
  · obtain ⟨a, b⟩ := (hval l m).1 ⟨Nat.zero_le _, hl, hml, hm⟩
    rw [hsum] at a b
    exact ⟨a, b⟩
  · exact (hval l m).2 (by omega)

theorem mapM_all {A : Type} (f : ℕ → Except Err A) (P : ℕ → A → Prop) (n : ℕ) (h : ∀ t < n, ∃ y, f t = .ok y ∧ P t y) :
    ∃ ys, (List.range n).mapM f = .ok ys ∧ ys.length = n ∧ ∀ t < n, ∃ y, ys[t]? = some y ∧ P t y := by
  induction n with
  | zero => exact ⟨[], rfl, rfl, fun t ht => by omega⟩
  | succ n ih =>
    obtain ⟨ys, h1, h2, h3⟩ := ih fun t ht => h t (by omega)
    obtain ⟨y, hy, hp⟩ := h n (by omega)
    refine ⟨ys ++ [y], ?_, by simp [h2], ?_⟩
    · rw [List.range_succ, List.mapM_append, h1]
      simp [hy, bind, Except.bind, pure, Except.pure]
    · intro t ht
      by_cases hn : t < n
      · obtain ⟨z, hz, hq⟩ := h3 t hn
        exact ⟨z, by rw [List.getElem?_append_left (by omega)]; exact hz, hq⟩
      · have : t = n := by omega
        subst this
        exact ⟨y, by rw [List.getElem?_append_right (by omega), h2]; simp, hp⟩

end Verif.Convert
