import Verif.Convert.Props2

/-!
# C96: end to end, runs that fail, examples
-/
namespace Verif.Convert
open Verif.Analysis Verif.Units Verif.Harmonics
open Verif.SpatialIO.Data (Sp Arr expandDims updateMask Grid Consistent at3 atleast1d Attrs WOpts)

/-- C96: maps written by the toolkit (netCDF4 or HDF5, any earlier file) and converted: the output holds the coefficients of the maps that were
written, missing cells counting as zero.  Square grids are right only for a single map -/
theorem convert_written (hdf5 hdf5' : Bool) (E : Earth) (eps scalef : ℝ) (hs : scalef ≠ 0) (LMAX : ℕ) (hL : 2 ≤ LMAX) (MMAX : Option ℕ)
    (hM : MMAX.getD LMAX ≤ LMAX) (u : UnitArg) (kl df w : ℕ → ℝ) (sort : List ℚ → List ℕ) (hsort : ∀ ts, IsArgsort ts (sort ts))
    (root : Attrs) (old : Option (HarmIO.Data.File ℝ)) (o : Sp) (opts : WOpts) (before : Option SpatialIO.Data.File)
    (hn : opts.names = {}) (hw : opts.clobber = true ∨ before = none) (hdate : opts.date = true)
    (d : List (String × Attrs)) (hd : o.attrs = .dict d) (ha : ∀ a, opts.attributes = some a → a.lookup "ROOT" ≠ none)
    (nlat nlon nt : ℕ) (hnt : 0 < nt) (h1 : 2 ≤ nlon) (h2 : 2 ≤ nlat) (hsq : 1 < nt → nlon ≠ nlat)
    (hg : Grid o nlat nlon nt) (hc : Consistent o)
    (hu : StokesSpec E u kl (axis o.lon) (axis o.lat) df w)
    (hpole : ∀ j < nlat, (-90 < axis o.lat j ∧ axis o.lat j < 90) ∨ w j = 0)
    (v : ℕ → ℕ → ℕ → ℚ) (hv : ∀ j < nlat, ∀ i < nlon, ∀ t < nt, Holds o j i t (v j i t)) :
    ∃ o1 f file out, SpatialIO.Data.write hdf5 opts before o = .ok (o1, f) ∧
      convert hdf5' E eps scalef LMAX MMAX u kl sort true root f old = .ok file ∧ HarmIO.Data.read true file = .ok out ∧
      Converted out LMAX (MMAX.getD LMAX) df nlat nlon nt (axis o.lon) (axis o.lat) w (timeAt o) v := by
  by_cases hq : nlon = nlat
  · subst hq
    have h1t : nt = 1 := by
      by_contra h
      exact hsq (by omega) rfl
    subst h1t
    obtain ⟨o1, f, o', k1, k2, k3, k4, k5, k6, k7, k8⟩ := written_square hdf5 opts before o nlon hg hc hn hw d hd ha hdate h2
    obtain ⟨file, out, r1, r2, r3⟩ := convert_square hdf5' E eps scalef hs LMAX hL MMAX hM u kl df w sort hsort root f old o' k2 nlon 1
      hnt h2 k6 k7 (by rw [k3, k4]; exact hu) (by rw [k3]; exact hpole) (fun j i t => v i j t) (by
        intro j hj i hi t ht
        have : t = 0 := by omega
        subst this
        unfold Holds
        rw [(k8 j i hj hi).1, (k8 j i hj hi).2]
        exact hv i hi j hj 0 ht)
    have hta : timeAt o' = timeAt o := by funext t; unfold timeAt; rw [k5]
    rw [k3, k4, hta] at r3
    exact ⟨o1, f, file, out, k1, r1, r2, r3⟩
  · obtain ⟨o1, f, o', k1, k2, k3, k4, k5, k6, k7, k8⟩ := written_read hdf5 opts before o nlat nlon nt hg hc hn hw d hd ha hdate
      ⟨by omega, by omega⟩ (fun _ => Ne.symm hq)
    obtain ⟨file, out, r1, r2, r3⟩ := convert_value hdf5' E eps scalef hs LMAX hL MMAX hM u kl df w sort hsort root f old o' k2 nlat nlon nt
      hnt h1 h2 hq k6 k7 (by rw [k3, k4]; exact hu) (by rw [k3]; exact hpole) v (by
        intro j hj i hi t ht
        unfold Holds
        rw [(k8 j i t).1, (k8 j i t).2]
        exact hv j hj i hi t ht)
    have hta : timeAt o' = timeAt o := by funext t; unfold timeAt; rw [k5]
    rw [k3, k4, hta] at r3
    exact ⟨o1, f, file, out, k1, r1, r2, r3⟩

/-- C96, departure: a series of square maps written by the toolkit is converted to the coefficients of the transposed maps -/
theorem convert_written_square_series (hdf5 hdf5' : Bool) (E : Earth) (eps scalef : ℝ) (hs : scalef ≠ 0) (LMAX : ℕ) (hL : 2 ≤ LMAX)
    (MMAX : Option ℕ) (hM : MMAX.getD LMAX ≤ LMAX) (u : UnitArg) (kl df w : ℕ → ℝ) (sort : List ℚ → List ℕ)
    (hsort : ∀ ts, IsArgsort ts (sort ts))
    (root : Attrs) (old : Option (HarmIO.Data.File ℝ)) (o : Sp) (opts : WOpts) (before : Option SpatialIO.Data.File)
    (hn : opts.names = {}) (hw : opts.clobber = true ∨ before = none) (hdate : opts.date = true)
    (d : List (String × Attrs)) (hd : o.attrs = .dict d) (ha : ∀ a, opts.attributes = some a → a.lookup "ROOT" ≠ none)
    (n nt : ℕ) (hnt : 1 < nt) (h2 : 2 ≤ n) (hg : Grid o n n nt) (hc : Consistent o)
    (hu : StokesSpec E u kl (axis o.lon) (axis o.lat) df w)
    (hpole : ∀ j < n, (-90 < axis o.lat j ∧ axis o.lat j < 90) ∨ w j = 0)
    (v : ℕ → ℕ → ℕ → ℚ) (hv : ∀ j < n, ∀ i < n, ∀ t < nt, Holds o j i t (v j i t)) :
    ∃ o1 f file out, SpatialIO.Data.write hdf5 opts before o = .ok (o1, f) ∧
      convert hdf5' E eps scalef LMAX MMAX u kl sort true root f old = .ok file ∧ HarmIO.Data.read true file = .ok out ∧
      Converted out LMAX (MMAX.getD LMAX) df n n nt (axis o.lon) (axis o.lat) w (timeAt o) (fun j i t => v i j t) := by
  obtain ⟨o1, f, o', k1, k2, k3, k4, k5, k6, k7, k8⟩ := written_read hdf5 opts before o n n nt hg hc hn hw d hd ha hdate
    ⟨by omega, by omega⟩ (fun h => by omega)
  obtain ⟨file, out, r1, r2, r3⟩ := convert_square hdf5' E eps scalef hs LMAX hL MMAX hM u kl df w sort hsort root f old o' k2 n nt
    (by omega) h2 k6 k7 (by rw [k3, k4]; exact hu) (by rw [k3]; exact hpole) v (by
      intro j hj i hi t ht
      unfold Holds
      rw [(k8 j i t).1, (k8 j i t).2]
      exact hv j hj i hi t ht)
  have hta : timeAt o' = timeAt o := by funext t; unfold timeAt; rw [k5]
  rw [k3, k4, hta] at r3
  exact ⟨o1, f, file, out, k1, r1, r2, r3⟩

theorem mapM_error {A : Type} (f : ℕ → Except Err A) (n t : ℕ) (ht : t < n) (e : Err) (h : f t = .error e)
    (hb : ∀ s < t, ∃ y, f s = .ok y) : (List.range n).mapM f = .error e := by
  obtain ⟨ys, h1, -, -⟩ := mapM_all f (fun _ _ => True) t fun s hs => by
    obtain ⟨y, hy⟩ := hb s hs
    exact ⟨y, hy, trivial⟩
  have : List.range n = List.range t ++ t :: (List.range (n - t - 1)).map fun i => t + 1 + i := by
    apply List.ext_getElem (by simp; omega)
    intro i a b
    simp only [List.getElem_range]
    rcases Nat.lt_trichotomy i t with h | h | h
    · rw [List.getElem_append_left (by simpa using h)]; simp
    · subst h; rw [List.getElem_append_right (by simp)]; simp
    · rw [List.getElem_append_right (by simp; omega), List.getElem_cons]
      rw [dif_neg (by simp; omega)]
      simp; omega
  rw [this, List.mapM_append, h1]
  simp [h, bind, Except.bind]

/-- C96, departure: without dates a series of two or more maps cannot be converted: an IndexError after the first map -/
theorem convert_undated_series (hdf5 : Bool) (E : Earth) (eps scalef : ℝ) (hs : scalef ≠ 0) (LMAX : ℕ) (hL : 2 ≤ LMAX) (MMAX : Option ℕ)
    (hM : MMAX.getD LMAX ≤ LMAX) (u : UnitArg) (kl df w : ℕ → ℝ) (sort : List ℚ → List ℕ)
    (root : Attrs) (f : SpatialIO.Data.File) (old : Option (HarmIO.Data.File ℝ)) (o : Sp)
    (hr : SpatialIO.Data.read {} false f = .ok o) (nlat nlon nt : ℕ) (hnt : 1 < nt) (h1 : 2 ≤ nlon) (h2 : 2 ≤ nlat)
    (hS : Shape o nlat nlon nt) (hc : Consistent o)
    (hu : StokesSpec E u kl (axis o.lon) (axis o.lat) df w)
    (hpole : ∀ j < nlat, (-90 < axis o.lat j ∧ axis o.lat j < 90) ∨ w j = 0)
    (v : ℕ → ℕ → ℕ → ℚ) (hv : ∀ j < nlat, ∀ i < nlon, ∀ t < nt, Holds o j i t (v j i t)) :
    convert hdf5 E eps scalef LMAX MMAX u kl sort false root f old = .error .indexError := by
  obtain ⟨p, p1, p2, p3, p4, p5, p6⟩ := prepared_cells false f o hr nlat nlon nt hS hc
  have hot : o.time.shape = [] := by
    unfold SpatialIO.Data.read at hr
    simp only [SpatialIO.Data.getTime, Bool.false_eq_true, if_false, bind, Except.bind] at hr
    split at hr
    · cases hr
    split at hr
    · cases hr
    split at hr
    · cases hr
    unfold SpatialIO.Data.assemble at hr
    split at hr
    · cases hr
    · cases hr
      rw [(updateMask_keeps _).1]
  have hpt : p.time.shape.headD 0 = 1 := by
    rw [p4]
    unfold atleast1d
    rw [if_pos hot]
    rfl
  obtain ⟨y, y1, -⟩ := oneMap_value E eps scalef hs LMAX hL MMAX hM u kl df w false p nlat nlon nt 0 h1 h2 (by rw [p3]; exact hS.lon.2)
    (by rw [p2]; exact hS.lat.2) (by rw [p2, p3]; exact hu) (by rw [p2]; exact hpole) (by omega) (fun j i => v j i 0)
    (fun j hj i hi => p6 j hj i hi 0 (by omega) _ (hv j hj i hi 0 (by omega)))
  have hm := mapM_error (oneMap E eps scalef LMAX MMAX u kl false p nlat nlon nt) nt 1 hnt .indexError
    (by unfold oneMap; rw [if_pos (by omega)]) (fun s hs => by
      have : s = 0 := by omega
      subst this
      exact ⟨y, y1⟩)
  unfold convert coefficients
  rw [p1]
  simp only
  rw [p5]
  simp only
  rw [hm]

/-- C96, departure: text files are never converted -/
theorem convertText_fails (E : Earth) (eps scalef : ℝ) (LMAX : ℕ) (MMAX : Option ℕ) (u : UnitArg) (kl : ℕ → ℝ) (sort : List ℚ → List ℕ)
    (date : Bool) (o : Option Sp) : ∃ e, convertText E eps scalef LMAX MMAX u kl sort date o = .error e := by
  unfold convertText
  cases o with
  | none => exact ⟨_, rfl⟩
  | some o =>
    simp only
    cases hc : coefficients E eps scalef LMAX MMAX u kl sort date o with
    | error e => exact ⟨_, rfl⟩
    | ok h =>
      have hn : ∃ n, h.nt = some n := by
        have hl : ∀ (ys : List (Harm ℝ)) q r, fromList ys q = .ok r → ∃ n, r.nt = some n := by
          intro ys q r hr
          unfold fromList at hr
          split at hr
          · cases hr; exact ⟨_, rfl⟩
          · cases hr
        unfold coefficients at hc
        split at hc
        · split at hc
          · cases hc
          · unfold collect at hc
            split at hc
            · split at hc
              · rename_i hh; cases hc; exact hl _ _ _ hh
              · cases hc
            · split at hc
              · rename_i hh
                cases hc
                obtain ⟨n, hn⟩ := hl _ _ _ hh
                exact ⟨n, hn⟩
              · cases hc
        · cases hc
      obtain ⟨n, hn⟩ := hn
      simp only [textOf, hn]
      exact ⟨_, rfl⟩

/-! ## Examples: the hypotheses are met by the 2 × 3 map of Verif.SpatialIO with a missing cell and by square maps -/

/-- a sorting permutation exists for all dates -/
theorem argsort_exists : ∃ sort : List ℚ → List ℕ, ∀ ts, IsArgsort ts (sort ts) := by
  refine ⟨fun ts => (List.range ts.length).mergeSort fun i j => decide (ts.getD i 0 ≤ ts.getD j 0), fun ts => ⟨List.mergeSort_perm _ _, ?_⟩⟩
  have := List.pairwise_mergeSort (le := fun i j : ℕ => decide (ts.getD i 0 ≤ ts.getD j 0))
    (fun a b c h1 h2 => by simp only [decide_eq_true_eq] at h1 h2 ⊢; exact le_trans h1 h2)
    (fun a b => by simp only [Bool.or_eq_true, decide_eq_true_eq]; exact le_total _ _) (List.range ts.length)
  exact this.imp fun h => by simpa using h

theorem ex_axis (a : Arr (Option ℚ)) (x : ℚ) (j : ℕ) (h : a.flat[j]? = some (some x)) : axis a j = x := by
  unfold axis
  rw [List.getD_eq_getElem?_getD, h]
  rfl

example (kl : ℕ → ℝ) : ∃ sort df w v o1 f file out, SpatialIO.Data.write false {} none SpatialIO.Data.exGrid = .ok (o1, f) ∧
    convert true Earth.default 1 1 2 none (.code 1) kl sort true [] f none = .ok file ∧ HarmIO.Data.read true file = .ok out ∧
    Converted out 2 2 df 2 3 1 (axis SpatialIO.Data.exGrid.lon) (axis SpatialIO.Data.exGrid.lat) w (timeAt SpatialIO.Data.exGrid) v ∧
    v 1 0 0 = 4 ∧ v 0 2 0 = 0 := by
  obtain ⟨sort, hsort⟩ := argsort_exists
  obtain ⟨o1, f, file, out, r1, r2, r3, r4⟩ := convert_written false true Earth.default 1 1 (by norm_num) 2 (by norm_num) none (by simp)
    (.code 1) kl _ _ sort hsort [] none SpatialIO.Data.exGrid {} none rfl (Or.inl rfl) rfl _ rfl (by intro a h; simp at h) 2 3 1 (by norm_num)
    (by norm_num) (by norm_num) (by norm_num) SpatialIO.Data.exGrid_grid SpatialIO.Data.exGrid_consistent
    (Or.inr (Or.inl ⟨rfl, rfl, rfl⟩)) (by
      intro j hj
      left
      interval_cases j
      · rw [ex_axis _ 1 0 rfl]; norm_num
      · rw [ex_axis _ 0 1 rfl]; norm_num)
    (fun j i _ => if (j, i) = (0, 2) then 0 else j * 3 + i + 1) (by
      intro j hj i hi t ht
      interval_cases j <;> interval_cases i <;> interval_cases t <;> first | (left; decide +kernel) | (right; decide +kernel))
  exact ⟨sort, _, _, _, o1, f, file, out, r1, r2, r3, r4, by norm_num, by norm_num⟩

/-- two square maps -/
def exSeries : Sp :=
  { lat := ⟨[2], [some 1, some 0]⟩, lon := ⟨[2], [some 0, some 1]⟩, time := ⟨[2], [some 2004, some 2005]⟩
    data := ⟨[2, 2, 2], [some 1, some 2, some 3, some 4, some 5, some 6, some 7, some 8]⟩
    mask := ⟨[2, 2, 2], [false, false, false, false, false, false, false, false]⟩
    fill := none, attrs := .dict [] }

theorem exSeries_consistent : Consistent exSeries := by
  intro k x b h1 h2
  have hk : k < 8 := by
    by_contra hk
    rw [List.getElem?_eq_none (by show 8 ≤ k; omega)] at h1
    simp at h1
  interval_cases k <;> simp [exSeries] at h1 h2 ⊢ <;> exact h2

example (kl : ℕ → ℝ) (sort : List ℚ → List ℕ) (hsort : ∀ ts, IsArgsort ts (sort ts)) :=
  convert_written_square_series false true Earth.default 1 1 (by norm_num) 2 (by norm_num) none (by simp)
    (.code 1) kl _ _ sort hsort [] none exSeries {} none rfl (Or.inl rfl) rfl _ rfl (by intro a h; simp at h) 2 2 (by norm_num)
    (by norm_num) (by constructor <;> decide) exSeries_consistent
    (Or.inr (Or.inl ⟨rfl, rfl, rfl⟩)) (by
      intro j hj
      left
      interval_cases j
      · rw [ex_axis _ 1 0 rfl]; norm_num
      · rw [ex_axis _ 0 1 rfl]; norm_num)
    (fun j i t => j * 4 + i * 2 + t + 1) (by
      intro j hj i hi t ht
      interval_cases j <;> interval_cases i <;> interval_cases t <;> (left; decide +kernel))

end Verif.Convert
