import Verif.Convert.Props

/-!
# C96: conversion of files written by the toolkit, square grids, runs that fail
-/
namespace Verif.Convert
open Verif.Analysis Verif.Units Verif.Harmonics
open Verif.SpatialIO.Data (Sp Arr expandDims updateMask Grid Consistent at3 atleast1d Attrs WOpts)

/-- C96: maps with different numbers of latitudes and longitudes: the output file holds the coefficients of the maps, missing cells
counting as zero -/
theorem convert_value (hdf5 : Bool) (E : Earth) (eps scalef : ℝ) (hs : scalef ≠ 0) (LMAX : ℕ) (hL : 2 ≤ LMAX) (MMAX : Option ℕ)
    (hM : MMAX.getD LMAX ≤ LMAX) (u : UnitArg) (kl df w : ℕ → ℝ) (sort : List ℚ → List ℕ) (hsort : ∀ ts, IsArgsort ts (sort ts))
    (root : Attrs) (f : SpatialIO.Data.File) (old : Option (HarmIO.Data.File ℝ)) (o : Sp)
    (hr : SpatialIO.Data.read {} true f = .ok o) (nlat nlon nt : ℕ) (hnt : 0 < nt) (h1 : 2 ≤ nlon) (h2 : 2 ≤ nlat)
    (hne : nlon ≠ nlat) (hg : Grid o nlat nlon nt) (hc : Consistent o)
    (hu : StokesSpec E u kl (axis o.lon) (axis o.lat) df w)
    (hpole : ∀ j < nlat, (-90 < axis o.lat j ∧ axis o.lat j < 90) ∨ w j = 0)
    (v : ℕ → ℕ → ℕ → ℚ) (hv : ∀ j < nlat, ∀ i < nlon, ∀ t < nt, Holds o j i t (v j i t)) :
    ∃ file out, convert hdf5 E eps scalef LMAX MMAX u kl sort true root f old = .ok file ∧ HarmIO.Data.read true file = .ok out ∧
      Converted out LMAX (MMAX.getD LMAX) df nlat nlon nt (axis o.lon) (axis o.lat) w (timeAt o) v := by
  obtain ⟨file, out, q, a1, a2, a3, a4, a5, a6, a7, a8, a9⟩ := convert_seen hdf5 E eps scalef hs LMAX hL MMAX hM u kl df w sort hsort root f
    old o hr nlat nlon nt hnt h1 h2 hg hc hu hpole v hv
  refine ⟨file, out, a1, a2, a3, a4, a5, a6, a7, q, a8, fun s t hst => ?_⟩
  have hsee : (seen nlat nlon fun j i => v j i t) = fun i j => ((v j i t : ℚ) : ℝ) := by
    funext i j
    unfold seen
    rw [if_neg hne]
  have := a9 s t hst
  rwa [hsee] at this

/-- C96, departure: on a square grid latitudes and longitudes of the maps that were read are exchanged -/
theorem convert_square (hdf5 : Bool) (E : Earth) (eps scalef : ℝ) (hs : scalef ≠ 0) (LMAX : ℕ) (hL : 2 ≤ LMAX) (MMAX : Option ℕ)
    (hM : MMAX.getD LMAX ≤ LMAX) (u : UnitArg) (kl df w : ℕ → ℝ) (sort : List ℚ → List ℕ) (hsort : ∀ ts, IsArgsort ts (sort ts))
    (root : Attrs) (f : SpatialIO.Data.File) (old : Option (HarmIO.Data.File ℝ)) (o : Sp)
    (hr : SpatialIO.Data.read {} true f = .ok o) (n nt : ℕ) (hnt : 0 < nt) (h2 : 2 ≤ n) (hg : Grid o n n nt) (hc : Consistent o)
    (hu : StokesSpec E u kl (axis o.lon) (axis o.lat) df w)
    (hpole : ∀ j < n, (-90 < axis o.lat j ∧ axis o.lat j < 90) ∨ w j = 0)
    (v : ℕ → ℕ → ℕ → ℚ) (hv : ∀ j < n, ∀ i < n, ∀ t < nt, Holds o j i t (v j i t)) :
    ∃ file out, convert hdf5 E eps scalef LMAX MMAX u kl sort true root f old = .ok file ∧ HarmIO.Data.read true file = .ok out ∧
      Converted out LMAX (MMAX.getD LMAX) df n n nt (axis o.lon) (axis o.lat) w (timeAt o) (fun j i t => v i j t) := by
  obtain ⟨file, out, q, a1, a2, a3, a4, a5, a6, a7, a8, a9⟩ := convert_seen hdf5 E eps scalef hs LMAX hL MMAX hM u kl df w sort hsort root f
    old o hr n n nt hnt h2 h2 hg hc hu hpole v hv
  refine ⟨file, out, a1, a2, a3, a4, a5, a6, a7, q, a8, fun s t hst => ?_⟩
  have hsee : (seen n n fun j i => v j i t) = fun i j => ((v i j t : ℚ) : ℝ) := by
    funext i j
    unfold seen
    rw [if_pos rfl]
  have := a9 s t hst
  rwa [hsee] at this

/-- a series or a single map that is not square, written and read -/
theorem written_read (hdf5 : Bool) (w : WOpts) (old : Option SpatialIO.Data.File) (o : Sp) (nlat nlon nt : ℕ)
    (hg : Grid o nlat nlon nt) (hc : Consistent o) (hn : w.names = {}) (hw : w.clobber = true ∨ old = none)
    (d : List (String × Attrs)) (hd : o.attrs = .dict d) (ha : ∀ a, w.attributes = some a → a.lookup "ROOT" ≠ none)
    (hdate : w.date = true) (h2 : nlat ≠ 1 ∧ nlon ≠ 1) (hsq : nt = 1 → nlat ≠ nlon) :
    ∃ o1 f o', SpatialIO.Data.write hdf5 w old o = .ok (o1, f) ∧ SpatialIO.Data.read {} true f = .ok o' ∧
      o'.lat = o.lat ∧ o'.lon = o.lon ∧ o'.time.flat = o.time.flat ∧ Grid o' nlat nlon nt ∧ Consistent o' ∧
      ∀ i j t, at3 o'.data i j t = at3 o.data i j t ∧ at3 o'.mask i j t = at3 o.mask i j t := by
  obtain ⟨o1, f, k0, k1, k2, k3, k4, _⟩ := SpatialIO.Data.write_spec hdf5 w old o nlat nlon nt hg hc
    (by rw [hn]; exact SpatialIO.Data.exDistinct) hw d hd ha (Or.inl hdate)
  obtain ⟨o', r, e0, e1, e2, e3, e4, e5, e6, e7, _⟩ := SpatialIO.Data.read_spec w o nlat nlon nt hg d f k1 k2 k3 _ k4 h2.1 h2.2 _ rfl
  rw [hn, hdate] at e0
  rw [hdate] at e2 e4
  simp only [if_true] at e2 e4
  have hz : ∃ sh, SpatialIO.Data.orient nlon ⟨[nlat, nlon, nt].filter fun n => n ≠ 1, o.data.flat⟩ =
      (⟨sh, o.data.flat⟩ : Arr (Option ℚ)) ∧ (sh = [nlat, nlon, nt] ∨ nt = 1 ∧ sh = [nlat, nlon]) := by
    by_cases h1 : nt = 1
    · refine ⟨[nlat, nlon], ?_, Or.inr ⟨h1, rfl⟩⟩
      have : ([nlat, nlon, nt].filter fun n => n ≠ 1) = [nlat, nlon] := by simp [h2, h1]
      rw [this]
      unfold SpatialIO.Data.orient
      simp only
      rw [if_neg (Ne.symm (hsq h1))]
    · refine ⟨[nlat, nlon, nt], ?_, Or.inl rfl⟩
      have : ([nlat, nlon, nt].filter fun n => n ≠ 1) = [nlat, nlon, nt] := by simp [h2, h1]
      rw [this]
      rfl
  obtain ⟨sh, hz, hsh⟩ := hz
  rw [hz] at e2 e4
  have hrm := SpatialIO.Data.read_mask { o with data := ⟨sh, o.data.flat⟩ } r hc (by
    show o.data.flat.length = o.mask.flat.length
    rw [hg.size.1, hg.size.2]) e2 e3 e4
  obtain ⟨t1, t2, t3, t4⟩ := updateMask_keeps r
  have htime := e7 hdate
  refine ⟨o1, f, o', k0, e0, by rw [e1, t2, e5], by rw [e1, t3, e6], by rw [e1, t1, htime]; rfl, ?_, ?_, ?_⟩
  · rw [e1]
    refine ⟨by rw [t2, e5]; exact hg.lat, by rw [t3, e6]; exact hg.lon, ?_, ?_, ?_, ?_⟩
    · rw [t1, htime]
      refine ⟨?_, hg.time.2⟩
      by_cases h1 : nt = 1
      · right; subst h1; exact ⟨rfl, rfl⟩
      · left; simp [SpatialIO.Data.squeeze, h1]
    · rw [hrm.1]; exact hsh
    · rw [hrm.1, hrm.2]
    · rw [hrm.1, hrm.2]; exact hg.size
  · rw [e1]
    intro k x b x1 x2
    rw [hrm.1] at x1
    rw [hrm.2] at x2
    rw [t4, e3]
    exact hc k x b x1 x2
  · intro i j t
    obtain ⟨q1, q2⟩ := SpatialIO.Data.at3_grid o nlat nlon nt hg i j t
    rw [e1, hrm.1, hrm.2, q1, q2]
    rcases hsh with rfl | ⟨rfl, rfl⟩
    · exact ⟨rfl, rfl⟩
    · rw [SpatialIO.Data.at3_one, SpatialIO.Data.at3_one]; exact ⟨rfl, rfl⟩

/-- a single square map, written and read: transposed -/
theorem written_square (hdf5 : Bool) (w : WOpts) (old : Option SpatialIO.Data.File) (o : Sp) (n : ℕ)
    (hg : Grid o n n 1) (hc : Consistent o) (hn : w.names = {}) (hw : w.clobber = true ∨ old = none)
    (d : List (String × Attrs)) (hd : o.attrs = .dict d) (ha : ∀ a, w.attributes = some a → a.lookup "ROOT" ≠ none)
    (hdate : w.date = true) (h2 : 2 ≤ n) :
    ∃ o1 f o', SpatialIO.Data.write hdf5 w old o = .ok (o1, f) ∧ SpatialIO.Data.read {} true f = .ok o' ∧
      o'.lat = o.lat ∧ o'.lon = o.lon ∧ o'.time.flat = o.time.flat ∧ Grid o' n n 1 ∧ Consistent o' ∧
      ∀ i j, i < n → j < n → at3 o'.data i j 0 = at3 o.data j i 0 ∧ at3 o'.mask i j 0 = at3 o.mask j i 0 := by
  obtain ⟨o1, f, k0, k1, k2, k3, k4, _⟩ := SpatialIO.Data.write_spec hdf5 w old o n n 1 hg hc
    (by rw [hn]; exact SpatialIO.Data.exDistinct) hw d hd ha (Or.inl hdate)
  obtain ⟨o', r, e0, e1, e2, e3, e4, e5, e6, e7, _⟩ := SpatialIO.Data.read_spec w o n n 1 hg d f k1 k2 k3 _ k4 (by omega) (by omega) _ rfl
  rw [hn, hdate] at e0
  rw [hdate] at e2 e4
  simp only [if_true] at e2 e4
  have hz : SpatialIO.Data.orient n ⟨[n, n, 1].filter fun n => n ≠ 1, o.data.flat⟩ =
      SpatialIO.Data.transpose (⟨[n, n], o.data.flat⟩ : Arr (Option ℚ)) := by
    have : ([n, n, 1].filter fun n => n ≠ 1) = [n, n] := by
      have : n ≠ 1 := by omega
      simp [this]
    rw [this]
    unfold SpatialIO.Data.orient
    simp only [if_true]
  rw [hz] at e2 e4
  have hs := hg.size
  have hct := SpatialIO.Data.transpose_consistent o hc n (by omega) (by omega) (by omega)
  have hrm := SpatialIO.Data.read_mask { o with data := SpatialIO.Data.transpose ⟨[n, n], o.data.flat⟩, mask := SpatialIO.Data.transpose ⟨[n, n], o.mask.flat⟩ } r
    hct (by simp only [SpatialIO.Data.transpose_length]) e2 e3 e4
  obtain ⟨t1, t2, t3, t4⟩ := updateMask_keeps r
  have htime := e7 hdate
  refine ⟨o1, f, o', k0, e0, by rw [e1, t2, e5], by rw [e1, t3, e6], by rw [e1, t1, htime]; rfl, ?_, ?_, ?_⟩
  · rw [e1]
    refine ⟨by rw [t2, e5]; exact hg.lat, by rw [t3, e6]; exact hg.lon, ?_, ?_, ?_, ?_⟩
    · rw [t1, htime]
      exact ⟨Or.inr ⟨rfl, rfl⟩, hg.time.2⟩
    · rw [hrm.1]; exact Or.inr ⟨rfl, rfl⟩
    · rw [hrm.1, hrm.2]
    · rw [hrm.1, hrm.2]
      simp [SpatialIO.Data.transpose_length]
  · rw [e1]
    intro k x b x1 x2
    rw [hrm.1] at x1
    rw [hrm.2] at x2
    rw [t4, e3]
    exact hct k x b x1 x2
  · intro i j hi hj
    obtain ⟨q1, q2⟩ := SpatialIO.Data.at3_grid o n n 1 hg j i 0
    rw [e1, hrm.1, hrm.2, q1, q2, SpatialIO.Data.at3_one, SpatialIO.Data.at3_one]
    exact ⟨SpatialIO.Data.transpose_at _ n (by omega) i j hi hj, SpatialIO.Data.transpose_at _ n (by omega) i j hi hj⟩

end Verif.Convert
