import Verif.SpatialIndex.Props
import Verif.HarmIO.IndexFiles
import Mathlib.Tactic.FinCases

/-!
# C116: theorems on series of grids in index files
-/
set_option linter.unusedSectionVars false
namespace Verif.SpatialIndex
open Verif.SpatialIO.Data
open Verif.SpatialIO (isFill)
open Verif.HarmIO.Data (Path compress resolve splitLines keepLine Valid indexText indexText_lines resolve_compress)

/-- a series on a grid of `nlat` by `nlon` points with `nt` dates -/
structure Series (o : Sp) (nlat nlon nt : ℕ) : Prop where
  grid : Grid o nlat nlon nt
  cons : Consistent o
  data : o.data.shape = [nlat, nlon, nt]
  time : o.time.shape = [nt]

/-- options of the writer: files with dates and different names, overwritten if they exist -/
structure Options (w : WOpts) : Prop where
  names : Distinct w.names
  clobber : w.clobber = true
  date : w.date = true
  attrs : ∀ a, w.attributes = some a → a.lookup "ROOT" ≠ none

/-- the objects read from the files of an index, and what is made of them -/
theorem round_trip_aux (hdf5 : Bool) (w : WOpts) (hw : Options w) (o : Sp) (nlat nlon nt : ℕ) (ho : Series o nlat nlon nt)
    (h2 : 1 < nlat ∧ 1 < nlon) (files : List Path) (hne : files ≠ []) (hk : files.length ≤ nt) (hnd : files.Nodup)
    (hv : ∀ f ∈ files, Valid f) (home cwd : Path) (fs : Path → Option File) :
    ∃ fs' txt, toIndex (some (dataWriter hdf5 w)) true home o files fs = .ok (fs', txt) ∧ (∀ f, f ∉ files → fs' f = fs f) ∧
      ∀ p : List ℕ, p.length = files.length → (∀ s ∈ p, s < files.length) →
        ∃ r, fromIndex true w.names true home cwd fs' txt p = .ok r ∧ r.lat = o.lat ∧ r.lon = o.lon ∧ r.fill = o.fill ∧
          r.time = ⟨[files.length], p.map fun s => o.time.flat.getD s none⟩ ∧
          r.data.shape = [nlat, nlon, files.length] ∧ r.mask.shape = [nlat, nlon, files.length] ∧
          ∀ i j t s, p[t]? = some s →
            at3 r.data i j t = (if nlat = nlon then at3 o.data j i s else at3 o.data i j s) ∧
            at3 r.mask i j t = (if nlat = nlon then at3 o.mask j i s else at3 o.mask i j s) := by
  have hcodec : ∀ i, i < nt → ∀ old, ∃ s c, index true o i = .ok (some s) ∧ dataWriter hdf5 w s old = .ok c ∧
      ∃ r, read w.names true c = .ok r ∧ IsDate o s nlat nlon i ∧ IsBack s r nlat nlon := by
    intro i hi old
    obtain ⟨s, h1, h3⟩ := index_date o nlat nlon nt i ho.grid ho.cons ho.data ho.time ⟨by omega, by omega⟩ hi
    obtain ⟨f, r, h4, h5, h6⟩ := file_back hdf5 w old s nlat nlon h3.grid h3.cons hw.names hw.clobber h3.attrs hw.attrs hw.date h2
    exact ⟨s, f, h1, h4, r, h5, h3, h6⟩
  obtain ⟨fs', e1, e2, e3⟩ := writing_loop (dataWriter hdf5 w) home o nt
    (fun i c => ∃ s r, read w.names true c = .ok r ∧ IsDate o s nlat nlon i ∧ IsBack s r nlat nlon)
    (fun i hi old => by
      obtain ⟨s, c, a1, a2, r, a3, a4, a5⟩ := hcodec i hi old
      exact ⟨s, c, a1, a2, s, r, a3, a4, a5⟩) files 0 fs [] (by omega) hnd
  rw [List.nil_append] at e1
  obtain ⟨objs, r1, r2, r3⟩ := mapM_ok (readEntry w.names true home cwd fs') (files.map (compress home))
    (fun i r => ∃ s, IsDate o s nlat nlon i ∧ IsBack s r nlat nlon)
    (by
      intro i x hx
      rw [List.getElem?_map, Option.map_eq_some_iff] at hx
      obtain ⟨f, hf, rfl⟩ := hx
      obtain ⟨c, h1, s, r, h3, h4, h5⟩ := e2 i f hf
      rw [Nat.zero_add] at h4
      refine ⟨r, ?_, s, h4, h5⟩
      unfold readEntry
      rw [resolve_compress home cwd f (hv f (List.mem_of_getElem? hf)), h1]
      exact h3)
  rw [List.length_map] at r2
  refine ⟨fs', indexText home files, e1, e3, ?_⟩
  intro p hp1 hp2
  have hlen : 0 < objs.length := by rw [r2]; exact List.length_pos_iff.2 hne
  obtain ⟨o0, rest, hobjs⟩ : ∃ o0 rest, objs = o0 :: rest := by
    cases objs with
    | nil => simp at hlen
    | cons a b => exact ⟨a, b, rfl⟩
  obtain ⟨s0, hs0, hb0⟩ := r3 0 o0 (by rw [hobjs]; rfl)
  have hsh0 : o0.data.shape = [nlat, nlon] := by rw [hb0.data, back_shape]
  have hall : (objs.all fun o => decide (o.data.shape = [nlat, nlon] ∧ (True → o.time.flat.length = 1))) = true := by
    rw [List.all_eq_true]
    intro x hx
    obtain ⟨i, hi⟩ := List.mem_iff_getElem?.1 hx
    obtain ⟨s, hs, hb⟩ := r3 i x hi
    rw [decide_eq_true_eq]
    exact ⟨by rw [hb.data, back_shape], fun _ => by rw [hb.time, hs.time]; rfl⟩
  have htime : ∀ s, s < files.length → ((objs[s]?).bind fun o => o.time.flat[0]?).getD none = o.time.flat.getD s none := by
    intro s hs
    have hs' : s < objs.length := by omega
    obtain ⟨x, hx⟩ : ∃ x, objs[s]? = some x := ⟨objs[s], List.getElem?_eq_getElem hs'⟩
    obtain ⟨y, hy, hb⟩ := r3 s x hx
    rw [hx, Option.bind_some, hb.time, hy.time]
    rfl
  -- the merged object before the mask is updated
  set D : Arr (Option ℚ) := ⟨[nlat, nlon, objs.length],
    (List.range (nlat * nlon * objs.length)).map fun k : ℕ => cellOf (fun o => o.data.flat) (some 0) objs p objs.length k⟩ with hD
  set M : Arr Bool := ⟨[nlat, nlon, objs.length],
    (List.range (nlat * nlon * objs.length)).map fun k : ℕ => cellOf (fun o => o.mask.flat) false objs p objs.length k⟩ with hM
  have hat : fromList true objs p = .ok (updateMask ⟨o0.lon, o0.lat,
      ⟨[objs.length], p.map fun i => ((objs[i]?).bind fun o => o.time.flat[0]?).getD none⟩, D, M, o0.fill, metaOf objs p⟩) := by
    have : fromList true objs p = fromList true (o0 :: rest) p := by rw [hobjs]
    rw [this]
    unfold fromList
    simp only [hsh0]
    rw [← hobjs, if_pos hall]
    simp only [if_true]
    rfl
  set u : Sp := ⟨o0.lon, o0.lat, ⟨[objs.length], p.map fun i => ((objs[i]?).bind fun o => o.time.flat[0]?).getD none⟩, D, M,
    o0.fill, metaOf objs p⟩ with hu
  have hget : ∀ t, t < objs.length → ∃ s x y, p[t]? = some s ∧ objs[s]? = some x ∧ IsDate o y nlat nlon s ∧ IsBack y x nlat nlon := by
    intro t ht
    have htp : t < p.length := by omega
    have hs : p[t] < objs.length := by rw [r2]; exact hp2 _ (List.getElem_mem htp)
    obtain ⟨y, hy, hb⟩ := r3 p[t] objs[p[t]] (List.getElem?_eq_getElem hs)
    exact ⟨p[t], objs[p[t]], y, List.getElem?_eq_getElem htp, List.getElem?_eq_getElem hs, hy, hb⟩
  have hbl : ∀ x y s, IsDate o y nlat nlon s → IsBack y x nlat nlon → x.data.flat.length = nlat * nlon ∧ x.mask.flat.length = nlat * nlon := by
    intro x y s hy hb
    have hs := hy.grid.size
    rw [mul_one] at hs
    exact ⟨by rw [hb.data]; exact back_length _ _ _ hs.1, by rw [hb.mask]; exact back_length _ _ _ hs.2⟩
  have hcu : Consistent u := by
    intro k x b hx hb
    have hk : k < nlat * nlon * objs.length := by
      have := (List.getElem?_eq_some_iff.1 hx).1
      simpa [hu, hD] using this
    have ht : k % objs.length < objs.length := Nat.mod_lt _ hlen
    obtain ⟨s, z, y, g1, g2, g3, g4⟩ := hget _ ht
    obtain ⟨l1, l2⟩ := hbl z y s g3 g4
    have hq : k / objs.length < nlat * nlon := Nat.div_lt_of_lt_mul (by rw [Nat.mul_comm]; exact hk)
    have hke : k / objs.length * objs.length + k % objs.length = k := Nat.div_add_mod' k _
    have q1 := cellOf_eq (fun o => o.data.flat) (some 0) objs p objs.length (k / objs.length) _ s z ht g1 g2 (by simpa [l1] using hq)
    have q2 := cellOf_eq (fun o => o.mask.flat) false objs p objs.length (k / objs.length) _ s z ht g1 g2 (by simpa [l2] using hq)
    rw [hke] at q1 q2
    simp only [hu, hD, hM, List.getElem?_map, List.getElem?_range hk, Option.map_some] at hx hb
    rw [hx] at q1
    rw [hb] at q2
    have := g4.cons _ x b q1.symm q2.symm
    rw [g4.fill, g3.fill] at this
    show match o0.fill with | none => b = false | some f => (b = true ↔ x = f) ∧ (x = none → f = none)
    rw [hb0.fill, hs0.fill]
    exact this
  have hum : updateMask u = u := updateMask_consistent u hcu (by simp [hu, hD, hM])
  rw [hum] at hat
  refine ⟨u, ?_, by rw [← hs0.lat, ← hb0.lat], by rw [← hs0.lon, ← hb0.lon], by rw [← hs0.fill, ← hb0.fill], ?_, ?_, ?_, ?_⟩
  · unfold fromIndex
    simp only [if_true]
    rw [indexText_lines home files hv, r1]
    exact hat
  · rw [hu]
    simp only [r2]
    congr 1
    exact List.map_congr_left fun s hs => htime s (hp2 s hs)
  · simp [hu, hD, r2]
  · simp [hu, hM, r2]
  · intro i j t s hs
    have ht : t < objs.length := by
      have := (List.getElem?_eq_some_iff.1 hs).1
      omega
    obtain ⟨s', x, y, g1, g2, g3, g4⟩ := hget t ht
    have hss : s' = s := by rw [g1] at hs; exact Option.some.inj hs
    subst hss
    obtain ⟨l1, l2⟩ := hbl x y s' g3 g4
    have hsz := g3.grid.size
    rw [mul_one] at hsz
    have hyd : (⟨[nlat, nlon], y.data.flat⟩ : Arr (Option ℚ)) = y.data := by rw [← g3.shape]
    have hym : (⟨[nlat, nlon], y.mask.flat⟩ : Arr Bool) = y.mask := by rw [← g3.shape, ← g3.grid.mask]
    have hxd : (⟨[nlat, nlon], x.data.flat⟩ : Arr (Option ℚ)) = back nlat nlon y.data.flat := by
      rw [g4.data, ← back_shape nlat nlon y.data.flat]
    have hxm : (⟨[nlat, nlon], x.mask.flat⟩ : Arr Bool) = back nlat nlon y.mask.flat := by
      rw [g4.mask, ← back_shape nlat nlon y.mask.flat]
    constructor
    · show at3 D i j t = _
      rw [hD, at3_cells (fun o => o.data.flat) (some 0) objs p nlat nlon objs.length t s' x ht g1 g2 l1 i j, hxd,
        back_at _ _ _ hsz.1, hyd, g3.data, g3.data]
    · show at3 M i j t = _
      rw [hM, at3_cells (fun o => o.mask.flat) false objs p nlat nlon objs.length t s' x ht g1 g2 l2 i j, hxm,
        back_at _ _ _ hsz.2, hym, g3.mask, g3.mask]

/-- C116: a series on a grid that is not square, written to an index of netCDF4 or HDF5 files and read back in the order `p`, has at
date `t` the values, the mask and the time of date `p t` of the series.  Other files are not touched. -/
theorem index_round_trip (hdf5 : Bool) (w : WOpts) (hw : Options w) (o : Sp) (nlat nlon nt : ℕ) (ho : Series o nlat nlon nt)
    (h2 : 1 < nlat ∧ 1 < nlon) (hsq : nlat ≠ nlon) (files : List Path) (hne : files ≠ []) (hk : files.length ≤ nt)
    (hnd : files.Nodup) (hv : ∀ f ∈ files, Valid f) (home cwd : Path) (fs : Path → Option File) :
    ∃ fs' txt, toIndex (some (dataWriter hdf5 w)) true home o files fs = .ok (fs', txt) ∧ (∀ f, f ∉ files → fs' f = fs f) ∧
      ∀ p : List ℕ, p.length = files.length → (∀ s ∈ p, s < files.length) →
        ∃ r, fromIndex true w.names true home cwd fs' txt p = .ok r ∧ r.lat = o.lat ∧ r.lon = o.lon ∧ r.fill = o.fill ∧
          r.time = ⟨[files.length], p.map fun s => o.time.flat.getD s none⟩ ∧
          r.data.shape = [nlat, nlon, files.length] ∧ r.mask.shape = [nlat, nlon, files.length] ∧
          ∀ i j t s, p[t]? = some s → at3 r.data i j t = at3 o.data i j s ∧ at3 r.mask i j t = at3 o.mask i j s := by
  obtain ⟨fs', txt, a, b, c⟩ := round_trip_aux hdf5 w hw o nlat nlon nt ho h2 files hne hk hnd hv home cwd fs
  refine ⟨fs', txt, a, b, fun p h1 h3 => ?_⟩
  obtain ⟨r, d1, d2, d3, d4, d5, d6, d7, d8⟩ := c p h1 h3
  refine ⟨r, d1, d2, d3, d4, d5, d6, d7, fun i j t s hs => ?_⟩
  have := d8 i j t s hs
  rwa [if_neg hsq, if_neg hsq] at this

/-- C116: with as many names as dates and increasing times, the series that is read is the series itself. -/
theorem index_round_trip_all (hdf5 : Bool) (w : WOpts) (hw : Options w) (o : Sp) (nlat nlon nt : ℕ) (ho : Series o nlat nlon nt)
    (h2 : 1 < nlat ∧ 1 < nlon) (hsq : nlat ≠ nlon) (files : List Path) (hne : files ≠ []) (hk : files.length = nt)
    (hnd : files.Nodup) (hv : ∀ f ∈ files, Valid f) (home cwd : Path) (fs : Path → Option File) (times : List ℚ)
    (ht : o.time.flat = times.map some) (hs : times.Pairwise (· < ·)) (p : List ℕ) (hp : Verif.Harmonics.IsArgsort times p) :
    ∃ fs' txt r, toIndex (some (dataWriter hdf5 w)) true home o files fs = .ok (fs', txt) ∧
      fromIndex true w.names true home cwd fs' txt p = .ok r ∧ r.lat = o.lat ∧ r.lon = o.lon ∧ r.fill = o.fill ∧ r.time = o.time ∧
      ∀ i j t, t < nt → at3 r.data i j t = at3 o.data i j t ∧ at3 r.mask i j t = at3 o.mask i j t := by
  obtain ⟨fs', txt, a, b, c⟩ := index_round_trip hdf5 w hw o nlat nlon nt ho h2 hsq files hne (by omega) hnd hv home cwd fs
  have hlen : times.length = nt := by
    have := ho.grid.time.2
    rw [ht, List.length_map] at this
    exact this
  have hpr := Verif.HarmIO.Data.argsort_increasing times p hs hp
  obtain ⟨r, d1, d2, d3, d4, d5, -, -, d8⟩ := c p (by rw [hpr, List.length_range]; omega) (by
    intro s hs'
    rw [hpr, List.mem_range] at hs'
    omega)
  refine ⟨fs', txt, r, a, d1, d2, d3, d4, ?_, fun i j t h => d8 i j t t ?_⟩
  · rw [d5, hpr]
    have e1 : ((List.range times.length).map fun s => o.time.flat.getD s none) = o.time.flat := by
      apply List.ext_getElem?
      intro i
      rw [List.getElem?_map]
      by_cases hi : i < times.length
      · rw [List.getElem?_range hi, Option.map_some, List.getD_eq_getElem?_getD, ht, List.getElem?_map, List.getElem?_eq_getElem hi]
        rfl
      · rw [List.getElem?_eq_none (by simpa using hi), List.getElem?_eq_none (by rw [ht]; simpa using hi)]
        rfl
    rw [e1, hk, ← ho.time]
  · rw [hpr, List.getElem?_range (by omega)]

/-- C116 (negative): on a square grid every map of the series comes back with rows and columns exchanged, while latitudes and
longitudes stay. -/
theorem index_square_transposed (hdf5 : Bool) (w : WOpts) (hw : Options w) (o : Sp) (n nt : ℕ) (ho : Series o n n nt)
    (h2 : 1 < n) (files : List Path) (hne : files ≠ []) (hk : files.length ≤ nt)
    (hnd : files.Nodup) (hv : ∀ f ∈ files, Valid f) (home cwd : Path) (fs : Path → Option File) :
    ∃ fs' txt, toIndex (some (dataWriter hdf5 w)) true home o files fs = .ok (fs', txt) ∧
      ∃ r, fromIndex true w.names true home cwd fs' txt (List.range files.length) = .ok r ∧ r.lat = o.lat ∧ r.lon = o.lon ∧
        ∀ i j t, t < files.length → at3 r.data i j t = at3 o.data j i t ∧ at3 r.mask i j t = at3 o.mask j i t := by
  obtain ⟨fs', txt, a, b, c⟩ := round_trip_aux hdf5 w hw o n n nt ho ⟨h2, h2⟩ files hne hk hnd hv home cwd fs
  refine ⟨fs', txt, a, ?_⟩
  obtain ⟨r, d1, d2, d3, -, -, -, -, d8⟩ := c (List.range files.length) List.length_range fun s hs => List.mem_range.1 hs
  refine ⟨r, d1, d2, d3, fun i j t ht => ?_⟩
  have := d8 i j t t (List.getElem?_range ht)
  rwa [if_pos rfl, if_pos rfl] at this

/-! ## What goes wrong -/

theorem foldlM_prefix (wr : Option (Sp → Option File → Except Err File)) (date : Bool) (home : Path) (o : Sp) (e : Err) (i : ℕ)
    (h : index date o i = .error e) : ∀ (files : List Path) (k : ℕ) (st : (Path → Option File) × List Char),
      k ≤ i → i < k + files.length → ∀ r, (files.zipIdx k).foldlM (writeEntry wr date home o) st ≠ .ok r := by
  intro files
  induction files with
  | nil => intro k st h1 h2; simp at h2; omega
  | cons f rest ih =>
    intro k st h1 h2 r hr
    rw [List.zipIdx_cons, List.foldlM_cons] at hr
    rw [List.length_cons] at h2
    by_cases hki : k = i
    · subst hki
      have : writeEntry wr date home o st (f, k) = .error e := by
        unfold writeEntry; rw [h]; rfl
      rw [this] at hr
      simp [bind, Except.bind] at hr
    · cases hs : writeEntry wr date home o st (f, k) with
      | error x => rw [hs] at hr; simp [bind, Except.bind] at hr
      | ok st' =>
        rw [hs] at hr
        exact ih (k + 1) st' (by omega) (by omega) r hr

/-- C116: with more names than dates `to_index` raises, whatever the format. -/
theorem index_too_many (wr : Option (Sp → Option File → Except Err File)) (home : Path) (o : Sp) (files : List Path)
    (fs : Path → Option File) (h : o.time.flat.length < files.length) : ∀ r, toIndex wr true home o files fs ≠ .ok r := by
  refine foldlM_prefix wr true home o .indexError o.time.flat.length ?_ files 0 (fs, []) (Nat.zero_le _) (by omega)
  unfold index
  rw [if_pos ⟨rfl, fun hh => absurd hh.2 (lt_irrefl _)⟩]

/-- C116 (negative): an object of a single date without time dimension cannot be written to an index of one file: `index` passes
over the missing dimension, and either the mask or the file cannot be made of nothing. -/
theorem index_single_map (hdf5 : Bool) (w : WOpts) (date : Bool) (home : Path) (o : Sp) (nlat nlon : ℕ)
    (h : o.data.shape = [nlat, nlon]) (f : Path) (files : List Path) (fs : Path → Option File) :
    ∀ r, toIndex (some (dataWriter hdf5 w)) date home o (f :: files) fs ≠ .ok r := by
  intro r hr
  have hs : slice o.data 0 = none := by unfold slice; rw [h]
  have hfirst : ∃ e, writeEntry (some (dataWriter hdf5 w)) date home o (fs, []) (f, 0) = .error e := by
    unfold writeEntry index
    rw [hs]
    by_cases hd : date = true ∧ ¬ (o.time.shape ≠ [] ∧ 0 < o.time.flat.length)
    · rw [if_pos hd]; exact ⟨_, rfl⟩
    · rw [if_neg hd]
      by_cases hf : o.fill.isSome
      · simp only [hf, if_true]; exact ⟨_, rfl⟩
      · simp only [hf]; exact ⟨_, rfl⟩
  obtain ⟨e, he⟩ := hfirst
  unfold toIndex at hr
  rw [List.zipIdx_cons, List.foldlM_cons, he] at hr
  simp [bind, Except.bind] at hr

/-- C116 (negative): `index` of such an object without fill value is an object without data and not an error, if there is an array of
dates. -/
theorem index_no_data (date : Bool) (o : Sp) (nlat nlon i : ℕ) (h : o.data.shape = [nlat, nlon]) (hf : o.fill = none)
    (ht : date = true → o.time.shape ≠ [] ∧ i < o.time.flat.length) : index date o i = .ok none := by
  have hs : slice o.data i = none := by unfold slice; rw [h]
  unfold index
  rw [if_neg (fun hh => hh.2 (ht hh.1)), hs, hf]
  rfl

/-- C116 (negative): with a format that is not known `to_index` writes the names and no file, and `from_index` raises. -/
theorem index_unknown_format (o : Sp) (nlat nlon nt : ℕ) (ho : Series o nlat nlon nt) (h2 : nlat ≠ 1 ∧ nlon ≠ 1) (files : List Path)
    (hk : files.length ≤ nt) (home cwd : Path) (fs : Path → Option File) (names : Names) :
    toIndex none true home o files fs = .ok (fs, indexText home files) ∧
      ∀ txt p, fromIndex false names true home cwd fs txt p = .error .indexError := by
  refine ⟨?_, fun txt p => rfl⟩
  have : ∀ (l : List Path) (k : ℕ) (txt : List Char), k + l.length ≤ nt →
      (l.zipIdx k).foldlM (writeEntry none true home o) (fs, txt) = .ok (fs, txt ++ indexText home l) := by
    intro l
    induction l with
    | nil => intro k txt _; simp [indexText, pure, Except.pure]
    | cons f rest ih =>
      intro k txt h
      rw [List.length_cons] at h
      obtain ⟨s, h1, -⟩ := index_date o nlat nlon nt k ho.grid ho.cons ho.data ho.time h2 (by omega)
      have hstep : writeEntry none true home o (fs, txt) (f, k) = .ok (fs, txt ++ compress home f ++ ['\n']) := by
        unfold writeEntry; rw [h1]; rfl
      rw [List.zipIdx_cons, List.foldlM_cons, hstep]
      simp only [bind, Except.bind]
      rw [ih (k + 1) _ (by omega)]
      simp [indexText]
  have := this files 0 [] (by omega)
  rwa [List.nil_append] at this

/-- C116 (negative): a series that was read from an index cannot be written to a single netCDF4 or HDF5 file. -/
theorem index_then_file (hdf5 : Bool) (w : WOpts) (old : Option File) (known : Bool) (names : Names) (date : Bool) (home cwd : Path)
    (fs : Path → Option File) (txt : List Char) (p : List ℕ) (r : Sp)
    (h : fromIndex known names date home cwd fs txt p = .ok r) : write hdf5 w old r = .error .attributeError := by
  have hl : ∀ objs, fromList date objs p = .ok r → r.attrs = metaOf objs p := by
    intro objs hh
    unfold fromList at hh
    split at hh
    · simp at hh
    · split at hh
      · split at hh
        · simp only [Except.ok.injEq] at hh
          rw [← hh]
          unfold updateMask
          split <;> rfl
        · simp at hh
      · simp at hh
  unfold fromIndex at h
  cases known with
  | false => exact dataset_list_attributes hdf5 w old r _ (hl [] h)
  | true =>
    simp only [if_true] at h
    cases hq : ((splitLines txt).filter keepLine).mapM (readEntry names date home cwd fs) with
    | error e => rw [hq] at h; simp [bind, Except.bind] at h
    | ok objs => rw [hq] at h; exact dataset_list_attributes hdf5 w old r _ (hl _ h)

/-! ## A series of two dates on three by two points -/

/-- two dates, one missing value -/
def exSeries : Sp where
  lon := ⟨[2], [some 0, some 180]⟩
  lat := ⟨[3], [some 60, some 0, some (-60)]⟩
  time := ⟨[2], [some 2003, some 2004]⟩
  data := ⟨[3, 2, 2], [1, 2, 3, 4, 5, 6, 7, 8, -9999, 10, 11, 12].map some⟩
  mask := ⟨[3, 2, 2], [false, false, false, false, false, false, false, false, true, false, false, false]⟩
  fill := some (some (-9999))
  attrs := .list []

def exFiles : List Path := [["home", "me", "a.nc"].map String.toList, ["tmp", "b.nc"].map String.toList]

theorem exSeries_ok : Series exSeries 3 2 2 := by
  refine ⟨⟨by decide, by decide, by decide, by decide, by decide, by decide⟩, ?_, rfl, rfl⟩
  intro k x b hx hb
  have hk : k < 12 := (List.getElem?_eq_some_iff.1 hx).1
  have : ∀ k : Fin 12, ∀ x b, exSeries.data.flat[(k : ℕ)]? = some x → exSeries.mask.flat[(k : ℕ)]? = some b →
      (b = true ↔ x = some (-9999)) ∧ (x = none → some (-9999) = (none : Option ℚ)) := by
    intro k x b hx hb
    fin_cases k <;> simp [exSeries] at hx hb <;> subst hx hb <;> simp <;> norm_num
  exact this ⟨k, hk⟩ x b hx hb

example : Options {} := ⟨by unfold Distinct; decide, rfl, rfl, by simp⟩
example : exFiles ≠ [] ∧ exFiles.length = 2 ∧ exFiles.Nodup := by decide
example : ∀ f ∈ exFiles, Valid f := by
  intro f hf
  have : f = ["home", "me", "a.nc"].map String.toList ∨ f = ["tmp", "b.nc"].map String.toList := by simpa [exFiles] using hf
  unfold Valid
  rcases this with rfl | rfl <;> decide

/-- the index of the example, and values after reading with the dates exchanged -/
def exOut : Option (String × Option (List (Option ℚ) × Option (Option ℚ) × Option Bool)) :=
  (toIndex (some (dataWriter false {})) true (["home", "me"].map String.toList) exSeries exFiles fun _ => none).toOption.map
    fun q => (String.ofList q.2, (fromIndex true {} true (["home", "me"].map String.toList) [] q.1 q.2 [1, 0]).toOption.map
      fun r => (r.time.flat, at3 r.data 1 1 0, at3 r.mask 2 0 1))

example : exOut.map Prod.fst = some "~/a.nc\n/tmp/b.nc\n" := by decide +kernel
example : (exOut.bind Prod.snd).map Prod.fst = some [some 2004, some 2003] := by decide +kernel
example : (exOut.bind Prod.snd).map Prod.snd = some (some (some 8), some true) := by decide +kernel

end Verif.SpatialIndex
