import Verif.SpatialIO.DataProps
import Mathlib.Tactic.IntervalCases

/-!
# C82: theorems on grids in netCDF4 and HDF5 files
-/
namespace Verif.SpatialIO.Data
open Verif.SpatialIO (isFill)

theorem at3_three {α : Type} (l : List α) (r c n i j t : ℕ) :
    at3 (⟨[r, c, n], l⟩ : Arr α) i j t = if i < r ∧ j < c ∧ t < n then l[(i * c + j) * n + t]? else none := rfl

theorem at3_two {α : Type} (l : List α) (r c i j t : ℕ) :
    at3 (⟨[r, c], l⟩ : Arr α) i j t = if i < r ∧ j < c ∧ t = 0 then l[i * c + j]? else none := rfl

/-- a single date with or without time dimension is the same -/
theorem at3_one {α : Type} (l : List α) (r c i j t : ℕ) :
    at3 (⟨[r, c, 1], l⟩ : Arr α) i j t = at3 (⟨[r, c], l⟩ : Arr α) i j t := by
  rw [at3_three, at3_two]
  by_cases h : i < r ∧ j < c ∧ t = 0
  · obtain ⟨h1, h2, rfl⟩ := h
    simp [h1, h2]
  · rw [if_neg h, if_neg]
    rintro ⟨h1, h2, h3⟩
    exact h ⟨h1, h2, by omega⟩

theorem at3_grid (o : Sp) (nlat nlon nt : ℕ) (hg : Grid o nlat nlon nt) (i j t : ℕ) :
    at3 o.data i j t = at3 (⟨[nlat, nlon, nt], o.data.flat⟩ : Arr (Option ℚ)) i j t ∧
      at3 o.mask i j t = at3 (⟨[nlat, nlon, nt], o.mask.flat⟩ : Arr Bool) i j t := by
  have hm := hg.mask
  rcases hg.data with h | ⟨rfl, h⟩
  · rw [h] at hm
    constructor
    · congr 1; cases ho : o.data; simp [ho] at h; simp [h]
    · congr 1; cases ho : o.mask; simp [ho] at hm; simp [hm]
  · rw [h] at hm
    rw [at3_one, at3_one]
    constructor
    · congr 1; cases ho : o.data; simp [ho] at h; simp [h]
    · congr 1; cases ho : o.mask; simp [ho] at hm; simp [hm]

/-- a grid or series written to a new netCDF4 or HDF5 file and read back with the same names has the same coordinates,
times, fill value, values and mask; excluded are grids with a single row or column, and square grids of a single date -/
theorem dataset_round_trip (hdf5 : Bool) (w : WOpts) (old : Option File) (o : Sp) (nlat nlon nt : ℕ)
    (hg : Grid o nlat nlon nt) (hc : Consistent o) (hn : Distinct w.names) (hw : w.clobber = true ∨ old = none)
    (d : List (String × Attrs)) (hd : o.attrs = .dict d) (ha : ∀ a, w.attributes = some a → a.lookup "ROOT" ≠ none)
    (hdate : w.date = true ∨ o.data.shape = [nlat, nlon]) (h2 : nlat ≠ 1 ∧ nlon ≠ 1) (hsq : nt = 1 → nlat ≠ nlon) :
    ∃ o1 f o', write hdf5 w old o = .ok (o1, f) ∧ read w.names w.date f = .ok o' ∧
      o'.lat = o.lat ∧ o'.lon = o.lon ∧ (w.date = true → o'.time.flat = o.time.flat) ∧ o'.fill = o.fill ∧
      ∀ i j t, at3 o'.data i j t = at3 o.data i j t ∧ at3 o'.mask i j t = at3 o.mask i j t := by
  obtain ⟨o1, f, k0, k1, k2, k3, k4, _⟩ := write_spec hdf5 w old o nlat nlon nt hg hc hn hw d hd ha hdate
  obtain ⟨o', r, e0, e1, e2, e3, e4, e5, e6, e7, _⟩ := read_spec w o nlat nlon nt hg d f k1 k2 k3 _ k4 h2.1 h2.2 _ rfl
  have hnt : w.date = false → nt = 1 := by
    intro h
    rcases hdate with h' | h'
    · rw [h] at h'; simp at h'
    · rcases hg.data with h'' | h''
      · rw [h'] at h''; simp at h''
      · exact h''.1
  -- the array that is read
  have hz : ∃ sh, orient nlon ⟨(if w.date then [nlat, nlon, nt] else [nlat, nlon]).filter fun n => n ≠ 1, o.data.flat⟩ =
      (⟨sh, o.data.flat⟩ : Arr (Option ℚ)) ∧ (sh = [nlat, nlon, nt] ∨ nt = 1 ∧ sh = [nlat, nlon]) := by
    by_cases h1 : nt = 1
    · refine ⟨[nlat, nlon], ?_, Or.inr ⟨h1, rfl⟩⟩
      have : ((if w.date then [nlat, nlon, nt] else [nlat, nlon]).filter fun n => n ≠ 1) = [nlat, nlon] := by
        split <;> simp [h2, h1]
      rw [this]
      unfold orient
      simp only
      rw [if_neg (Ne.symm (hsq h1))]
    · refine ⟨[nlat, nlon, nt], ?_, Or.inl rfl⟩
      have hdt : w.date = true := by
        cases h : w.date with
        | true => rfl
        | false => exact absurd (hnt h) h1
      have : ((if w.date then [nlat, nlon, nt] else [nlat, nlon]).filter fun n => n ≠ 1) = [nlat, nlon, nt] := by
        simp [hdt, h2, h1]
      rw [this]
      rfl
  obtain ⟨sh, hz, hsh⟩ := hz
  rw [hz] at e2 e4
  have hrm := read_mask { o with data := ⟨sh, o.data.flat⟩ } r hc (by
    show o.data.flat.length = o.mask.flat.length
    rw [hg.size.1, hg.size.2]) e2 e3 e4
  have hax : (updateMask r).lat = r.lat ∧ (updateMask r).lon = r.lon ∧ (updateMask r).time = r.time ∧
      (updateMask r).fill = r.fill := by
    unfold updateMask
    cases hr : r.fill <;> simp [hr]
  refine ⟨o1, f, o', k0, e0, ?_, ?_, ?_, ?_, ?_⟩
  · rw [e1, hax.1, e5]
  · rw [e1, hax.2.1, e6]
  · intro h; rw [e1, hax.2.2.1, e7 h]; rfl
  · rw [e1, hax.2.2.2, e3]
  · intro i j t
    obtain ⟨q1, q2⟩ := at3_grid o nlat nlon nt hg i j t
    rw [e1, hrm.1, hrm.2, q1, q2]
    rcases hsh with rfl | ⟨rfl, rfl⟩
    · exact ⟨rfl, rfl⟩
    · rw [at3_one, at3_one]; exact ⟨rfl, rfl⟩

/-- a square grid of a single date comes back transposed: rows and columns, also of the mask, are exchanged -/
theorem dataset_square_transposed (hdf5 : Bool) (w : WOpts) (old : Option File) (o : Sp) (n : ℕ)
    (hg : Grid o n n 1) (hc : Consistent o) (hn : Distinct w.names) (hw : w.clobber = true ∨ old = none)
    (d : List (String × Attrs)) (hd : o.attrs = .dict d) (ha : ∀ a, w.attributes = some a → a.lookup "ROOT" ≠ none)
    (hdate : w.date = true ∨ o.data.shape = [n, n]) (h2 : 2 ≤ n) :
    ∃ o1 f o', write hdf5 w old o = .ok (o1, f) ∧ read w.names w.date f = .ok o' ∧
      o'.lat = o.lat ∧ o'.lon = o.lon ∧
      ∀ i j, i < n → j < n → at3 o'.data i j 0 = at3 o.data j i 0 ∧ at3 o'.mask i j 0 = at3 o.mask j i 0 := by
  obtain ⟨o1, f, k0, k1, k2, k3, k4, _⟩ := write_spec hdf5 w old o n n 1 hg hc hn hw d hd ha hdate
  obtain ⟨o', r, e0, e1, e2, e3, e4, e5, e6, e7, _⟩ := read_spec w o n n 1 hg d f k1 k2 k3 _ k4 (by omega) (by omega) _ rfl
  have hz : orient n ⟨(if w.date then [n, n, 1] else [n, n]).filter fun n => n ≠ 1, o.data.flat⟩ =
      transpose (⟨[n, n], o.data.flat⟩ : Arr (Option ℚ)) := by
    have : ((if w.date then [n, n, 1] else [n, n]).filter fun n => n ≠ 1) = [n, n] := by
      have : n ≠ 1 := by omega
      split <;> simp [this]
    rw [this]
    unfold orient
    simp only [if_true]
  rw [hz] at e2 e4
  have hs := hg.size
  have hrm := read_mask { o with data := transpose ⟨[n, n], o.data.flat⟩, mask := transpose ⟨[n, n], o.mask.flat⟩ } r
    (transpose_consistent o hc n (by omega) (by omega) (by omega)) (by simp only [transpose_length]) e2 e3 e4
  have hax : (updateMask r).lat = r.lat ∧ (updateMask r).lon = r.lon := by
    unfold updateMask
    cases hr : r.fill <;> simp [hr]
  refine ⟨o1, f, o', k0, e0, by rw [e1, hax.1, e5], by rw [e1, hax.2, e6], ?_⟩
  intro i j hi hj
  obtain ⟨q1, q2⟩ := at3_grid o n n 1 hg j i 0
  rw [e1, hrm.1, hrm.2, q1, q2, at3_one, at3_one]
  exact ⟨transpose_at _ n (by omega) i j hi hj, transpose_at _ n (by omega) i j hi hj⟩

/-- a series on a single row comes back as an array of dates by columns -/
theorem dataset_single_row (hdf5 : Bool) (w : WOpts) (old : Option File) (o : Sp) (nlon nt : ℕ)
    (hg : Grid o 1 nlon nt) (hc : Consistent o) (hn : Distinct w.names) (hw : w.clobber = true ∨ old = none)
    (d : List (String × Attrs)) (hd : o.attrs = .dict d) (ha : ∀ a, w.attributes = some a → a.lookup "ROOT" ≠ none)
    (hdate : w.date = true) (h2 : nlon ≠ 1 ∧ nt ≠ 1) :
    ∃ o1 f o', write hdf5 w old o = .ok (o1, f) ∧ read w.names w.date f = .ok o' ∧ o'.data.shape = [nt, nlon] := by
  obtain ⟨o1, f, k0, k1, k2, k3, k4, _⟩ := write_spec hdf5 w old o 1 nlon nt hg hc hn hw d hd ha (Or.inl hdate)
  refine ⟨o1, f, ?_⟩
  have hlne : (squeeze o.lon).shape ≠ [] := by unfold squeeze; rw [hg.lon.1]; simp [h2.1]
  have hfl : (squeeze o.lon).flat.length = nlon := hg.lon.2
  have hk3 := k3 hdate
  have hsq : squeeze (⟨[1, nlon, nt], o.data.flat⟩ : Arr (Option ℚ)) = ⟨[nlon, nt], o.data.flat⟩ := by
    simp [squeeze, h2]
  unfold read getTime assemble getVar
  rw [k1, k2, k4, hk3]
  simp only [hdate, if_true, bind, Except.bind, hlne, and_false, if_false, pure, Except.pure, hsq]
  refine ⟨_, k0, rfl, ?_⟩
  have hu : ∀ r : Sp, (updateMask r).data.shape = r.data.shape := by
    intro r; unfold updateMask; cases r.fill <;> rfl
  rw [hu]
  simp only [hfl]
  unfold orient
  simp [transpose]

/-- a series on a single column cannot be read back -/
theorem dataset_single_column (hdf5 : Bool) (w : WOpts) (old : Option File) (o : Sp) (nlat nt : ℕ)
    (hg : Grid o nlat 1 nt) (hc : Consistent o) (hn : Distinct w.names) (hw : w.clobber = true ∨ old = none)
    (d : List (String × Attrs)) (hd : o.attrs = .dict d) (ha : ∀ a, w.attributes = some a → a.lookup "ROOT" ≠ none)
    (hdate : w.date = true) (h2 : nlat ≠ 1 ∧ nt ≠ 1) :
    ∃ o1 f, write hdf5 w old o = .ok (o1, f) ∧ read w.names w.date f = .error .typeError := by
  obtain ⟨o1, f, k0, k1, k2, k3, k4, _⟩ := write_spec hdf5 w old o nlat 1 nt hg hc hn hw d hd ha (Or.inl hdate)
  refine ⟨o1, f, k0, ?_⟩
  have hl : (squeeze o.lon).shape = [] := by unfold squeeze; rw [hg.lon.1]; simp
  have hsq : squeeze (⟨[nlat, 1, nt], o.data.flat⟩ : Arr (Option ℚ)) = ⟨[nlat, nt], o.data.flat⟩ := by
    simp [squeeze, h2]
  unfold read getTime assemble getVar
  rw [k1, k2, k4, k3 hdate]
  simp [hdate, bind, Except.bind, hl, hsq]

theorem addData_inv (key : String) (dims : List ℕ) (a : Arr (Option ℚ)) (fill : Option (Option ℚ)) (at_ : Attrs)
    (f f' : File) (h : addData key dims a fill at_ f = .ok f') :
    f'.vars = f.vars ++ [(key, ⟨a, fill, varAttrs at_⟩)] ∧ f.vars.lookup key = none := by
  unfold addData at h
  split at h
  · simp at h
  · rename_i hn
    split at h
    · simp at h
    · simp only [Except.ok.injEq] at h
      rw [← h]
      exact ⟨rfl, Option.not_isSome_iff_eq_none.1 hn⟩

theorem write_fill (hdf5 : Bool) (w : WOpts) (old : Option File) (o o1 : Sp) (f : File)
    (h : write hdf5 w old o = .ok (o1, f)) : (f.vars.lookup w.names.data).bind (fun v => v.fill) = o.fill := by
  unfold write at h
  split at h
  · simp at h
  · simp only at h
    split at h
    · simp at h
    · split at h
      · simp at h
      · simp only [bind, Except.bind] at h
        split at h
        · simp at h
        · split at h
          · simp at h
          · split at h
            · simp at h
            · split at h
              · simp at h
              · rename_i f4 h4
                simp only [pure, Except.pure, Except.ok.injEq, Prod.mk.injEq] at h
                rw [← h.2]
                obtain ⟨h5, h6⟩ := addData_inv _ _ _ _ _ _ _ h4
                simp only
                rw [h5, lookup_snoc _ _ _ h6]
                rfl

theorem read_fill (ns : Names) (date : Bool) (f : File) (o' : Sp) (h : read ns date f = .ok o')
    (hf : (f.vars.lookup ns.data).bind (fun v => v.fill) = none) : ∀ k : ℕ, o'.mask.flat[k]? ≠ some true := by
  unfold read at h
  simp only [bind, Except.bind] at h
  split at h
  · simp at h
  · split at h
    · simp at h
    · split at h
      · simp at h
      · split at h
        · simp at h
        · rw [hf] at h
          unfold assemble at h
          split at h
          · simp at h
          · simp only [Except.ok.injEq] at h
            rw [← h, updateMask]
            simp only
            intro k hk
            rw [List.getElem?_map, Option.map_eq_some_iff] at hk
            obtain ⟨x, _, hx⟩ := hk
            simp [isFill] at hx

/-- the mask of an object without fill value is lost -/
theorem dataset_mask_lost (hdf5 : Bool) (w : WOpts) (old : Option File) (o o1 o' : Sp) (f : File) (hf : o.fill = none)
    (h : write hdf5 w old o = .ok (o1, f)) (h' : read w.names w.date f = .ok o') :
    ∀ k : ℕ, o'.mask.flat[k]? ≠ some true :=
  read_fill w.names w.date f o' h' (by rw [write_fill hdf5 w old o o1 f h, hf])

/-- the series merged from a list of objects cannot be written -/
theorem dataset_list_attributes (hdf5 : Bool) (w : WOpts) (old : Option File) (o : Sp)
    (l : List (List (String × Attrs))) (h : o.attrs = .list l) : write hdf5 w old o = .error .attributeError := by
  unfold write
  rw [h]

/-- without `clobber` an existing HDF5 file is never overwritten, and neither is a netCDF4 file with a variable or
dimension of the name of the latitudes: writing fails -/
theorem dataset_no_clobber (hdf5 : Bool) (w : WOpts) (old : File) (o : Sp) (hw : w.clobber = false)
    (h : hdf5 = true ∨ old.dims.lookup w.names.lat ≠ none ∨ old.vars.lookup w.names.lat ≠ none) :
    ∀ r, write hdf5 w (some old) o ≠ .ok r := by
  intro r hr
  unfold write at hr
  split at hr
  · simp at hr
  · simp only at hr
    split at hr
    · simp at hr
    · split at hr
      · simp at hr
      · rename_i h1 h2
        have hh : hdf5 = false := by
          cases hdf5 with
          | false => rfl
          | true => exact absurd ⟨rfl, hw, rfl⟩ h2
        have hor : old.dims.lookup w.names.lat ≠ none ∨ old.vars.lookup w.names.lat ≠ none := by
          rcases h with h | h
          · rw [hh] at h; simp at h
          · exact h
        simp only [hw, Bool.false_eq_true, if_false, Option.getD_some, bind, Except.bind] at hr
        have : ∀ a at_, addAxis w.names.lat a at_ old = .error .nameInUse := by
          intro a at_
          unfold addAxis
          rw [if_pos]
          rcases hor with h | h
          · left; exact Option.isSome_iff_ne_none.2 h
          · right; exact Option.isSome_iff_ne_none.2 h
        rw [this] at hr
        simp at hr

/-! ## Attributes -/

theorem lookup_put {α : Type} (k k' : String) (v : α) (d : List (String × α)) :
    (put k v d).lookup k' = if k' = k then some v else d.lookup k' := by
  unfold put
  rw [List.lookup_cons]
  by_cases h : k' = k
  · subst h; simp
  · rw [beq_false_of_ne h, if_neg h]
    simp only
    induction d with
    | nil => rfl
    | cons p t ih =>
      obtain ⟨a, b⟩ := p
      rw [List.filter_cons]
      by_cases ha : a = k
      · subst ha
        simp only [ne_eq, not_true_eq_false, decide_false, Bool.false_eq_true, if_false]
        rw [ih, List.lookup_cons, beq_false_of_ne h]
      · simp only [ne_eq, ha, not_false_eq_true, decide_true, if_true]
        rw [List.lookup_cons, List.lookup_cons, ih]

/-- a global attribute that is set when not empty -/
theorem writeAttrs_other (w : WOpts) (own : Attrs) (k : String) (hk : k ≠ "ROOT") :
    (writeAttrs w.names w own).lookup k =
      (let a0 := w.attributes.getD [("ROOT", own)]
       let keys := [w.names.lon, w.names.lat, w.names.data] ++ if w.date then [w.names.time] else []
       if keys.all fun k => (a0.lookup k).isSome then a0.lookup k
       else if w.date = true ∧ k = w.names.time then some [("long_name", w.timeLongname), ("units", w.timeUnits)]
       else if k = w.names.data then some [("long_name", w.longname), ("units", w.units)]
       else if k = w.names.lat then some [("long_name", some "latitude"), ("units", some "degrees_north")]
       else if k = w.names.lon then some [("long_name", some "longitude"), ("units", some "degrees_east")]
       else a0.lookup k) := by
  have add : ∀ (v : Option String) (n : String) (a : List (String × Attrs)),
      (addRoot n v a).lookup k = a.lookup k := by
    intro v n a
    unfold addRoot
    cases v with
    | none => rfl
    | some t =>
      simp only
      split
      · rfl
      · rw [lookup_put, if_neg hk]
  unfold writeAttrs
  simp only
  rw [add, add, add]
  by_cases hk : ((([w.names.lon, w.names.lat, w.names.data] ++ if w.date = true then [w.names.time] else []).all
      fun k => ((w.attributes.getD [("ROOT", own)]).lookup k).isSome) = true)
  · rw [if_pos hk, if_pos hk]
  · rw [if_neg hk, if_neg hk]
    by_cases hd : w.date = true
    · simp only [hd, if_true, lookup_put, true_and]
    · simp only [hd, Bool.false_eq_true, if_false, lookup_put, false_and]

/-- the global attributes of the file: those of the object (or of the caller), and title, source and reference -/
theorem writeAttrs_root (w : WOpts) (own : Attrs) (hr : w.names.lon ≠ "ROOT" ∧ w.names.lat ≠ "ROOT" ∧
    w.names.data ≠ "ROOT" ∧ w.names.time ≠ "ROOT") (k : String) :
    (((writeAttrs w.names w own).lookup "ROOT").getD []).lookup k =
      if k = "reference" ∧ w.reference ≠ none ∧ w.reference ≠ some "" then some w.reference
      else if k = "source" ∧ w.source ≠ none ∧ w.source ≠ some "" then some w.source
      else if k = "title" ∧ w.title ≠ none ∧ w.title ≠ some "" then some w.title
      else (((w.attributes.getD [("ROOT", own)]).lookup "ROOT").getD []).lookup k := by
  have add : ∀ (v : Option String) (n : String) (a : List (String × Attrs)),
      (((addRoot n v a).lookup "ROOT").getD []).lookup k =
        if k = n ∧ v ≠ none ∧ v ≠ some "" then some v else ((a.lookup "ROOT").getD []).lookup k := by
    intro v n a
    unfold addRoot
    cases v with
    | none => simp
    | some t =>
      simp only
      by_cases ht : t = ""
      · simp [ht]
      · rw [if_neg ht, lookup_put, if_pos rfl, Option.getD_some, lookup_put]
        by_cases hk : k = n <;> simp [hk, ht]
  unfold writeAttrs
  simp only
  rw [add, add, add]
  have hbase : ∀ a : List (String × Attrs), ((if w.date = true then
      put w.names.time [("long_name", w.timeLongname), ("units", w.timeUnits)]
        (put w.names.data [("long_name", w.longname), ("units", w.units)]
          (put w.names.lat [("long_name", some "latitude"), ("units", some "degrees_north")]
            (put w.names.lon [("long_name", some "longitude"), ("units", some "degrees_east")] a)))
      else put w.names.data [("long_name", w.longname), ("units", w.units)]
          (put w.names.lat [("long_name", some "latitude"), ("units", some "degrees_north")]
            (put w.names.lon [("long_name", some "longitude"), ("units", some "degrees_east")] a))).lookup "ROOT") =
      a.lookup "ROOT" := by
    intro a
    split
    · rw [lookup_put, if_neg (Ne.symm hr.2.2.2), lookup_put, if_neg (Ne.symm hr.2.2.1), lookup_put,
        if_neg (Ne.symm hr.2.1), lookup_put, if_neg (Ne.symm hr.1)]
    · rw [lookup_put, if_neg (Ne.symm hr.2.2.1), lookup_put,
        if_neg (Ne.symm hr.2.1), lookup_put, if_neg (Ne.symm hr.1)]
  have hk : ∀ a : List (String × Attrs), ∀ c : Bool, (if c = true then a else if w.date = true then
      put w.names.time [("long_name", w.timeLongname), ("units", w.timeUnits)]
        (put w.names.data [("long_name", w.longname), ("units", w.units)]
          (put w.names.lat [("long_name", some "latitude"), ("units", some "degrees_north")]
            (put w.names.lon [("long_name", some "longitude"), ("units", some "degrees_east")] a)))
      else put w.names.data [("long_name", w.longname), ("units", w.units)]
          (put w.names.lat [("long_name", some "latitude"), ("units", some "degrees_north")]
            (put w.names.lon [("long_name", some "longitude"), ("units", some "degrees_east")] a))).lookup "ROOT" =
      a.lookup "ROOT" := by
    intro a c
    cases c with
    | true => rfl
    | false => exact hbase a
  rw [hk]

/-- attribute `k` of section `sec` (`ROOT`, `lon`, `lat`, `data` or `time`) of an object -/
def attr (o : Sp) (sec k : String) : Option (Option String) :=
  match o.attrs with
  | .dict d => ((d.lookup sec).getD []).lookup k
  | .list _ => none

theorem lookup_filter_pass (p : String × Option String → Bool) (l : Attrs) (k : String) (v : Option String)
    (h : l.lookup k = some v) (hp : p (k, v) = true) : (l.filter p).lookup k = some v := by
  induction l with
  | nil => simp at h
  | cons q t ih =>
    obtain ⟨a, b⟩ := q
    rw [List.lookup_cons] at h
    by_cases ha : k = a
    · subst ha
      simp at h
      subst h
      rw [List.filter_cons, if_pos hp, List.lookup_cons]
      simp
    · rw [beq_false_of_ne ha] at h
      simp only at h
      rw [List.filter_cons]
      split
      · rw [List.lookup_cons, beq_false_of_ne ha]
        exact ih h
      · exact ih h

theorem attr_updateMask (r : Sp) (sec k : String) : attr (updateMask r) sec k = attr r sec k := by
  unfold updateMask
  cases h : r.fill <;> simp [attr]

/-- the attributes of the object that is read, in terms of those the writer put together -/
theorem dataset_attrs (hdf5 : Bool) (w : WOpts) (old : Option File) (o : Sp) (nlat nlon nt : ℕ)
    (hg : Grid o nlat nlon nt) (hc : Consistent o) (hn : Distinct w.names) (hw : w.clobber = true ∨ old = none)
    (d : List (String × Attrs)) (hd : o.attrs = .dict d) (ha : ∀ a, w.attributes = some a → a.lookup "ROOT" ≠ none)
    (hdate : w.date = true ∨ o.data.shape = [nlat, nlon]) (h2 : nlat ≠ 1 ∧ nlon ≠ 1) :
    ∃ o1 f o', write hdf5 w old o = .ok (o1, f) ∧ read w.names w.date f = .ok o' ∧
      (∀ k, attr o' "ROOT" k = (((attrsFor w d).lookup "ROOT").getD []).lookup k) ∧
      (∀ k v, k ∈ ["units", "long_name", "description", "standard_name", "calendar"] → v ≠ "" →
        (((attrsFor w d).lookup w.names.data).getD []).lookup k = some (some v) → attr o' "data" k = some (some v)) ∧
      (w.date = true → ∀ k v, k ∈ ["units", "long_name", "description", "standard_name", "calendar"] → v ≠ "" →
        (((attrsFor w d).lookup w.names.time).getD []).lookup k = some (some v) → attr o' "time" k = some (some v)) := by
  obtain ⟨o1, f, k0, k1, k2, k3, k4, k5, _⟩ := write_spec hdf5 w old o nlat nlon nt hg hc hn hw d hd ha hdate
  obtain ⟨o', r, e0, e1, e2, e3, e4, e5, e6, e7, ⟨v, e8⟩⟩ :=
    read_spec w o nlat nlon nt hg d f k1 k2 k3 _ k4 h2.1 h2.2 _ rfl
  have hkk : ∀ k : String, ∀ v : String, k ∈ ["units", "long_name", "description", "standard_name", "calendar"] → v ≠ "" →
      (decide ((some v : Option String) ≠ none ∧ (some v : Option String) ≠ some "" ∧ k ≠ "DIMENSION_LIST" ∧ k ≠ "CLASS" ∧
        k ≠ "NAME" ∧ k ≠ "_FillValue") = true ∧ decide (k ∈ attributeNames) = true) := by
    intro k v hk hv
    simp only [List.mem_cons, List.not_mem_nil, or_false] at hk
    rcases hk with rfl | rfl | rfl | rfl | rfl <;> simp [hv, attributeNames]
  refine ⟨o1, f, o', k0, e0, ?_, ?_, ?_⟩
  · intro k
    rw [e1, attr_updateMask, attr, e8, k5]
    simp [List.lookup_cons]
  · intro k v hk hv hl
    obtain ⟨p1, p2⟩ := hkk k v hk hv
    rw [e1, attr_updateMask, attr, e8]
    have : ∀ (x y z q : Attrs) (t : List (String × Attrs)),
        ([("ROOT", x), ("lon", y)] ++ [("lat", z), ("data", q)] ++ t).lookup "data" = some q := by
      intro x y z q t
      simp [List.lookup_cons]
    simp only [this, Option.getD_some]
    unfold varAttrs
    exact lookup_filter_pass _ _ _ _ (lookup_filter_pass _ _ _ _ hl p1) p2
  · intro hdt k v hk hv hl
    obtain ⟨p1, p2⟩ := hkk k v hk hv
    rw [e1, attr_updateMask, attr, e8]
    have : ∀ (x y z q t : Attrs),
        ([("ROOT", x), ("lon", y)] ++ [("lat", z), ("data", q)] ++ [("time", t)]).lookup "time" = some t := by
      intro x y z q t
      simp [List.lookup_cons]
    simp only [hdt, if_true, this, Option.getD_some]
    unfold varAttrs
    exact lookup_filter_pass _ _ _ _ (lookup_filter_pass _ _ _ _ hl p1) p2

/-- no name is `ROOT` -/
def NotRoot (ns : Names) : Prop := ns.lon ≠ "ROOT" ∧ ns.lat ≠ "ROOT" ∧ ns.data ≠ "ROOT" ∧ ns.time ≠ "ROOT"

/-- the global attributes of the object survive, the title, source and reference given to the writer replace those of
the object, and units and long name given to the writer are those of the data that are read -/
theorem dataset_attributes (hdf5 : Bool) (w : WOpts) (old : Option File) (o : Sp) (nlat nlon nt : ℕ)
    (hg : Grid o nlat nlon nt) (hc : Consistent o) (hn : Distinct w.names) (hw : w.clobber = true ∨ old = none)
    (d : List (String × Attrs)) (hd : o.attrs = .dict d) (ha : w.attributes = none) (hr : NotRoot w.names)
    (hdate : w.date = true ∨ o.data.shape = [nlat, nlon]) (h2 : nlat ≠ 1 ∧ nlon ≠ 1) :
    ∃ o1 f o', write hdf5 w old o = .ok (o1, f) ∧ read w.names w.date f = .ok o' ∧
      (∀ k, k ∉ ["title", "source", "reference"] → attr o' "ROOT" k = attr o "ROOT" k) ∧
      (∀ t, t ≠ "" → w.title = some t → attr o' "ROOT" "title" = some (some t)) ∧
      (∀ t, t ≠ "" → w.source = some t → attr o' "ROOT" "source" = some (some t)) ∧
      (∀ t, t ≠ "" → w.reference = some t → attr o' "ROOT" "reference" = some (some t)) ∧
      (∀ t, t ≠ "" → w.units = some t → attr o' "data" "units" = some (some t)) ∧
      (∀ t, t ≠ "" → w.longname = some t → attr o' "data" "long_name" = some (some t)) ∧
      (w.date = true → ∀ t, t ≠ "" → w.timeUnits = some t → attr o' "time" "units" = some (some t)) := by
  obtain ⟨o1, f, o', k0, k1, k2, k3, k4⟩ := dataset_attrs hdf5 w old o nlat nlon nt hg hc hn hw d hd
    (by intro a h; rw [ha] at h; simp at h) hdate h2
  have hroot := writeAttrs_root w ((d.lookup "ROOT").getD []) hr
  have hoth := writeAttrs_other w ((d.lookup "ROOT").getD [])
  unfold Distinct at hn
  simp only [List.nodup_cons, List.mem_cons, List.not_mem_nil, or_false, not_or, List.nodup_nil, and_true,
    not_false_eq_true] at hn
  have hkeys : (([w.names.lon, w.names.lat, w.names.data] ++ if w.date = true then [w.names.time] else []).all
      fun k => ((w.attributes.getD [("ROOT", ((d.lookup "ROOT").getD []))]).lookup k).isSome) = false := by
    have : (w.attributes.getD [("ROOT", ((d.lookup "ROOT").getD []))]).lookup w.names.lon = none := by
      rw [ha, Option.getD_none, List.lookup_cons, beq_false_of_ne hr.1]
      rfl
    simp [this]
  refine ⟨o1, f, o', k0, k1, ?_, ?_, ?_, ?_, ?_, ?_, ?_⟩
  · intro k hk
    simp only [List.mem_cons, List.not_mem_nil, or_false, not_or] at hk
    rw [k2]
    unfold attrsFor
    rw [hroot, ha]
    simp only [hk.1, hk.2.1, hk.2.2, false_and, if_false, Option.getD_none, attr, hd]
    simp [List.lookup_cons]
  · intro t ht h
    rw [k2]
    unfold attrsFor
    rw [hroot]
    simp [h, ht]
  · intro t ht h
    rw [k2]
    unfold attrsFor
    rw [hroot]
    simp [h, ht]
  · intro t ht h
    rw [k2]
    unfold attrsFor
    rw [hroot]
    simp [h, ht]
  · intro t ht h
    apply k3 "units" t (by simp) ht
    unfold attrsFor
    rw [hoth _ hr.2.2.1]
    simp only [hkeys, Bool.false_eq_true, if_false]
    rw [if_neg (by rintro ⟨_, h⟩; exact hn.2.2 h.symm), if_pos trivial]
    simp [List.lookup_cons, h]
  · intro t ht h
    apply k3 "long_name" t (by simp) ht
    unfold attrsFor
    rw [hoth _ hr.2.2.1]
    simp only [hkeys, Bool.false_eq_true, if_false]
    rw [if_neg (by rintro ⟨_, h⟩; exact hn.2.2 h.symm), if_pos trivial]
    simp [List.lookup_cons, h]
  · intro hdt t ht h
    apply k4 hdt "units" t (by simp) ht
    unfold attrsFor
    rw [hoth _ hr.2.2.2]
    simp only [hkeys, Bool.false_eq_true, if_false]
    rw [if_pos ⟨hdt, trivial⟩]
    simp [List.lookup_cons, h]

/-- attributes given for all variables are written; when those of any variable are missing, the units given for the data
are dropped and those of the keyword argument are written instead -/
theorem dataset_attributes_given (hdf5 : Bool) (w : WOpts) (old : Option File) (o : Sp) (nlat nlon nt : ℕ)
    (hg : Grid o nlat nlon nt) (hc : Consistent o) (hn : Distinct w.names) (hw : w.clobber = true ∨ old = none)
    (d : List (String × Attrs)) (hd : o.attrs = .dict d) (a : List (String × Attrs)) (ha : w.attributes = some a)
    (hroot : a.lookup "ROOT" ≠ none) (hr : NotRoot w.names)
    (hdate : w.date = true ∨ o.data.shape = [nlat, nlon]) (h2 : nlat ≠ 1 ∧ nlon ≠ 1) :
    ∃ o1 f o', write hdf5 w old o = .ok (o1, f) ∧ read w.names w.date f = .ok o' ∧
      (∀ g t, t ≠ "" → a.lookup w.names.data = some g → g.lookup "units" = some (some t) →
        a.lookup w.names.lon ≠ none → a.lookup w.names.lat ≠ none → (w.date = true → a.lookup w.names.time ≠ none) →
        attr o' "data" "units" = some (some t)) ∧
      (∀ t, t ≠ "" → w.units = some t → (a.lookup w.names.lon = none ∨ a.lookup w.names.lat = none ∨
          a.lookup w.names.data = none ∨ (w.date = true ∧ a.lookup w.names.time = none)) →
        attr o' "data" "units" = some (some t)) := by
  obtain ⟨o1, f, o', k0, k1, k2, k3, k4⟩ := dataset_attrs hdf5 w old o nlat nlon nt hg hc hn hw d hd
    (by intro a' h; rw [ha] at h; simp at h; rw [← h]; exact hroot) hdate h2
  have hoth := writeAttrs_other w ((d.lookup "ROOT").getD [])
  unfold Distinct at hn
  simp only [List.nodup_cons, List.mem_cons, List.not_mem_nil, or_false, not_or, List.nodup_nil, and_true,
    not_false_eq_true] at hn
  refine ⟨o1, f, o', k0, k1, ?_, ?_⟩
  · intro g t ht hg' hu hlo hla hti
    apply k3 "units" t (by simp) ht
    unfold attrsFor
    rw [hoth _ hr.2.2.1, ha]
    simp only [Option.getD_some]
    rw [if_pos, hg']
    · exact hu
    · have h1 := Option.isSome_iff_ne_none.2 hlo
      have h2 := Option.isSome_iff_ne_none.2 hla
      cases hdt : w.date with
      | true => simp [h1, h2, hg', Option.isSome_iff_ne_none.2 (hti hdt)]
      | false => simp [h1, h2, hg']
  · intro t ht hu hm
    apply k3 "units" t (by simp) ht
    unfold attrsFor
    rw [hoth _ hr.2.2.1, ha]
    simp only [Option.getD_some]
    rw [if_neg, if_neg (by rintro ⟨_, h⟩; exact hn.2.2 h.symm), if_pos trivial]
    · simp [List.lookup_cons, hu]
    · rcases hm with h | h | h | ⟨h', h⟩
      · simp [h]
      · simp [h]
      · simp [h]
      · simp [h, h']

/-- writing changes the object: with dates its data get a time dimension, and the title is kept in its attributes -/
theorem dataset_write_changes (hdf5 : Bool) (w : WOpts) (old : Option File) (o : Sp) (nlat nlon : ℕ)
    (hg : Grid o nlat nlon 1) (hc : Consistent o) (hn : Distinct w.names) (hw : w.clobber = true ∨ old = none)
    (d : List (String × Attrs)) (hd : o.attrs = .dict d) (ha : w.attributes = none) (hr : NotRoot w.names)
    (hroot : (d.lookup "ROOT").getD [] ≠ []) (hdate : w.date = true) (hsh : o.data.shape = [nlat, nlon]) (t : String)
    (ht : t ≠ "" ∧ w.title = some t) :
    ∃ o1 f, write hdf5 w old o = .ok (o1, f) ∧ o1.data.shape = [nlat, nlon, 1] ∧ o1.data.flat = o.data.flat ∧
      attr o1 "ROOT" "title" = some (some t) := by
  obtain ⟨o1, f, k0, k1, k2, k3, k4, k5, k6, k7⟩ := write_spec hdf5 w old o nlat nlon 1 hg hc hn hw d hd
    (by intro a h; rw [ha] at h; simp at h) (Or.inl hdate)
  refine ⟨o1, f, k0, by rw [k6, hdate]; rfl, by rw [k6], ?_⟩
  rw [attr, k7, if_pos ⟨ha, hroot⟩]
  simp only
  rw [lookup_put, if_pos rfl, Option.getD_some]
  unfold attrsFor
  rw [writeAttrs_root w _ hr]
  simp [ht.1, ht.2]

/-! ## Examples: the hypotheses are met by a 2 × 3 grid with one masked cell -/

/-- a grid with a masked cell -/
def exGrid : Sp :=
  { lat := ⟨[2], [some 1, some 0]⟩, lon := ⟨[3], [some 0, some 1, some 2]⟩, time := ⟨[], [some 2004]⟩
    data := ⟨[2, 3], [some 1, some 2, some (-9999), some 4, some 5, some 6]⟩
    mask := ⟨[2, 3], [false, false, true, false, false, false]⟩
    fill := some (some (-9999)), attrs := .dict [("ROOT", [("institution", some "UCI")])] }

theorem exGrid_grid : Grid exGrid 2 3 1 := by
  constructor <;> decide

theorem exGrid_consistent : Consistent exGrid := by
  intro k x b h1 h2
  have hk : k < 6 := by
    by_contra hk
    rw [List.getElem?_eq_none (by show 6 ≤ k; omega)] at h1
    simp at h1
  interval_cases k <;> simp [exGrid] at h1 h2 ⊢ <;> subst h1 <;> subst h2 <;> simp <;> norm_num

theorem exDistinct : Distinct ({} : Names) := by unfold Distinct; decide

theorem exNotRoot : NotRoot ({} : Names) := by unfold NotRoot; decide

example := dataset_round_trip false {} none exGrid 2 3 1 exGrid_grid exGrid_consistent exDistinct (Or.inl rfl) _ rfl
  (by intro a h; simp at h) (Or.inl rfl) (by decide) (by decide)

example := dataset_attributes true { units := some "cmwe", title := some "t" } none exGrid 2 3 1 exGrid_grid
  exGrid_consistent exDistinct (Or.inl rfl) _ rfl rfl exNotRoot (Or.inl rfl) (by decide)

example := dataset_write_changes true { units := some "cmwe", title := some "t" } none exGrid 2 3 exGrid_grid
  exGrid_consistent exDistinct (Or.inl rfl) _ rfl rfl exNotRoot (by decide) rfl rfl "t" (by decide)

example := dataset_attributes_given true { attributes := some [("ROOT", [])] } none exGrid 2 3 1 exGrid_grid
  exGrid_consistent exDistinct (Or.inl rfl) _ rfl _ rfl (by decide) exNotRoot (Or.inl rfl) (by decide)

/-- a square grid -/
def exSquare : Sp :=
  { lat := ⟨[2], [some 1, some 0]⟩, lon := ⟨[2], [some 0, some 1]⟩, time := ⟨[1], [some 2004]⟩
    data := ⟨[2, 2, 1], [some 1, some 2, some 3, some 4]⟩
    mask := ⟨[2, 2, 1], [false, false, false, false]⟩
    fill := none, attrs := .dict [] }

example : ∃ o1 f o', write false {} none exSquare = .ok (o1, f) ∧ read {} true f = .ok o' ∧
    at3 o'.data 0 1 0 = some (some 3) := by
  have hg : Grid exSquare 2 2 1 := by constructor <;> decide
  have hc : Consistent exSquare := by
    intro k x b h1 h2
    have hk : k < 4 := by
      by_contra hk
      rw [List.getElem?_eq_none (by show 4 ≤ k; omega)] at h1
      simp at h1
    interval_cases k <;> simp [exSquare] at h1 h2 ⊢ <;> exact h2
  obtain ⟨o1, f, o', h1, h2, _, _, h3⟩ := dataset_square_transposed false {} none exSquare 2 hg hc exDistinct (Or.inl rfl) _
    rfl (by intro a h; simp at h) (Or.inl rfl) (by decide)
  exact ⟨o1, f, o', h1, h2, by rw [(h3 0 1 (by decide) (by decide)).1]; decide +kernel⟩

end Verif.SpatialIO.Data
