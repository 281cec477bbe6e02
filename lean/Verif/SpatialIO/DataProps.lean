import Verif.SpatialIO.Dataset
import Mathlib.Tactic.Ring
import Mathlib.Tactic.Linarith

/-!
# C82: grids in netCDF4 and HDF5 files
-/
namespace Verif.SpatialIO.Data
open Verif.SpatialIO (isFill)

/-! ## Specification -/

/-- the value at row `i`, column `j` and date `t`; a grid without time dimension has the date 0 only -/
def at3 {α : Type} (a : Arr α) (i j t : ℕ) : Option α :=
  match a.shape with
  | [r, c] => if i < r ∧ j < c ∧ t = 0 then a.flat[i * c + j]? else none
  | [r, c, n] => if i < r ∧ j < c ∧ t < n then a.flat[(i * c + j) * n + t]? else none
  | _ => none

/-- an object with `nlat` rows, `nlon` columns and `nt` dates; with a single date it may lack the time dimension -/
structure Grid (o : Sp) (nlat nlon nt : ℕ) : Prop where
  lat : o.lat.shape = [nlat] ∧ o.lat.flat.length = nlat
  lon : o.lon.shape = [nlon] ∧ o.lon.flat.length = nlon
  time : (o.time.shape = [nt] ∨ nt = 1 ∧ o.time.shape = []) ∧ o.time.flat.length = nt
  data : o.data.shape = [nlat, nlon, nt] ∨ nt = 1 ∧ o.data.shape = [nlat, nlon]
  mask : o.mask.shape = o.data.shape
  size : o.data.flat.length = nlat * nlon * nt ∧ o.mask.flat.length = nlat * nlon * nt

/-- the mask marks exactly the cells with the fill value; there is no NaN besides (C26: the operations keep this) -/
def Consistent (o : Sp) : Prop :=
  ∀ (k : ℕ) (x : Option ℚ) (b : Bool), o.data.flat[k]? = some x → o.mask.flat[k]? = some b →
    match o.fill with
    | none => b = false
    | some f => (b = true ↔ x = f) ∧ (x = none → f = none)

/-- the four names are different -/
def Distinct (ns : Names) : Prop := [ns.lat, ns.lon, ns.time, ns.data].Nodup

/-! ## Proofs -/

theorem mask_of_consistent (f x : Option ℚ) (b : Bool) (h : (b = true ↔ x = f) ∧ (x = none → f = none)) :
    (b || isFill (some f) x || x.isNone) = b ∧ (if b then f else x) = x ∧ (isFill (some f) x || x.isNone) = b := by
  obtain ⟨h1, h2⟩ := h
  cases x with
  | none =>
    have hf := h2 rfl
    subst hf
    simp at h1
    subst h1
    simp [isFill]
  | some v =>
    cases f with
    | none =>
      simp at h1
      subst h1
      simp [isFill]
    | some w =>
      by_cases hw : v = w
      · subst hw
        simp at h1
        subst h1
        simp [isFill]
      · have : b = false := by
          cases b with
          | false => rfl
          | true => exact absurd (Option.some.inj (h1.1 rfl)) hw
        subst this
        have : w ≠ v := fun e => hw e.symm
        simp [isFill, this]

theorem zipWith_ext {α β γ : Type} (f : α → β → γ) (l : List α) (m : List β) (r : List γ) (h1 : l.length = m.length)
    (h2 : l.length = r.length)
    (h : ∀ (k : ℕ) a b c, l[k]? = some a → m[k]? = some b → r[k]? = some c → f a b = c) : List.zipWith f l m = r := by
  apply List.ext_getElem
  · simp; omega
  · intro k hk hk'
    have a1 : k < l.length := by omega
    have a2 : k < m.length := by omega
    rw [List.getElem_zipWith]
    exact h k _ _ _ (List.getElem?_eq_getElem a1) (List.getElem?_eq_getElem a2) (List.getElem?_eq_getElem hk')

/-- a consistent object is not changed by `update_mask` -/
theorem updateMask_consistent (o : Sp) (hc : Consistent o) (hl : o.data.flat.length = o.mask.flat.length) :
    updateMask o = o := by
  unfold updateMask
  cases hf : o.fill with
  | none => rfl
  | some f =>
    have key : ∀ (k : ℕ) x b, o.data.flat[k]? = some x → o.mask.flat[k]? = some b →
        (b = true ↔ x = f) ∧ (x = none → f = none) := by
      intro k x b h1 h2
      have := hc k x b h1 h2
      rw [hf] at this
      exact this
    have h1 : List.zipWith (fun x b => b || isFill (some f) x || x.isNone) o.data.flat o.mask.flat = o.mask.flat := by
      apply zipWith_ext _ _ _ _ hl hl
      intro k a b c ha hb hc'
      rw [hb] at hc'
      rw [← Option.some.inj hc']
      exact (mask_of_consistent f a b (key k a b ha hb)).1
    have h2 : List.zipWith (fun x b => if b then f else x) o.data.flat o.mask.flat = o.data.flat := by
      apply zipWith_ext _ _ _ _ hl rfl
      intro k a b c ha hb hc'
      rw [ha] at hc'
      rw [← Option.some.inj hc']
      exact (mask_of_consistent f a b (key k a b ha hb)).2.1
    simp only [h1, h2]
    cases o; simp_all

/-- the mask made by the readers is the mask of the consistent object -/
theorem read_mask (o r : Sp) (hc : Consistent o) (hl : o.data.flat.length = o.mask.flat.length)
    (hd : r.data = o.data) (hf : r.fill = o.fill) (hm : r.mask = ⟨o.data.shape, o.data.flat.map fun x => isFill o.fill x⟩) :
    (updateMask r).data = o.data ∧ (updateMask r).mask = ⟨o.data.shape, o.mask.flat⟩ := by
  unfold updateMask
  rw [hf]
  cases hff : o.fill with
  | none =>
    simp only [hd, hm, hff]
    refine ⟨trivial, ?_⟩
    congr 1
    apply List.ext_getElem
    · simpa using hl
    · intro k h1 h2
      have hk : k < o.data.flat.length := by simpa using h1
      have := hc k _ _ (List.getElem?_eq_getElem hk) (List.getElem?_eq_getElem h2)
      rw [hff] at this
      simp only at this
      rw [List.getElem_map, this]
      rfl
  | some f =>
    have key : ∀ (k : ℕ) x b, o.data.flat[k]? = some x → o.mask.flat[k]? = some b →
        (b = true ↔ x = f) ∧ (x = none → f = none) := by
      intro k x b h1 h2
      have := hc k x b h1 h2
      rw [hff] at this
      exact this
    have h1 : List.zipWith (fun x b => b || isFill (some f) x || x.isNone) o.data.flat
        (o.data.flat.map fun x => isFill (some f) x) = o.mask.flat := by
      apply zipWith_ext _ _ _ _ (by simp) hl
      intro k a b c ha hb hc'
      rw [List.getElem?_map, ha] at hb
      have hb' := Option.some.inj hb
      rw [← hb']
      have := (mask_of_consistent f a c (key k a c ha hc')).2.2
      rw [← this]
      show (isFill (some f) a || isFill (some f) a || a.isNone) = _
      rw [Bool.or_self]
    have h2 : List.zipWith (fun x b => if b then f else x) o.data.flat o.mask.flat = o.data.flat := by
      apply zipWith_ext _ _ _ _ hl rfl
      intro k a b c ha hb hc'
      rw [ha] at hc'
      rw [← Option.some.inj hc']
      exact (mask_of_consistent f a b (key k a b ha hb)).2.1
    simp only [hd, hm, hff, h1, h2]
    exact ⟨trivial, trivial⟩

theorem lookup_snoc {α : Type} (l : List (String × α)) (k : String) (v : α) (h : l.lookup k = none) :
    (l ++ [(k, v)]).lookup k = some v := by
  induction l with
  | nil => simp
  | cons p t ih =>
    obtain ⟨a, b⟩ := p
    rw [List.lookup_cons] at h
    rw [List.cons_append, List.lookup_cons]
    cases hk : k == a with
    | true => rw [hk] at h; simp at h
    | false => rw [hk] at h; exact ih h

theorem lookup_snoc_ne {α : Type} (l : List (String × α)) (k k' : String) (v : α) (h : k ≠ k') :
    (l ++ [(k', v)]).lookup k = l.lookup k := by
  induction l with
  | nil => simp [h]
  | cons p t ih =>
    obtain ⟨a, b⟩ := p
    rw [List.cons_append, List.lookup_cons, List.lookup_cons, ih]

/-- the attributes used by the writers -/
def attrsFor (w : WOpts) (d : List (String × Attrs)) : List (String × Attrs) :=
  writeAttrs w.names w ((d.lookup "ROOT").getD [])

theorem expand_grid (o : Sp) (nlat nlon nt : ℕ) (hg : Grid o nlat nlon nt) (hc : Consistent o) :
    (expandDims o).lat = o.lat ∧ (expandDims o).lon = o.lon ∧ (expandDims o).time = ⟨[nt], o.time.flat⟩ ∧
      (expandDims o).data = ⟨[nlat, nlon, nt], o.data.flat⟩ ∧ (expandDims o).mask = ⟨[nlat, nlon, nt], o.mask.flat⟩ ∧
      (expandDims o).fill = o.fill ∧ (expandDims o).attrs = o.attrs := by
  unfold expandDims
  rw [updateMask_consistent]
  · refine ⟨rfl, rfl, ?_, ?_, ?_, rfl, rfl⟩
    · rcases hg.time with ⟨h | ⟨rfl, h⟩, _⟩
      · simp [atleast1d, h]
        cases ho : o.time; simp [ho] at h; simp [h]
      · simp [atleast1d, h]
    · rcases hg.data with h | ⟨rfl, h⟩
      · simp [addDim, h]
        cases ho : o.data; simp [ho] at h; simp [h]
      · simp [addDim, h]
    · have hm := hg.mask
      rcases hg.data with h | ⟨rfl, h⟩
      · rw [h] at hm
        simp [h]
        cases ho : o.mask; simp [ho] at hm; simp [hm]
      · rw [h] at hm
        simp [addDim, h, hm]
  · intro k x b h1 h2
    refine hc k x b ?_ ?_
    · simpa [addDim, apply_ite Arr.flat] using h1
    · by_cases h : o.data.shape.length = 2
      · simp only [h, if_true] at h2
        simpa [addDim, apply_ite Arr.flat] using h2
      · simpa only [h, if_false] using h2
  · have := hg.size
    have e1 : (addDim o.data).flat = o.data.flat := by unfold addDim; split <;> rfl
    have e2 : (if o.data.shape.length = 2 then addDim o.mask else o.mask).flat = o.mask.flat := by
      split
      · unfold addDim; split <;> rfl
      · rfl
    simp only [e1, e2]
    omega

theorem addAxis_ok (key : String) (a : Arr (Option ℚ)) (at_ : Attrs) (f : File) (h1 : f.dims.lookup key = none)
    (h2 : f.vars.lookup key = none) (h3 : a.shape = [a.flat.length]) : addAxis key a at_ f =
      .ok { f with dims := f.dims ++ [(key, a.flat.length)], vars := f.vars ++ [(key, ⟨a, none, varAttrs at_⟩)] } := by
  unfold addAxis
  rw [if_neg (by rw [h1, h2]; simp), if_neg (by rw [← h3]; simp)]

theorem addData_ok (key : String) (dims : List ℕ) (a : Arr (Option ℚ)) (fill : Option (Option ℚ)) (at_ : Attrs) (f : File)
    (h2 : f.vars.lookup key = none) (h3 : a.shape = dims.take a.shape.length) : addData key dims a fill at_ f =
      .ok { f with vars := f.vars ++ [(key, ⟨a, fill, varAttrs at_⟩)] } := by
  unfold addData
  rw [if_neg (by rw [h2]; simp), if_neg (by rw [← h3]; simp)]

/-- what is in a freshly written file -/
theorem write_spec (hdf5 : Bool) (w : WOpts) (old : Option File) (o : Sp) (nlat nlon nt : ℕ) (hg : Grid o nlat nlon nt)
    (hc : Consistent o) (hn : Distinct w.names) (hw : w.clobber = true ∨ old = none) (d : List (String × Attrs))
    (hd : o.attrs = .dict d) (ha : ∀ a, w.attributes = some a → a.lookup "ROOT" ≠ none)
    (hdate : w.date = true ∨ o.data.shape = [nlat, nlon]) :
    ∃ o1 f, write hdf5 w old o = .ok (o1, f) ∧
      f.vars.lookup w.names.lat = some ⟨o.lat, none, varAttrs (((attrsFor w d).lookup w.names.lat).getD [])⟩ ∧
      f.vars.lookup w.names.lon = some ⟨o.lon, none, varAttrs (((attrsFor w d).lookup w.names.lon).getD [])⟩ ∧
      (w.date = true → f.vars.lookup w.names.time =
        some ⟨⟨[nt], o.time.flat⟩, none, varAttrs (((attrsFor w d).lookup w.names.time).getD [])⟩) ∧
      f.vars.lookup w.names.data = some ⟨⟨if w.date then [nlat, nlon, nt] else [nlat, nlon], o.data.flat⟩, o.fill,
        varAttrs (((attrsFor w d).lookup w.names.data).getD [])⟩ ∧
      f.root = ((attrsFor w d).lookup "ROOT").getD [] ∧
      o1.data = ⟨if w.date then [nlat, nlon, nt] else [nlat, nlon], o.data.flat⟩ ∧
      o1.attrs = (if w.attributes = none ∧ (d.lookup "ROOT").getD [] ≠ [] then
        .dict (put "ROOT" (((attrsFor w d).lookup "ROOT").getD []) d) else o.attrs) := by
  unfold Distinct at hn
  simp only [List.nodup_cons, List.mem_cons, List.not_mem_nil, or_false, not_or, List.nodup_nil, and_true,
    not_false_eq_true] at hn
  obtain ⟨⟨n1, n2, n3⟩, ⟨n4, n5⟩, n6⟩ := hn
  have g1 : ¬ (w.attributes.isSome ∧ ((w.attributes.getD []).lookup "ROOT") = none) := by
    rintro ⟨h1, h2⟩
    obtain ⟨a, h⟩ := Option.isSome_iff_exists.1 h1
    rw [h] at h2
    exact ha a h h2
  have g2 : ¬ (hdf5 = true ∧ w.clobber = false ∧ old.isSome = true) := by
    rintro ⟨_, h2, h3⟩
    rcases hw with h | h
    · rw [h] at h2; simp at h2
    · rw [h] at h3; simp at h3
  have g3 : (if w.clobber then (⟨[], [], []⟩ : File) else old.getD ⟨[], [], []⟩) = ⟨[], [], []⟩ := by
    rcases hw with h | h
    · simp [h]
    · simp [h]
  obtain ⟨e1, e2, e3, e4, e5, e6, e7⟩ := expand_grid o nlat nlon nt hg hc
  have q1 : o.lat.shape = [o.lat.flat.length] := by rw [hg.lat.1, hg.lat.2]
  have q2 : o.lon.shape = [o.lon.flat.length] := by rw [hg.lon.1, hg.lon.2]
  have b1 : (w.names.lon == w.names.lat) = false := beq_false_of_ne (Ne.symm n1)
  have b2 : (w.names.time == w.names.lat) = false := beq_false_of_ne (Ne.symm n2)
  have b3 : (w.names.data == w.names.lat) = false := beq_false_of_ne (Ne.symm n3)
  have b4 : (w.names.time == w.names.lon) = false := beq_false_of_ne (Ne.symm n4)
  have b5 : (w.names.data == w.names.lon) = false := beq_false_of_ne (Ne.symm n5)
  have b6 : (w.names.data == w.names.time) = false := beq_false_of_ne (Ne.symm n6)
  unfold write
  rw [hd]
  simp only [if_neg g1, if_neg g2, g3]
  by_cases hdt : w.date = true
  · have hdt' := hdt
    simp only [hdt, if_true]
    set o1 : Sp := if w.attributes = none ∧ (d.lookup "ROOT").getD [] ≠ [] then
      { expandDims o with attrs := .dict (put "ROOT" (((attrsFor w d).lookup "ROOT").getD []) d) } else expandDims o with ho1
    have k1 : o1.lat = o.lat := by rw [ho1]; split <;> exact e1
    have k2 : o1.lon = o.lon := by rw [ho1]; split <;> exact e2
    have k3 : o1.time = ⟨[nt], o.time.flat⟩ := by rw [ho1]; split <;> exact e3
    have k4 : o1.data = ⟨[nlat, nlon, nt], o.data.flat⟩ := by rw [ho1]; split <;> exact e4
    have k5 : o1.attrs = (if w.attributes = none ∧ (d.lookup "ROOT").getD [] ≠ [] then
        .dict (put "ROOT" (((attrsFor w d).lookup "ROOT").getD []) d) else o.attrs) := by
      rw [ho1]; split
      · rfl
      · exact e7
    have ho1' : (if w.attributes = none ∧ (d.lookup "ROOT").getD [] ≠ [] then
      { expandDims o with attrs := .dict (put "ROOT" (((writeAttrs w.names w ((d.lookup "ROOT").getD [])).lookup "ROOT").getD []) d) }
        else expandDims o) = o1 := rfl
    simp only [ho1', k1, k2, k3, k4]
    have A1 := addAxis_ok w.names.lat o.lat (((attrsFor w d).lookup w.names.lat).getD []) ⟨[], [], []⟩ rfl rfl q1
    have A2 := addAxis_ok w.names.lon o.lon (((attrsFor w d).lookup w.names.lon).getD [])
      ⟨[(w.names.lat, o.lat.flat.length)],
        [(w.names.lat, ⟨o.lat, none, varAttrs (((attrsFor w d).lookup w.names.lat).getD [])⟩)], []⟩
      (by simp [List.lookup_cons, b1]) (by simp [List.lookup_cons, b1]) q2
    have A3 := addAxis_ok w.names.time ⟨[nt], o.time.flat⟩ (((attrsFor w d).lookup w.names.time).getD []) 
      (⟨[(w.names.lat, o.lat.flat.length), (w.names.lon, o.lon.flat.length)],
        [(w.names.lat, ⟨o.lat, none, varAttrs (((attrsFor w d).lookup w.names.lat).getD [])⟩),
         (w.names.lon, ⟨o.lon, none, varAttrs (((attrsFor w d).lookup w.names.lon).getD [])⟩)], []⟩)
      (by simp [List.lookup_cons, b2, b4]) (by simp [List.lookup_cons, b2, b4]) (by simp [hg.time.2])
    have A4 := addData_ok w.names.data [o.lat.flat.length, o.lon.flat.length, o.time.flat.length]
      ⟨[nlat, nlon, nt], o.data.flat⟩ o.fill (((attrsFor w d).lookup w.names.data).getD [])
      (⟨[(w.names.lat, o.lat.flat.length), (w.names.lon, o.lon.flat.length), (w.names.time, o.time.flat.length)],
        [(w.names.lat, ⟨o.lat, none, varAttrs (((attrsFor w d).lookup w.names.lat).getD [])⟩),
         (w.names.lon, ⟨o.lon, none, varAttrs (((attrsFor w d).lookup w.names.lon).getD [])⟩),
         (w.names.time, ⟨⟨[nt], o.time.flat⟩, none, varAttrs (((attrsFor w d).lookup w.names.time).getD [])⟩)], []⟩)
      (by simp [List.lookup_cons, b3, b5, b6]) (by simp [hg.lat.2, hg.lon.2, hg.time.2])
    unfold attrsFor at A1 A2 A3 A4
    simp only [List.nil_append, List.cons_append] at A1 A2 A3 A4 ⊢
    simp only [addTime, if_true, A1, A2, A3, A4, bind, Except.bind, pure, Except.pure]
    refine ⟨_, _, rfl, ?_, ?_, ?_, ?_, ?_, ?_, ?_⟩
    · simp [attrsFor]
    · simp [List.lookup_cons, b1, attrsFor]
    · intro _; simp [List.lookup_cons, b2, b4, attrsFor]
    · simp [List.lookup_cons, b3, b5, b6, attrsFor]
    · simp [attrsFor]
    · exact k4
    · rw [k5, hd]
  · have hdt' : w.date = false := by simpa using hdt
    have hsh : o.data.shape = [nlat, nlon] := by
      rcases hdate with h | h
      · exact absurd h hdt
      · exact h
    simp only [hdt', Bool.false_eq_true, if_false]
    set o1 : Sp := if w.attributes = none ∧ (d.lookup "ROOT").getD [] ≠ [] then
      { o with attrs := .dict (put "ROOT" (((attrsFor w d).lookup "ROOT").getD []) d) } else o with ho1
    have k1 : o1.lat = o.lat := by rw [ho1]; split <;> rfl
    have k2 : o1.lon = o.lon := by rw [ho1]; split <;> rfl
    have k4 : o1.data = ⟨[nlat, nlon], o.data.flat⟩ := by
      have : o.data = ⟨[nlat, nlon], o.data.flat⟩ := by
        cases ho : o.data; simp [ho] at hsh; simp [hsh]
      rw [ho1]; split <;> exact this
    have k5 : o1.attrs = (if w.attributes = none ∧ (d.lookup "ROOT").getD [] ≠ [] then
        .dict (put "ROOT" (((attrsFor w d).lookup "ROOT").getD []) d) else o.attrs) := by
      rw [ho1]; split <;> rfl
    have ho1' : (if w.attributes = none ∧ (d.lookup "ROOT").getD [] ≠ [] then
      { o with attrs := .dict (put "ROOT" (((writeAttrs w.names w ((d.lookup "ROOT").getD [])).lookup "ROOT").getD []) d) }
        else o) = o1 := rfl
    simp only [ho1', k1, k2, k4]
    have A1 := addAxis_ok w.names.lat o.lat (((attrsFor w d).lookup w.names.lat).getD []) ⟨[], [], []⟩ rfl rfl q1
    have A2 := addAxis_ok w.names.lon o.lon (((attrsFor w d).lookup w.names.lon).getD [])
      ⟨[(w.names.lat, o.lat.flat.length)],
        [(w.names.lat, ⟨o.lat, none, varAttrs (((attrsFor w d).lookup w.names.lat).getD [])⟩)], []⟩
      (by simp [List.lookup_cons, b1]) (by simp [List.lookup_cons, b1]) q2
    have A4 := addData_ok w.names.data [o.lat.flat.length, o.lon.flat.length]
      ⟨[nlat, nlon], o.data.flat⟩ o.fill (((attrsFor w d).lookup w.names.data).getD [])
      (⟨[(w.names.lat, o.lat.flat.length), (w.names.lon, o.lon.flat.length)],
        [(w.names.lat, ⟨o.lat, none, varAttrs (((attrsFor w d).lookup w.names.lat).getD [])⟩),
         (w.names.lon, ⟨o.lon, none, varAttrs (((attrsFor w d).lookup w.names.lon).getD [])⟩)], []⟩)
      (by simp [List.lookup_cons, b3, b5]) (by simp [hg.lat.2, hg.lon.2])
    unfold attrsFor at A1 A2 A4
    simp only [List.nil_append, List.cons_append, List.append_nil] at A1 A2 A4 ⊢
    simp only [addTime, Bool.false_eq_true, if_false, A1, A2, A4, bind, Except.bind, pure, Except.pure]
    refine ⟨_, _, rfl, ?_, ?_, ?_, ?_, ?_, ?_, ?_⟩
    · simp [attrsFor]
    · simp [List.lookup_cons, b1, attrsFor]
    · intro h; simp at h
    · simp [List.lookup_cons, b3, b5, attrsFor]
    · simp [attrsFor]
    · exact k4
    · rw [k5, hd]

theorem flatMap_getElem? {α : Type} (g : ℕ → ℕ → α) (r : ℕ) (hr : 0 < r) (c k : ℕ) :
    ((List.range c).flatMap fun j : ℕ => (List.range r).map fun i : ℕ => g j i)[k]? =
      if k < c * r then some (g (k / r) (k % r)) else none := by
  induction c with
  | zero => simp
  | succ c ih =>
    rw [List.range_succ, List.flatMap_append]
    have hlen : ((List.range c).flatMap fun j : ℕ => (List.range r).map fun i : ℕ => g j i).length = c * r := by
      simp [List.length_flatMap]
    by_cases hk : k < c * r
    · rw [List.getElem?_append_left (by rw [hlen]; exact hk), ih, if_pos hk, if_pos (by rw [Nat.succ_mul]; omega)]
    · rw [List.getElem?_append_right (by rw [hlen]; omega), hlen]
      simp only [List.flatMap_cons, List.flatMap_nil, List.append_nil]
      rw [List.getElem?_map]
      by_cases hk2 : k < (c + 1) * r
      · rw [Nat.succ_mul] at hk2
        have h1 : k - c * r < r := by omega
        rw [List.getElem?_range h1, if_pos (by rw [Nat.succ_mul]; omega)]
        have e : k = r * c + (k - c * r) := by rw [Nat.mul_comm r c]; omega
        have d1 : k / r = c := by
          rw [e, Nat.mul_add_div hr, Nat.div_eq_of_lt h1]; rfl
        have d2 : k % r = k - c * r := by
          conv_lhs => rw [e]
          rw [Nat.mul_add_mod, Nat.mod_eq_of_lt h1]
        rw [d1, d2]; rfl
      · rw [if_neg hk2, List.getElem?_eq_none]
        · rfl
        · rw [Nat.succ_mul] at hk2
          simp; omega

theorem transpose_flat {α : Type} [Inhabited α] (l : List α) (n : ℕ) (hn : 0 < n) (hl : l.length = n * n) (k : ℕ)
    (hk : k < n * n) : (transpose (⟨[n, n], l⟩ : Arr α)).flat[k]? = l[k % n * n + k / n]? := by
  unfold transpose
  simp only
  rw [flatMap_getElem? (fun j i => l.getD (i * n + j) default) n hn n k, if_pos hk]
  have h1 : k % n < n := Nat.mod_lt _ hn
  have h2 : k / n < n := Nat.div_lt_of_lt_mul hk
  have h3 : k % n * n + k / n < l.length := by rw [hl]; nlinarith
  rw [List.getD_eq_getElem?_getD, List.getElem?_eq_getElem h3]
  rfl

theorem transpose_length {α : Type} [Inhabited α] (l : List α) (n : ℕ) :
    (transpose (⟨[n, n], l⟩ : Arr α)).flat.length = n * n := by
  unfold transpose
  simp [List.length_flatMap]

theorem transpose_at {α : Type} [Inhabited α] (l : List α) (n : ℕ) (hl : l.length = n * n) (i j : ℕ) (hi : i < n)
    (hj : j < n) : at3 (transpose (⟨[n, n], l⟩ : Arr α)) i j 0 = at3 (⟨[n, n], l⟩ : Arr α) j i 0 := by
  have hn : 0 < n := by omega
  have hk : i * n + j < n * n := by nlinarith
  have hs : (transpose (⟨[n, n], l⟩ : Arr α)).shape = [n, n] := rfl
  unfold at3
  rw [hs]
  simp only [hi, hj, and_self, if_true]
  rw [transpose_flat l n hn hl _ hk]
  have e1 : (i * n + j) % n = j := by rw [Nat.mul_comm, Nat.mul_add_mod, Nat.mod_eq_of_lt hj]
  have e2 : (i * n + j) / n = i := by rw [Nat.mul_comm, Nat.mul_add_div hn, Nat.div_eq_of_lt hj]; rfl
  rw [e1, e2]

theorem transpose_consistent (o : Sp) (hc : Consistent o) (n : ℕ) (hn : 0 < n) (h1 : o.data.flat.length = n * n)
    (h2 : o.mask.flat.length = n * n) :
    Consistent { o with data := transpose ⟨[n, n], o.data.flat⟩, mask := transpose ⟨[n, n], o.mask.flat⟩ } := by
  intro k x b hx hb
  have hk : k < n * n := by
    have := (List.getElem?_eq_some_iff.1 hx).1
    rwa [transpose_length] at this
  simp only at hx hb
  rw [transpose_flat _ n hn h1 k hk] at hx
  rw [transpose_flat _ n hn h2 k hk] at hb
  exact hc _ x b hx hb

/-- what is read from a freshly written file, up to the transposition -/
theorem read_spec (w : WOpts) (o : Sp) (nlat nlon nt : ℕ) (hg : Grid o nlat nlon nt) (d : List (String × Attrs)) (f : File)
    (h1 : f.vars.lookup w.names.lat = some ⟨o.lat, none, varAttrs (((attrsFor w d).lookup w.names.lat).getD [])⟩)
    (h2 : f.vars.lookup w.names.lon = some ⟨o.lon, none, varAttrs (((attrsFor w d).lookup w.names.lon).getD [])⟩)
    (h3 : w.date = true → f.vars.lookup w.names.time =
        some ⟨⟨[nt], o.time.flat⟩, none, varAttrs (((attrsFor w d).lookup w.names.time).getD [])⟩)
    (sh : List ℕ) (h4 : f.vars.lookup w.names.data = some ⟨⟨sh, o.data.flat⟩, o.fill,
        varAttrs (((attrsFor w d).lookup w.names.data).getD [])⟩) (hlat : nlat ≠ 1) (hlon : nlon ≠ 1)
    (z : Arr (Option ℚ)) (hz : z = orient nlon ⟨sh.filter fun n => n ≠ 1, o.data.flat⟩) :
    ∃ o' r, read w.names w.date f = .ok o' ∧ o' = updateMask r ∧ r.data = z ∧ r.fill = o.fill ∧
      r.mask = ⟨z.shape, z.flat.map fun x => isFill o.fill x⟩ ∧ r.lat = o.lat ∧ r.lon = o.lon ∧
      (w.date = true → r.time = squeeze ⟨[nt], o.time.flat⟩) ∧
      (∃ v, r.attrs = .dict ([("ROOT", f.root), ("lon", v)] ++
        [("lat", (varAttrs (((attrsFor w d).lookup w.names.lat).getD [])).filter fun p => p.1 ∈ attributeNames),
         ("data", (varAttrs (((attrsFor w d).lookup w.names.data).getD [])).filter fun p => p.1 ∈ attributeNames)] ++
        if w.date then
          [("time", (varAttrs (((attrsFor w d).lookup w.names.time).getD [])).filter fun p => p.1 ∈ attributeNames)]
        else [])) := by
  have s1 : squeeze o.lat = o.lat := by
    unfold squeeze
    cases ho : o.lat
    have := hg.lat.1
    rw [ho] at this
    simp at this
    simp [this, hlat]
  have s2 : squeeze o.lon = o.lon := by
    unfold squeeze
    cases ho : o.lon
    have := hg.lon.1
    rw [ho] at this
    simp at this
    simp [this, hlon]
  have s3 : squeeze (⟨sh, o.data.flat⟩ : Arr (Option ℚ)) = ⟨sh.filter fun n => n ≠ 1, o.data.flat⟩ := rfl
  have hlne : o.lon.shape ≠ [] := by rw [hg.lon.1]; simp
  have hz' : orient o.lon.flat.length ⟨sh.filter fun n => n ≠ 1, o.data.flat⟩ = z := by rw [hz, hg.lon.2]
  unfold read getTime assemble getVar
  rw [h1, h2, h4]
  by_cases hd : w.date = true
  · rw [h3 hd]
    simp only [hd, if_true, bind, Except.bind, s1, s2, s3, hlne, and_false, if_false, pure, Except.pure]
    rw [hz']
    exact ⟨_, _, rfl, rfl, rfl, rfl, rfl, rfl, rfl, fun _ => rfl, _, rfl⟩
  · have hd' : w.date = false := by simpa using hd
    simp only [hd', Bool.false_eq_true, if_false, bind, Except.bind, s1, s2, s3, hlne, and_false, pure, Except.pure]
    rw [hz']
    exact ⟨_, _, rfl, rfl, rfl, rfl, rfl, rfl, rfl, fun h => by simp at h, _, rfl⟩

end Verif.SpatialIO.Data
