import Verif.PlotGrid.More
/-!
# C114: maps with several panels, movies
-/
namespace Verif.PlotGrid
open Verif.Spatial

/-- the grid of a panel after the file has been read: an offset of zero and the scale, the mask, the direction -/
def shown (c dlat : ℚ) (mask : Option Mask) (o : Sp ℚ) : Sp ℚ :=
  let o := if c ≠ 1 then scale (offset o fun _ => some 0) fun _ => some c else o
  let o := match mask with
    | none => o
    | some m => applyMask o m
  if dlat < 0 then flip o 0 else o

theorem panel_known (read : String → String → Except Err (Sp ℚ)) (c dlat : ℚ) (mask : Option Mask) (old : Option (Sp ℚ))
    (form file : String) (o : Sp ℚ) (hf : form = "ascii" ∨ form = "netCDF4" ∨ form = "HDF5") (hr : read form file = .ok o) :
    panel read .zero c dlat mask old form file = .ok (shown c dlat mask o) := by
  unfold panel
  rw [if_pos hf, hr]
  rfl

theorem panel_unknown (read : String → String → Except Err (Sp ℚ)) (c dlat : ℚ) (mask : Option Mask) (o : Sp ℚ)
    (form file : String) (hf : ¬ (form = "ascii" ∨ form = "netCDF4" ∨ form = "HDF5")) :
    panel read .zero c dlat mask (some o) form file = .ok (shown c dlat mask o) ∧
    panel read .zero c dlat mask none form file = .error .unbound := by
  constructor
  · unfold panel
    rw [if_neg hf]
    rfl
  · unfold panel
    rw [if_neg hf]
    rfl

/-- C114 (negative): with a field to remove no map can be made: the truth value of an array is a `ValueError`, whatever the file. -/
theorem remove_fails (read : String → String → Except Err (Sp ℚ)) (v : Idx → Val ℚ) (c dlat : ℚ) (mask : Option Mask)
    (old : Option (Sp ℚ)) (form file : String) : ∀ o, panel read (.field v) c dlat mask old form file ≠ .ok o := by
  intro o h
  unfold panel at h
  by_cases hf : form = "ascii" ∨ form = "netCDF4" ∨ form = "HDF5"
  · rw [if_pos hf] at h
    cases hr : read form file with
    | error e => rw [hr] at h; cases h
    | ok o => rw [hr] at h; cases h
  · rw [if_neg hf] at h
    cases old <;> cases h

theorem remove_value_error (read : String → String → Except Err (Sp ℚ)) (v : Idx → Val ℚ) (c dlat : ℚ) (mask : Option Mask)
    (old : Option (Sp ℚ)) (form file : String) (o : Sp ℚ) (hf : form = "ascii" ∨ form = "netCDF4" ∨ form = "HDF5")
    (hr : read form file = .ok o) : panel read (.field v) c dlat mask old form file = .error .value := by
  unfold panel
  rw [if_pos hf, hr]
  rfl

/-- the same for the whole figure, for every list of at least one file -/
theorem remove_no_figure (read : String → String → Except Err (Sp ℚ)) (v : Idx → Val ℚ) (c dlat : ℚ) (ls : Option LandSea)
    (forms : Forms) (size : ℕ × ℕ) (zoom : ℕ → ℕ → ℕ → Bool) (files : List String) (hne : files ≠ []) (r : List (Sp ℚ)) :
    panels read (.field v) c dlat ls forms size zoom files ≠ .ok r := by
  obtain ⟨f, fs, rfl⟩ := List.exists_cons_of_ne_nil hne
  intro h
  unfold panels panelsFrom at h
  cases hg : (extend (f :: fs).length forms).get 0 with
  | none => rw [hg] at h; cases h
  | some s =>
    rw [hg] at h
    cases hp : panel read (.field v) c dlat (if ls.isSome = true then ls.map landMask else none) none s f with
    | error e =>
      have : (Except.error e : Except Err (List (Sp ℚ))) = .ok r := by
        rw [← h]; simp only [bind, Except.bind]; rw [hp]
      cases this
    | ok o => exact remove_fails _ _ _ _ _ _ _ _ o hp

/-- the format of panel `i` is one that exists -/
def KnownForm (forms : Forms) (i : ℕ) (s : String) : Prop := forms.get i = some s ∧ (s = "ascii" ∨ s = "netCDF4" ∨ s = "HDF5")

theorem panelsFrom_ok (read : String → String → Except Err (Sp ℚ)) (c dlat : ℚ) (useMask : Bool) (forms : Forms) (size : ℕ × ℕ)
    (zoom : ℕ → ℕ → ℕ → Bool) (form : ℕ → String) (obj : ℕ → Sp ℚ) : ∀ (files : List String) (i : ℕ) (mask : Option Mask)
    (old : Option (Sp ℚ)), (∀ k, k < files.length → KnownForm forms (i + k) (form (i + k))) →
    (∀ k f, files[k]? = some f → read (form (i + k)) f = .ok (obj (i + k))) →
    ∃ r, panelsFrom read .zero c dlat useMask forms size zoom i mask old files = .ok r ∧ r.length = files.length ∧
      ∀ k, k < files.length → r[k]? = some (shown c dlat
        (if useMask then (if k = 0 then mask else some (zoomed size (zoom (i + k - 1)))) else none) (obj (i + k))) := by
  intro files
  induction files with
  | nil => intro i mask old _ _; exact ⟨[], rfl, rfl, fun k hk => by simp at hk⟩
  | cons f fs ih =>
    intro i mask old hk hr
    obtain ⟨hg, hf⟩ := hk 0 (by simp)
    have hr0 := hr 0 f (by simp)
    simp only [Nat.add_zero] at hg hf hr0
    have hp := panel_known read c dlat (if useMask then mask else none) old (form i) f (obj i) hf hr0
    obtain ⟨r, h1, h2, h3⟩ := ih (i + 1) (some (zoomed size (zoom i))) (some (shown c dlat (if useMask then mask else none) (obj i)))
      (fun k hlt => by have := hk (k + 1) (by simpa using hlt); rwa [show i + (k + 1) = i + 1 + k by omega] at this)
      (fun k g hgk => by have := hr (k + 1) g (by simpa using hgk); rwa [show i + (k + 1) = i + 1 + k by omega] at this)
    refine ⟨shown c dlat (if useMask then mask else none) (obj i) :: r, ?_, by simp [h2], ?_⟩
    · unfold panelsFrom
      rw [hg]
      simp only [bind, Except.bind]
      rw [hp]
      simp only
      rw [h1]
    · intro k hlt
      cases k with
      | zero => simp
      | succ k =>
        have := h3 k (by simpa using hlt)
        rw [List.getElem?_cons_succ, this, show i + 1 + k = i + (k + 1) by omega]
        by_cases hk0 : k = 0
        · subst hk0; simp
        · simp [hk0]

/-- C114: without a land-sea file, if all formats exist and all files can be read, panel `k` shows file `k`: read with its format,
scaled and turned. -/
theorem panels_plain (read : String → String → Except Err (Sp ℚ)) (c dlat : ℚ) (forms : Forms) (size : ℕ × ℕ)
    (zoom : ℕ → ℕ → ℕ → Bool) (files : List String) (form : ℕ → String) (obj : ℕ → Sp ℚ)
    (hk : ∀ k, k < files.length → KnownForm (extend files.length forms) k (form k))
    (hr : ∀ k f, files[k]? = some f → read (form k) f = .ok (obj k)) :
    ∃ r, panels read .zero c dlat none forms size zoom files = .ok r ∧ r.length = files.length ∧
      ∀ k, k < files.length → r[k]? = some (shown c dlat none (obj k)) := by
  obtain ⟨r, h1, h2, h3⟩ := panelsFrom_ok read c dlat false (extend files.length forms) size zoom form obj files 0 none none
    (fun k h => by simpa using hk k h) (fun k f h => by simpa using hr k f h)
  refine ⟨r, h1, h2, fun k h => ?_⟩
  have := h3 k h
  simpa using this

/-- C114 (negative): with a land-sea file only the first panel gets its mask: the others get the mask of the image of the panel
before, which is passed over unless the grid has five times as many rows and columns as an image. -/
theorem panels_mask (read : String → String → Except Err (Sp ℚ)) (c dlat : ℚ) (ls : LandSea) (forms : Forms) (size : ℕ × ℕ)
    (zoom : ℕ → ℕ → ℕ → Bool) (files : List String) (form : ℕ → String) (obj : ℕ → Sp ℚ)
    (hk : ∀ k, k < files.length → KnownForm (extend files.length forms) k (form k))
    (hr : ∀ k f, files[k]? = some f → read (form k) f = .ok (obj k)) :
    ∃ r, panels read .zero c dlat (some ls) forms size zoom files = .ok r ∧ r.length = files.length ∧
      (0 < files.length → r[0]? = some (shown c dlat (some (landMask ls)) (obj 0))) ∧
      ∀ k, k + 1 < files.length → r[k + 1]? = some (shown c dlat (some (zoomed size (zoom k))) (obj (k + 1))) := by
  obtain ⟨r, h1, h2, h3⟩ := panelsFrom_ok read c dlat true (extend files.length forms) size zoom form obj files 0 (some (landMask ls)) none
    (fun k h => by simpa using hk k h) (fun k f h => by simpa using hr k f h)
  refine ⟨r, h1, h2, fun h => by simpa using h3 0 h, fun k h => ?_⟩
  have := h3 (k + 1) h
  simpa using this

theorem shown_axes (c dlat : ℚ) (mask : Option Mask) (o : Sp ℚ) : (shown c dlat mask o).shape = o.shape := by
  have hm : ∀ (p : Sp ℚ), (match mask with | none => p | some m => applyMask p m).shape = p.shape := by
    intro p
    cases mask with
    | none => rfl
    | some m =>
      simp only [applyMask]
      split <;> simp [replaceInvalid]
  unfold shown
  simp only
  split_ifs <;> simp [hm, scale, offset, pointwise]

/-- the mask of a later panel has no effect on a valid cell of a grid that has not five times the rows and columns of an image -/
theorem zoomed_ignored (o : Sp ℚ) (size : ℕ × ℕ) (z : ℕ → ℕ → Bool) (f : ℚ) (hf : o.fill = some (some f)) (hc : Consistent o)
    (hd : ¬ (5 * size.1 = o.shape 0 ∧ 5 * size.2 = o.shape 1)) (i : Idx) (hin : o.In i) :
    (applyMask o (zoomed size z)).mask i = o.mask i ∧ (applyMask o (zoomed size z)).data i = o.data i := by
  have ha : applyMask o (zoomed size z) = replaceInvalid o (some f) none := by
    unfold applyMask applicable; rw [hf]
    rw [if_neg (by exact hd)]
  rw [ha]
  obtain ⟨-, hs⟩ := replaceInvalid_spec o (some f) none
  obtain ⟨-, -, -, -, -, -, -, -, h⟩ := updateMask_same o hc
  have hm : (replaceInvalid o (some f) none).mask i = o.mask i := by
    have := (hs i).1
    rw [(h i hin).2.1] at this
    simp only [reduceCtorEq, false_and, exists_false, or_false] at this
    exact Bool.eq_iff_iff.2 this
  refine ⟨hm, ?_⟩
  rw [(hs i).2, hm]
  split_ifs with hm'
  · exact ((hc _ hf i hin).1 hm').1.symm
  · rfl

/-- C114: a list with one format serves for all files; a list of at least the number of files is used in order. -/
theorem extend_list (n i : ℕ) (s : String) (l : List String) (hi : i < n) :
    (extend n (.list [s])).get i = some s ∧ (n ≤ l.length → (extend n (.list l)).get i = l[i]?) := by
  constructor
  · unfold extend
    by_cases h : 1 < n
    · simp only [List.length_singleton, if_pos h, Forms.get]
      have : (List.replicate n [s]).flatten = List.replicate n s := by simp
      rw [this, List.getElem?_replicate, if_pos hi]
    · have : n = 1 := by omega
      subst this
      have : i = 0 := by omega
      subst this
      rfl
  · intro h
    unfold extend
    dsimp only
    rw [if_neg (by omega)]; rfl

/-- C114: a format that is not known raises an `UnboundLocalError` in the first panel, whatever the files and the other formats. -/
theorem first_unknown (read : String → String → Except Err (Sp ℚ)) (c dlat : ℚ) (ls : Option LandSea) (forms : Forms) (size : ℕ × ℕ)
    (zoom : ℕ → ℕ → ℕ → Bool) (f : String) (fs : List String) (s : String) (hg : (extend (fs.length + 1) forms).get 0 = some s)
    (hu : ¬ (s = "ascii" ∨ s = "netCDF4" ∨ s = "HDF5")) :
    panels read .zero c dlat ls forms size zoom (f :: fs) = .error .unbound := by
  unfold panels panelsFrom
  rw [List.length_cons, hg]
  simp only [bind, Except.bind]
  rw [(panel_unknown read c dlat _ (exSmall) s f hu).2]

/-- C114 (negative): the default of the formats is a text, of which the panels take single letters: without `--format` the program
draws no map, whatever the files (of which there are three, four, five or nine). -/
theorem default_format_fails (read : String → String → Except Err (Sp ℚ)) (c dlat : ℚ) (m : LandSea) (size : ℕ × ℕ)
    (zoom : ℕ → ℕ → ℕ → Bool) (f : String) (fs : List String) :
    mainPanels read c dlat m none size zoom (f :: fs) = .error .unbound := by
  have hg : (extend (fs.length + 1) (.text "netCDF4")).get 0 = some "n" := by
    unfold extend
    dsimp only
    split_ifs with h
    · simp only [Forms.get, String.toList_ofList]
      rw [List.replicate_succ, List.flatten_cons]
      rfl
    · rfl
  refine first_unknown read c dlat none (.text "netCDF4") size zoom f fs "n" hg (by decide)

/-- C114 (negative): a later panel with a format that is not known shows the grid of the panel before, scaled once more. -/
theorem stale_panel (read : String → String → Except Err (Sp ℚ)) (c dlat : ℚ) (size : ℕ × ℕ) (zoom : ℕ → ℕ → ℕ → Bool)
    (f g s t : String) (o : Sp ℚ) (hs : s = "ascii" ∨ s = "netCDF4" ∨ s = "HDF5")
    (ht : ¬ (t = "ascii" ∨ t = "netCDF4" ∨ t = "HDF5")) (hr : read s f = .ok o) :
    panels read .zero c dlat none (.list [s, t]) size zoom [f, g] = .ok [shown c dlat none o, shown c dlat none (shown c dlat none o)] := by
  unfold panels panelsFrom
  have e0 : (extend ([f, g].length) (.list [s, t])).get 0 = some s := rfl
  have e1 : (extend ([f, g].length) (.list [s, t])).get 1 = some t := rfl
  rw [e0]
  simp only [bind, Except.bind, Option.isSome_none, Bool.false_eq_true, if_false]
  rw [panel_known read c dlat none none s f o hs hr]
  simp only [panelsFrom, zero_add, e1, bind, Except.bind, Bool.false_eq_true, if_false]
  rw [(panel_unknown read c dlat none (shown c dlat none o) t g ht).1]

/-- C114 (negative): the mask on the command line is not used by the programs with several panels. -/
theorem mainPanels_ignores_mask (read : String → String → Except Err (Sp ℚ)) (c dlat : ℚ) (a b : LandSea) (fm : Option (List String))
    (size : ℕ × ℕ) (zoom : ℕ → ℕ → ℕ → Bool) (files : List String) :
    mainPanels read c dlat a fm size zoom files = mainPanels read c dlat b fm size zoom files := rfl

/-- C114: a valid cell of the file is shown with its value times the scale factor, unless the value or the result is the fill value. -/
theorem shown_cell (c : ℚ) (o : Sp ℚ) (f v dlat : ℚ) (hd : 0 ≤ dlat) (hf : o.fill = some (some f)) (i : Idx) (hm : o.mask i = false)
    (hv : o.data i = some v) (h1 : v ≠ f) (h2 : c * v ≠ f) :
    (shown c dlat none o).mask i = false ∧ (shown c dlat none o).data i = some (c * v) := by
  unfold shown
  simp only [if_neg (not_lt.2 hd)]
  by_cases hc : c = 1
  · rw [if_neg (by simp [hc]), hc, one_mul]; exact ⟨hm, hv⟩
  · rw [if_pos hc]
    obtain ⟨-, q2, q3, q4, q5⟩ := pointwise_spec (fun x y : ℚ => x + y) o (fun _ => some 0)
    have hm' : (offset o fun _ => some (0 : ℚ)).mask i = false := by
      rw [← Bool.not_eq_true]; intro h
      rcases (q5 _ hf i).1 h with h | h | h
      · rw [hm] at h; cases h
      · rw [hv] at h; simp only [vmap2, Option.some.injEq, add_zero] at h; exact h1 h
      · rw [hv] at h; simp [vmap2] at h
    have hv' : (offset o fun _ => some (0 : ℚ)).data i = some v := by
      have := q4 i hm'
      rw [offset, this, hv]; simp [vmap2]
    exact (scale_cell c _ f (by rw [offset, q2]; exact hf) i).1 v hm' hv' h2

/-- two files -/
def exRead : String → String → Except Err (Sp ℚ) := fun _ _ => .ok exSmall

example : ∀ k, k < 3 → KnownForm (extend 3 (.list ["HDF5"])) k "HDF5" := by
  intro k hk; exact ⟨(extend_list 3 k "HDF5" [] hk).1, by simp⟩
example : (panels exRead .zero 2 1 none (.list ["HDF5"]) (361, 721) (fun _ _ _ => false) ["a", "b", "c"]).toOption.map
    (fun r => r.map fun o => o.data (cell 1 1)) = some [some 22, some 22, some 22] := by decide +kernel
example : (panels exRead .zero 2 1 (some ⟨2, 2, fun _ _ => 1⟩) (.list ["HDF5"]) (361, 721) (fun _ _ _ => true) ["a", "b"]).toOption.map
    (fun r => r.map fun o => o.mask (cell 1 1)) = some [true, false] := by decide +kernel
example : (panels exRead .zero 2 1 none (.list ["HDF5", "x"]) (361, 721) (fun _ _ _ => true) ["a", "b"]).toOption.map
    (fun r => r.map fun o => o.data (cell 1 1)) = some [some 22, some 44] := by decide +kernel

/-! ## Movies -/

theorem frames_ok (size : ℕ × ℕ) (interval : ℤ) (lon : List ℚ) (h : ¬ (interval = 1 ∧ beyond lon = true)) :
    ∀ (n : ℕ) (mask : ℕ × ℕ) (done : ℕ), frames size interval lon false mask done n = (done + n, none) := by
  intro n
  induction n with
  | zero => intro mask done; rfl
  | succ n ih =>
    intro mask done
    unfold frames frame
    rw [if_neg h]
    simp only [Bool.false_eq_true, false_and, if_false]
    rw [ih]
    congr 1
    omega

/-- C114: without a mask and with longitudes up to 180 degrees (or centred cells) the movie has a frame for every month. -/
theorem movie_all (size : ℕ × ℕ) (interval : ℤ) (lon : List ℚ) (n : ℕ) (h : interval ≠ 1 ∨ ∀ x ∈ lon, x ≤ 180) :
    movie size interval lon false n = (n, none) := by
  unfold movie
  rw [frames_ok size interval lon _ n size 0, Nat.zero_add]
  rintro ⟨h1, h2⟩
  rcases h with h | h
  · exact h h1
  · unfold beyond at h2
    obtain ⟨x, hx, h3⟩ := List.any_eq_true.1 h2
    exact absurd (h x hx) (not_le.2 (of_decide_eq_true h3))

/-- C114 (negative): for grids with end points (interval 1) from 0 to 360 degrees the movie ends in an `AttributeError` before its
first frame, for every number of months. -/
theorem movie_global_fails (size : ℕ × ℕ) (lon : List ℚ) (useMask : Bool) (n : ℕ) (hn : 0 < n) (h : ∃ x ∈ lon, 180 < x) :
    movie size 1 lon useMask n = (0, some .attribute) := by
  obtain ⟨m, rfl⟩ : ∃ m, n = m + 1 := ⟨n - 1, by omega⟩
  have hb : beyond lon = true := by
    obtain ⟨x, hx, hl⟩ := h
    exact List.any_eq_true.2 ⟨x, hx, decide_eq_true hl⟩
  unfold movie frames frame
  rw [if_pos ⟨rfl, hb⟩]

/-- C114 (negative): with a mask the movie of two or more months ends in a `ValueError` after its first frame. -/
theorem movie_mask_fails (size : ℕ × ℕ) (interval : ℤ) (lon : List ℚ) (n : ℕ) (hn : 2 ≤ n) (hs : 0 < size.1)
    (h : interval ≠ 1 ∨ ∀ x ∈ lon, x ≤ 180) : movie size interval lon true n = (1, some .value) := by
  obtain ⟨m, rfl⟩ : ∃ m, n = m + 2 := ⟨n - 2, by omega⟩
  have hb : ¬ (interval = 1 ∧ beyond lon = true) := by
    rintro ⟨h1, h2⟩
    rcases h with h | h
    · exact h h1
    · unfold beyond at h2
      obtain ⟨x, hx, h3⟩ := List.any_eq_true.1 h2
      exact absurd (h x hx) (not_le.2 (of_decide_eq_true h3))
  have hne : (5 * size.1, 5 * size.2) ≠ size := by
    intro e
    have := congrArg Prod.fst e
    simp only at this; omega
  unfold movie frames frame
  rw [if_neg hb]
  simp only [ne_eq, not_true_eq_false, and_false, if_false]
  unfold frames frame
  rw [if_neg hb, if_pos ⟨rfl, hne⟩]

/-- with one month the mask is used as intended -/
theorem movie_one (size : ℕ × ℕ) (interval : ℤ) (lon : List ℚ) (useMask : Bool) (h : interval ≠ 1) :
    movie size interval lon useMask 1 = (1, none) := by
  unfold movie frames frame
  simp [h, frames]

/-- C114: the label of a frame is the calendar month of the GRACE month, with its year if the middle of the month is in that year. -/
theorem label_spec (year : ℤ) (m : ℕ) (hm : 1 ≤ m ∧ m ≤ 12) (t : ℚ) :
    (label t (12 * (year - 2002) + m)).2 = m ∧
    ((label t (12 * (year - 2002) + m)).1 = year ↔ (year : ℚ) ≤ t ∧ t < year + 1) := by
  refine ⟨?_, ?_⟩
  · unfold label
    simp only
    omega
  · unfold label
    exact Int.floor_eq_iff

/-- C114 (negative): the middle of the solution for a month may be in the next year (or the year before); then the label has the
month of one year with the other year. -/
theorem label_wrong : label (2012 + 1 / 366) (12 * (2011 - 2002) + 12) = (2012, 12) := by decide +kernel

example : movie (361, 721) 2 [1 / 2, 719 / 2] false 200 = (200, none) := movie_all _ _ _ _ (Or.inl (by decide))
example : label (2002 + 3 / 10) 4 = (2002, 4) := by decide +kernel

/-- C114: names of the fields: the first four names that are given are those of longitude, latitude, data and time; a field
without a name is not mapped. -/
theorem fieldMapping_spec (vars : List String) (k v : String) : (k, v) ∈ fieldMapping vars ↔
    (k = "lon" ∧ vars[0]? = some v) ∨ (k = "lat" ∧ vars[1]? = some v) ∨ (k = "data" ∧ vars[2]? = some v) ∨
    (k = "time" ∧ vars[3]? = some v) := by
  unfold fieldMapping
  rcases vars with _ | ⟨a, _ | ⟨b, _ | ⟨c, _ | ⟨d, l⟩⟩⟩⟩ <;> simp [eq_comm]

example : fieldMapping ["x", "y", "z"] = [("lon", "x"), ("lat", "y"), ("data", "z")] := rfl

end Verif.PlotGrid
