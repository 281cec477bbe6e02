import Verif.SpatialIO.Props
import Mathlib.Tactic.IntervalCases

/-!
# C81: theorems on grids in text files
-/
namespace Verif.SpatialIO
open Verif.SLR Verif.GIA

/-! ## What is written -/

theorem validCells_sorted (g : Grid) :
    (validCells g).Pairwise fun c d => c.1 < d.1 ∨ c.1 = d.1 ∧ c.2 < d.2 := by
  unfold validCells
  rw [List.pairwise_flatMap]
  constructor
  · intro i _
    rw [List.pairwise_map]
    have := (List.pairwise_lt_range (n := g.lon.length)).filter fun j : ℕ => !isFill g.fill (g.data i j) && !g.mask i j
    exact this.imp fun h => Or.inr ⟨rfl, h⟩
  · refine List.pairwise_lt_range.imp ?_
    intro a b hab x hx y hy
    rw [List.mem_map] at hx hy
    obtain ⟨_, _, rfl⟩ := hx
    obtain ⟨_, _, rfl⟩ := hy
    exact Or.inl hab

/-- `to_ascii` writes one line for every valid cell, row by row, with longitude, latitude, value, the error if there are
errors and the date if wanted, each rounded to four decimals -/
theorem ascii_lines (g : Grid) (hn : NoNaN g)
    (he : ∀ e, g.error = some e → ∀ i j x, Cell g i j x → e i j ≠ none) (date : Bool) (t : ℚ) (ht : g.time = some t) :
    ∃ (lines : List (List Char)) (cells : List (ℕ × ℕ)), toAscii g date = .ok lines ∧ lines.length = cells.length ∧
      cells.Pairwise (fun c d => c.1 < d.1 ∨ c.1 = d.1 ∧ c.2 < d.2) ∧
      (∀ c : ℕ × ℕ, c ∈ cells ↔ ∃ x, Cell g c.1 c.2 x) ∧
      ∀ (k : ℕ) (c : ℕ × ℕ), cells[k]? = some c → ∃ line ts x, lines[k]? = some line ∧ Num line ts ∧ Cell g c.1 c.2 x ∧
        List.Forall₂ (Rounded 4)
          ([g.lon.getD c.2 0, g.lat.getD c.1 0, x] ++ (match g.error with
              | some e => [(e c.1 c.2).getD 0]
              | none => []) ++ if date then [t] else [])
          (ts.map Tok.val) := by
  refine ⟨_, validCells g, mapM_ok _ _ _ fun c _ => writeLine_eq g date c (by simp [ht]), by simp, validCells_sorted g,
    fun c => valid_iff g hn c.1 c.2, ?_⟩
  intro k c hk
  obtain ⟨x, hx⟩ := (valid_iff g hn c.1 c.2).1 (List.mem_of_getElem? hk)
  refine ⟨_, _, x, by rw [List.getElem?_map, hk]; rfl, num_join _, hx, ?_⟩
  have key : ∀ y, Rounded 4 y (Tok.dec (litOf 4 y)).val := fun y => roundTo_rounded 4 y
  unfold lineFields
  rw [hx.2.2.2.1]
  cases hee : g.error with
  | none =>
    cases date
    · simp [toks, key]
    · simp [toks, key, ht]
  | some e =>
    obtain ⟨y, hy⟩ := Option.ne_none_iff_exists'.1 (he e hee c.1 c.2 x hx)
    cases date
    · simp [toks, key, hy]
    · simp [toks, key, ht, hy]

/-- a grid without a scalar time cannot be written with dates, unless there is nothing to write -/
theorem ascii_no_time (g : Grid) (i j : ℕ) (x : ℚ) (h : Cell g i j x) (ht : g.time = none) :
    ∀ lines, toAscii g true ≠ .ok lines := by
  have hm : (i, j) ∈ validCells g := by
    rw [mem_validCells]
    obtain ⟨h1, h2, h3, h4, h5⟩ := h
    refine ⟨h1, h2, ?_, h3⟩
    rw [h4]
    unfold isFill
    split
    · rename_i a b e1 e2
      simp at e2; subst e2
      simp only [decide_eq_false_iff_not]
      rintro rfl; exact h5 e1
    · rfl
  unfold toAscii
  generalize validCells g = cs at hm
  intro lines hl
  cases cs with
  | nil => simp at hm
  | cons c r =>
    rw [List.mapM_cons] at hl
    have : writeLine g true c = .error .typeError := by unfold writeLine; simp [ht]
    rw [this] at hl
    simp [bind, Except.bind] at hl

/-! ## Reading back -/

open scoped Classical in
/-- a global grid written by `to_ascii` is read back by `from_ascii(spacing=..., nlat=..., nlon=..., date=False)`: every
valid cell gets its value, rounded to four decimals, at its place.  Cells that were not valid come back as unmasked
zeros (they are masked only if the reading object has the fill value 0), and rows and columns without any valid cell get
the coordinate 0 -/
theorem ascii_round_trip (g : Grid) (dlon dlat : ℚ) (hg : Global g dlon dlat) (hn : NoNaN g) (date : Bool)
    (ht : date = true → g.time ≠ none) (o : Opts) (hc : Columns o.columns) (hd : o.date = false)
    (hdr : List (List Char)) (hh : o.header = hdr.length) (fill : Option (Option ℚ))
    (he : o.extent = none) (hs : o.spacing = some (dlon, dlat)) (h1 : o.nlat = g.lat.length) (h2 : o.nlon = g.lon.length)
    (h0 : g.lat ≠ [] ∧ g.lon ≠ []) :
    ∃ lines g', toAscii g date = .ok lines ∧ fromAscii fill o (hdr ++ lines) = .ok g' ∧
      (∀ i j x, Cell g i j x → ∃ r, Rounded 4 x r ∧ (Dec 4 x → r = x) ∧ g'.data i j = some r ∧
        g'.mask i j = decide (fill = some (some r))) ∧
      (∀ i j, (¬ ∃ x, Cell g i j x) → g'.data i j = some 0 ∧ g'.mask i j = decide (fill = some (some 0))) ∧
      g'.lat.length = g.lat.length ∧ g'.lon.length = g.lon.length ∧
      (∀ i : ℕ, i < g.lat.length → g'.lat[i]? = if ∃ j x, Cell g i j x then g.lat[i]? else some 0) ∧
      (∀ j : ℕ, j < g.lon.length → g'.lon[j]? = if ∃ i x, Cell g i j x then g.lon[j]? else some 0) := by
  have hl1 : g.lat.length ≠ 0 := fun h => h0.1 (List.length_eq_zero_iff.1 h)
  have hl2 : g.lon.length ≠ 0 := fun h => h0.2 (List.length_eq_zero_iff.1 h)
  have hdims : dims o = .ok (List.replicate g.lon.length 0, List.replicate g.lat.length 0, dlon, dlat) := by
    unfold dims
    rw [he, hs, h1, h2]
    simp only
    rw [if_pos ⟨hl1, hl2⟩]
  obtain ⟨lines, g', k1, k2, k3, k4, k5, k6, k7, k8⟩ := round_trip g dlon dlat hg hn date ht o hc hd hdr hh fill _ _ hdims
    (by simp) (by simp)
  refine ⟨lines, g', k1, k2, k3, k4, k5, k6, ?_, ?_⟩
  · intro i hi; rw [k7, List.getElem?_replicate, if_pos hi]
  · intro j hj; rw [k8, List.getElem?_replicate, if_pos hj]

theorem linspace_axis (l : List ℚ) (a d : ℚ) (h : ∀ i : ℕ, i < l.length → l[i]? = some (a + i * d)) (h2 : 2 ≤ l.length) :
    linspace (l.getD 0 0) (l.getD (l.length - 1) 0) l.length = l := by
  have e0 : l.getD 0 0 = a := by rw [List.getD_eq_getElem?_getD, h 0 (by omega)]; simp
  have e1 : l.getD (l.length - 1) 0 = a + (l.length - 1 : ℕ) * d := by
    rw [List.getD_eq_getElem?_getD, h _ (by omega)]; simp
  have hne : ((l.length : ℚ) - 1) ≠ 0 := by
    have : (2 : ℚ) ≤ l.length := by exact_mod_cast h2
    intro hx; linarith
  have hs : (a + (l.length - 1 : ℕ) * d - a) / ((l.length : ℚ) - 1) = d := by
    rw [Nat.cast_sub (by omega)]
    field_simp
    push_cast; ring
  unfold linspace
  rw [e0, e1, hs]
  apply List.ext_getElem?
  intro i
  rw [List.getElem?_map]
  by_cases hi : i < l.length
  · rw [List.getElem?_range hi, h i hi]; rfl
  · rw [List.getElem?_eq_none (by simpa using hi), List.getElem?_eq_none (by omega)]; rfl

/-- the same with the bounds of the grid and its numbers of rows and columns (at least two) instead of the spacing:
additionally all coordinates are restored -/
theorem ascii_round_trip_extent (g : Grid) (dlon dlat : ℚ) (hg : Global g dlon dlat) (hn : NoNaN g) (date : Bool)
    (ht : date = true → g.time ≠ none) (o : Opts) (hc : Columns o.columns) (hd : o.date = false)
    (hdr : List (List Char)) (hh : o.header = hdr.length) (fill : Option (Option ℚ))
    (h1 : o.nlat = g.lat.length) (h2 : o.nlon = g.lon.length) (h0 : 2 ≤ g.lat.length ∧ 2 ≤ g.lon.length)
    (he : o.extent = some (g.lon.getD 0 0, g.lon.getD (g.lon.length - 1) 0, g.lat.getD (g.lat.length - 1) 0,
      g.lat.getD 0 0)) :
    ∃ lines g', toAscii g date = .ok lines ∧ fromAscii fill o (hdr ++ lines) = .ok g' ∧
      (∀ i j x, Cell g i j x → ∃ r, Rounded 4 x r ∧ (Dec 4 x → r = x) ∧ g'.data i j = some r ∧
        g'.mask i j = decide (fill = some (some r))) ∧
      (∀ i j, (¬ ∃ x, Cell g i j x) → g'.data i j = some 0 ∧ g'.mask i j = decide (fill = some (some 0))) ∧
      g'.lat = g.lat ∧ g'.lon = g.lon := by
  obtain ⟨a, ha0, ha1, ha⟩ := hg.lat
  obtain ⟨b, hb0, hb1, hb⟩ := hg.lon
  have e1 := linspace_axis g.lat (90 - a) (-dlat) (fun i hi => by rw [ha i hi]; congr 1; ring) h0.1
  have e2 := linspace_axis g.lon b dlon hb h0.2
  have hdims : dims o = .ok (g.lon, g.lat, dlon, dlat) := by
    unfold dims
    rw [he, h1, h2]
    simp only
    rw [if_pos (by omega), if_neg (by omega), e1, e2]
    have q1 : g.lon.getD 1 0 - g.lon.getD 0 0 = dlon := by
      rw [List.getD_eq_getElem?_getD, List.getD_eq_getElem?_getD, hb 0 (by omega), hb 1 (by omega)]
      simp
    have q2 : g.lat.getD 1 0 - g.lat.getD 0 0 = -dlat := by
      rw [List.getD_eq_getElem?_getD, List.getD_eq_getElem?_getD, ha 0 (by omega), ha 1 (by omega)]
      simp
    rw [q1, q2, abs_neg, abs_of_pos hg.dlon_pos, abs_of_pos hg.dlat_pos]
  obtain ⟨lines, g', k1, k2, k3, k4, k5, k6, k7, k8⟩ := round_trip g dlon dlat hg hn date ht o hc hd hdr hh fill _ _ hdims
    rfl rfl
  refine ⟨lines, g', k1, k2, k3, k4, ?_, ?_⟩
  · apply List.ext_getElem?; intro i; rw [k7]; simp
  · apply List.ext_getElem?; intro i; rw [k8]; simp

/-! ## What fails -/

theorem foldlM_ok_mem {σ α : Type} (P : σ → Prop) (f : σ → α → Except Err σ)
    (hf : ∀ s a s', P s → f s a = .ok s' → P s') : ∀ (l : List α) (s s' : σ), P s → l.foldlM f s = .ok s' →
      ∀ a ∈ l, ∃ t t', P t ∧ f t a = .ok t' := by
  intro l
  induction l with
  | nil => intro s s' _ _ a ha; simp at ha
  | cons b r ih =>
    intro s s' hs hr a ha
    rw [List.foldlM_cons] at hr
    cases hb : f s b with
    | error e => rw [hb] at hr; simp [bind, Except.bind] at hr
    | ok t =>
      rw [hb] at hr
      rw [List.mem_cons] at ha
      rcases ha with rfl | ha
      · exact ⟨s, t, hs, hb⟩
      · exact ih t s' (hf s b t hs hb) hr a ha

/-- what a successful reading of a line does -/
theorem readLine_ok (cols : List String) (date : Bool) (dlon dlat : ℚ) (s s' : Grid) (line : List Char)
    (h : readLine cols date dlon dlat s line = .ok s') :
    ∃ x y v i j, field cols line "lon" = .ok x ∧ field cols line "lat" = .ok y ∧ field cols line "data" = .ok v ∧
      pyIndex s.lat.length ⌊(90 - y) / dlat⌋ = some i ∧ pyIndex s.lon.length (trunc (x / dlon)) = some j ∧
      s'.data = setCell s.data i j (some v) ∧ s'.fill = s.fill ∧ s'.lat.length = s.lat.length ∧ s'.lon.length = s.lon.length ∧
      (date = true → ∃ t, field cols line "time" = .ok t) := by
  unfold readLine at h
  cases hx : field cols line "lon" with
  | error e => rw [hx] at h; simp [bind, Except.bind] at h
  | ok x =>
    cases hy : field cols line "lat" with
    | error e =>
      rw [hx, hy] at h
      by_cases h0 : dlon = 0 <;> simp [bind, Except.bind, h0, throw, throwThe, MonadExceptOf.throw, pure, Except.pure] at h
    | ok y =>
      cases hv : field cols line "data" with
      | error e =>
        rw [hx, hy, hv] at h
        by_cases h0 : dlon = 0 <;> by_cases h1 : dlat = 0 <;>
          simp [bind, Except.bind, h0, h1, throw, throwThe, MonadExceptOf.throw, pure, Except.pure] at h
      | ok v =>
        rw [hx, hy, hv] at h
        by_cases h0 : dlon = 0
        · simp [bind, Except.bind, h0, throw, throwThe, MonadExceptOf.throw] at h
        by_cases h1 : dlat = 0
        · simp [bind, Except.bind, h0, h1, throw, throwThe, MonadExceptOf.throw, pure, Except.pure] at h
        simp only [bind, Except.bind, if_neg h0, if_neg h1, pure, Except.pure] at h
        cases hi : pyIndex s.lat.length ⌊(90 - y) / dlat⌋ with
        | none => rw [hi] at h; simp [throw, throwThe, MonadExceptOf.throw] at h
        | some i =>
          cases hj : pyIndex s.lon.length (trunc (x / dlon)) with
          | none => rw [hi, hj] at h; simp [throw, throwThe, MonadExceptOf.throw] at h
          | some j =>
            rw [hi, hj] at h
            cases date with
            | false =>
              simp at h
              subst h
              exact ⟨x, y, v, i, j, rfl, rfl, rfl, hi, hj, rfl, rfl, by simp, by simp, by simp⟩
            | true =>
              cases ht : field cols line "time" with
              | error e => rw [ht] at h; simp at h
              | ok t =>
                rw [ht] at h
                simp at h
                subst h
                exact ⟨x, y, v, i, j, rfl, rfl, rfl, hi, hj, rfl, rfl, by simp, by simp, fun _ => ⟨t, rfl⟩⟩

/-- what a successful reading of a file does -/
theorem fromAscii_ok (fill : Option (Option ℚ)) (o : Opts) (file : List (List Char)) (g' : Grid)
    (h : fromAscii fill o file = .ok g') :
    ∃ lon lat dlon dlat, dims o = .ok (lon, lat, dlon, dlat) ∧
      ∀ line ∈ file.drop o.header, ∃ s s' : Grid, (s.lat.length = lat.length ∧ s.lon.length = lon.length) ∧
        readLine (o.columns.filter fun c => c != "time") o.date dlon dlat s line = .ok s' := by
  unfold fromAscii at h
  cases hd : dims o with
  | error e => rw [hd] at h; simp [bind, Except.bind] at h
  | ok d =>
    obtain ⟨lon, lat, dlon, dlat⟩ := d
    rw [hd] at h
    simp only [bind, Except.bind] at h
    refine ⟨lon, lat, dlon, dlat, rfl, ?_⟩
    cases hf : (file.drop o.header).foldlM (readLine (o.columns.filter fun c => c != "time") o.date dlon dlat)
        { lon := lon, lat := lat, data := fun _ _ => some 0, mask := fun _ _ => false, error := none, time := none,
          fill := fill } with
    | error e => rw [hf] at h; simp at h
    | ok s =>
      intro line hl
      exact foldlM_ok_mem (fun s : Grid => s.lat.length = lat.length ∧ s.lon.length = lon.length) _
        (fun s a s' hs hr => by
          obtain ⟨_, _, _, _, _, _, _, _, _, _, _, _, k1, k2, _⟩ := readLine_ok _ _ _ _ _ _ _ hr
          exact ⟨k1.trans hs.1, k2.trans hs.2⟩) _ _ _ ⟨rfl, rfl⟩ hf line hl

/-- dates cannot be read: with `date=True` (the default) every file with at least one line fails, because the column
`time` is always dropped -/
theorem ascii_date_fails (fill : Option (Option ℚ)) (o : Opts) (file : List (List Char)) (hd : o.date = true)
    (hf : file.drop o.header ≠ []) : ∀ g', fromAscii fill o file ≠ .ok g' := by
  intro g' h
  obtain ⟨lon, lat, dlon, dlat, _, hl⟩ := fromAscii_ok fill o file g' h
  obtain ⟨line, r, hr⟩ := List.exists_cons_of_ne_nil hf
  obtain ⟨s, s', _, hs⟩ := hl line (by rw [hr]; simp)
  obtain ⟨_, _, _, _, _, _, _, _, _, _, _, _, _, _, ht⟩ := readLine_ok _ _ _ _ _ _ _ hs
  obtain ⟨t, ht⟩ := ht hd
  unfold field at ht
  have : (((o.columns.filter fun c => c != "time").zip (rxAll (dToE line))).reverse).lookup "time" = none := by
    rw [List.lookup_eq_none_iff]
    rintro ⟨a, b⟩ hp
    rw [List.mem_reverse] at hp
    have := (List.mem_filter.1 (List.of_mem_zip hp).1).2
    simp only [bne_iff_ne] at this
    simpa using fun h => this h.symm
  rw [this] at ht
  simp at ht

/-- bounds and spacing without the numbers of rows and columns never work: no latitudes are made -/
theorem ascii_extent_spacing_fails (fill : Option (Option ℚ)) (o : Opts) (file : List (List Char))
    (x0 x1 y0 y1 dlon dlat : ℚ) (he : o.extent = some (x0, x1, y0, y1)) (hs : o.spacing = some (dlon, dlat))
    (h0 : o.nlat = 0 ∨ o.nlon = 0) (hlat : 0 < dlat) (hy : y0 ≤ y1) (hf : file.drop o.header ≠ []) :
    ∀ g', fromAscii fill o file ≠ .ok g' := by
  intro g' h
  obtain ⟨lon, lat, dlon', dlat', hd, hl⟩ := fromAscii_ok fill o file g' h
  obtain ⟨line, r, hr⟩ := List.exists_cons_of_ne_nil hf
  obtain ⟨s, s', hlen, hs'⟩ := hl line (by rw [hr]; simp)
  have hempty : lat = [] := by
    unfold dims at hd
    rw [he, hs] at hd
    simp only at hd
    rw [if_neg (by omega)] at hd
    split at hd
    · simp at hd
    · simp only [Except.ok.injEq, Prod.mk.injEq] at hd
      rw [← hd.2.1]
      unfold arange
      have : ⌈(y0 - dlat - y1) / dlat⌉.toNat = 0 := by
        rw [Int.toNat_eq_zero, Int.ceil_le]
        rw [div_le_iff₀ hlat]
        push_cast; linarith
      rw [this]; rfl
  obtain ⟨_, _, _, i, _, _, _, _, hi, _⟩ := readLine_ok _ _ _ _ _ _ _ hs'
  rw [hlen.1, hempty] at hi
  unfold pyIndex at hi
  split at hi
  · rename_i hc; simp at hc; omega
  · split at hi
    · rename_i hc; simp at hc; omega
    · simp at hi

/-- rows are counted from the north pole whatever the bounds of the grid: a file with a latitude more than the number of
rows below the pole cannot be read -/
theorem ascii_regional_fails (fill : Option (Option ℚ)) (o : Opts) (file : List (List Char)) (dlon dlat : ℚ)
    (hc : Columns o.columns) (lon lat : List ℚ) (hd : dims o = .ok (lon, lat, dlon, dlat)) (hlat : 0 < dlat)
    (line : List Char) (hl : line ∈ file.drop o.header) (t1 t2 t3 : Tok) (ts : List Tok)
    (hn : Num (dToE line) (t1 :: t2 :: t3 :: ts)) (hy : t2.val ≤ 90 - lat.length * dlat) :
    ∀ g', fromAscii fill o file ≠ .ok g' := by
  intro g' h
  obtain ⟨lon', lat', dlon', dlat', hd', hll⟩ := fromAscii_ok fill o file g' h
  rw [hd] at hd'
  simp only [Except.ok.injEq, Prod.mk.injEq] at hd'
  obtain ⟨rfl, rfl, rfl, rfl⟩ := hd'
  obtain ⟨rest, hcols, hrest⟩ := hc
  obtain ⟨s, s', hlen, hs'⟩ := hll line hl
  have hfilter : (o.columns.filter fun c => c != "time") = "lon" :: "lat" :: "data" :: rest.filter fun c => c != "time" := by
    rw [hcols]; rfl
  rw [hfilter] at hs'
  obtain ⟨f1, f2, f3⟩ := field_first (rest.filter fun c => c != "time") line t1 t2 t3 ts
    (fun c hc => hrest c (List.mem_filter.1 hc).1) (rxAll_num _ _ hn)
  obtain ⟨x, y, v, i, j, e1, e2, e3, hi, _⟩ := readLine_ok _ _ _ _ _ _ _ hs'
  rw [f2] at e2
  simp only [Except.ok.injEq] at e2
  subst e2
  rw [hlen.1] at hi
  have hge : (lat.length : ℤ) ≤ ⌊(90 - t2.val) / dlat⌋ := by
    rw [Int.le_floor, le_div_iff₀ hlat]
    push_cast; linarith
  unfold pyIndex at hi
  rw [if_neg (by omega), if_neg (by omega)] at hi
  simp at hi

/-- columns west and east of Greenwich collide: of two cells of a row with longitudes less than one step from Greenwich on
either side, the value read first is lost -/
theorem ascii_west_lost (o : Opts) (file : List (List Char)) (dlon dlat : ℚ)
    (hc : Columns o.columns) (lon lat : List ℚ) (hd : dims o = .ok (lon, lat, dlon, dlat)) (hlon : 0 < dlon)
    (l1 l2 : List Char) (hl : file.drop o.header = [l1, l2]) (t1 t2 t3 u1 u2 u3 : Tok) (ts us : List Tok)
    (h1 : Num (dToE l1) (t1 :: t2 :: t3 :: ts)) (h2 : Num (dToE l2) (u1 :: u2 :: u3 :: us))
    (hx : -dlon < t1.val ∧ t1.val < 0) (hx' : 0 ≤ u1.val ∧ u1.val < dlon) (hy : t2.val = u2.val)
    (hv : t3.val ≠ 0) (hv' : t3.val ≠ u3.val) (g' : Grid) (h : fromAscii none o file = .ok g') :
    ∀ i j, g'.data i j ≠ some t3.val := by
  obtain ⟨rest, hcols, hrest⟩ := hc
  have hfilter : (o.columns.filter fun c => c != "time") = "lon" :: "lat" :: "data" :: rest.filter fun c => c != "time" := by
    rw [hcols]; rfl
  have hr' : ∀ c ∈ rest.filter (fun c => c != "time"), c ≠ "lon" ∧ c ≠ "lat" ∧ c ≠ "data" := fun c hc =>
    hrest c (List.mem_filter.1 hc).1
  obtain ⟨f1, f2, f3⟩ := field_first _ l1 t1 t2 t3 ts hr' (rxAll_num _ _ h1)
  obtain ⟨q1, q2, q3⟩ := field_first _ l2 u1 u2 u3 us hr' (rxAll_num _ _ h2)
  unfold fromAscii at h
  rw [hd, hl, hfilter] at h
  simp only [bind, Except.bind, List.foldlM_cons, List.foldlM_nil] at h
  split at h
  · simp at h
  · rename_i s2 he
    split at he
    · simp at he
    · rename_i s1 e1
      split at he
      · simp at he
      · rename_i s2' e2
        simp only [pure, Except.pure, Except.ok.injEq] at he h
        subst he
        obtain ⟨x, y, v, i, j, a1, a2, a3, hi, hj, hdat, hfl, hl1, hl2, _⟩ := readLine_ok _ _ _ _ _ _ _ e1
        obtain ⟨x', y', v', i', j', b1, b2, b3, hi', hj', hdat', hfl', hl1', hl2', _⟩ := readLine_ok _ _ _ _ _ _ _ e2
        rw [f1] at a1; rw [f2] at a2; rw [f3] at a3; rw [q1] at b1; rw [q2] at b2; rw [q3] at b3
        simp only [Except.ok.injEq] at a1 a2 a3 b1 b2 b3
        subst a1 a2 a3 b1 b2 b3
        have hii : i = i' := by
          rw [hl1, ← hy, hi] at hi'
          exact Option.some.inj hi'
        have z1 : trunc (t1.val / dlon) = 0 := by
          unfold trunc
          rw [if_neg (by rw [not_le]; exact div_neg_of_neg_of_pos hx.2 hlon), Int.ceil_eq_iff]
          constructor
          · rw [lt_div_iff₀ hlon]; push_cast; linarith
          · rw [div_le_iff₀ hlon]; push_cast; linarith
        have z2 : trunc (u1.val / dlon) = 0 := by
          unfold trunc
          rw [if_pos (div_nonneg hx'.1 hlon.le), Int.floor_eq_iff]
          constructor
          · rw [le_div_iff₀ hlon]; push_cast; linarith
          · rw [div_lt_iff₀ hlon]; push_cast; linarith
        have hjj : j = j' := by
          rw [hl2, z2, ← z1, hj] at hj'
          exact Option.some.inj hj'
        subst hii hjj
        intro r c hrc
        have hfill : s2'.fill = none := hfl'.trans hfl
        rw [← h] at hrc
        unfold updateMask at hrc
        rw [hfill] at hrc
        simp only at hrc
        rw [hdat', hdat] at hrc
        unfold setCell at hrc
        split at hrc
        · exact hv' (Option.some.inj hrc).symm
        · exact hv (Option.some.inj hrc).symm

/-- a NaN that is not masked is written as `nan` and not found as a number, so with an error column the error is read in
its place (here the only valid cell of the grid) -/
theorem ascii_nan_error (g : Grid) (dlon dlat : ℚ) (hg : Global g dlon dlat) (i j : ℕ) (hi : i < g.lat.length)
    (hj : j < g.lon.length) (hm : ∀ r c, g.mask r c = false ↔ r = i ∧ c = j) (hx : g.data i j = none)
    (e : ℕ → ℕ → Option ℚ) (y : ℚ) (he : g.error = some e) (hy : e i j = some y) (o : Opts) (hc : Columns o.columns)
    (hd : o.date = false) (hh : o.header = 0) (hext : o.extent = none) (hs : o.spacing = some (dlon, dlat))
    (h1 : o.nlat = g.lat.length) (h2 : o.nlon = g.lon.length) :
    ∃ lines g', toAscii g false = .ok lines ∧ fromAscii none o lines = .ok g' ∧
      ∃ r, Rounded 4 y r ∧ g'.data i j = some r := by
  obtain ⟨rest, hcols, hrest⟩ := hc
  have hfilter : (o.columns.filter fun c => c != "time") = "lon" :: "lat" :: "data" :: rest.filter fun c => c != "time" := by
    rw [hcols]; rfl
  have hr' : ∀ c ∈ rest.filter (fun c => c != "time"), c ≠ "lon" ∧ c ≠ "lat" ∧ c ≠ "data" := fun c hc =>
    hrest c (List.mem_filter.1 hc).1
  have hcells : validCells g = [(i, j)] := by
    have hmem : ∀ c, c ∈ validCells g ↔ c = (i, j) := by
      rintro ⟨r, c⟩
      rw [mem_validCells, Prod.mk.injEq, ← hm]
      constructor
      · exact fun h => h.2.2.2
      · intro h
        obtain ⟨rfl, rfl⟩ := (hm r c).1 h
        refine ⟨hi, hj, ?_, h⟩
        rw [hx]
        unfold isFill
        split
        · rename_i hh; simp at hh
        · rfl
    have hs := validCells_sorted g
    cases hv : validCells g with
    | nil => have := (hmem (i, j)).2 rfl; rw [hv] at this; simp at this
    | cons a t =>
      rw [hv] at hmem hs
      have ha := (hmem a).1 (by simp)
      cases t with
      | nil => rw [ha]
      | cons b t =>
        have hb := (hmem b).1 (by simp)
        rw [List.pairwise_cons] at hs
        have := hs.1 b (by simp)
        rw [ha, hb] at this
        simp at this
  obtain ⟨a, ha0, ha1, ha⟩ := hg.lat
  obtain ⟨b, hb0, hb1, hb⟩ := hg.lon
  have hlt : g.lat.getD i 0 = 90 - (a + i * dlat) := by rw [List.getD_eq_getElem?_getD, ha i hi]; rfl
  have hln : g.lon.getD j 0 = b + j * dlon := by rw [List.getD_eq_getElem?_getD, hb j hj]; rfl
  have d1 : roundTo 4 (g.lon.getD j 0) = g.lon.getD j 0 := roundTo_dec 4 _ (hg.lon4 _ (by
    rw [hln]; exact List.mem_of_getElem? (hb j hj)))
  have d2 : roundTo 4 (g.lat.getD i 0) = g.lat.getD i 0 := roundTo_dec 4 _ (hg.lat4 _ (by
    rw [hlt]; exact List.mem_of_getElem? (ha i hi)))
  have hnums := line_nums g false (i, j)
  have hts : ((lineFields g false (i, j)).flatMap fun f => toks 4 f.2) =
      [.dec (litOf 4 (g.lon.getD j 0)), .dec (litOf 4 (g.lat.getD i 0)), .dec (litOf 4 y)] := by
    unfold lineFields
    rw [hx, he]
    simp [toks, hy]
  rw [hts] at hnums
  obtain ⟨f1, f2, f3⟩ := field_first _ _ _ _ _ _ hr' hnums
  have v1 : (Tok.dec (litOf 4 (g.lon.getD j 0))).val = g.lon.getD j 0 := d1
  have v2 : (Tok.dec (litOf 4 (g.lat.getD i 0))).val = g.lat.getD i 0 := d2
  rw [v1] at f1
  rw [v2] at f2
  have hl1 : g.lat.length ≠ 0 := by omega
  have hl2 : g.lon.length ≠ 0 := by omega
  have hdims : dims o = .ok (List.replicate g.lon.length 0, List.replicate g.lat.length 0, dlon, dlat) := by
    unfold dims
    rw [hext, hs, h1, h2]
    simp only
    rw [if_pos ⟨hl1, hl2⟩]
  have e1 : pyIndex (List.replicate g.lat.length (0 : ℚ)).length ⌊(90 - g.lat.getD i 0) / dlat⌋ = some i := by
    rw [hlt, show (90 : ℚ) - (90 - (a + i * dlat)) = a + i * dlat by ring, floor_offset a dlat i ha0 ha1]
    exact pyIndex_nat _ _ (by simpa using hi)
  have e2 : pyIndex (List.replicate g.lon.length (0 : ℚ)).length (trunc (g.lon.getD j 0 / dlon)) = some j := by
    unfold trunc
    rw [hln, if_pos (by have := hg.dlon_pos; positivity), floor_offset b dlon j hb0 hb1]
    exact pyIndex_nat _ _ (by simpa using hj)
  refine ⟨[joinFields ((lineFields g false (i, j)).map fun f => fmtV f.1 4 f.2)], ?_⟩
  have hw : toAscii g false = .ok [joinFields ((lineFields g false (i, j)).map fun f => fmtV f.1 4 f.2)] := by
    have := mapM_ok _ _ (validCells g) fun c _ => writeLine_eq g false c (by simp)
    rw [hcells] at this
    unfold toAscii
    rw [hcells]
    exact this
  unfold fromAscii readLine
  rw [hdims, hfilter, hh, hd, List.drop_zero]
  simp only [bind, Except.bind, List.foldlM_cons, List.foldlM_nil, f1, f2, f3, pure, Except.pure, e1, e2,
    if_neg hg.dlon_pos.ne', if_neg hg.dlat_pos.ne', updateMask, Bool.false_eq_true, if_false]
  refine ⟨_, hw, rfl, roundTo 4 y, roundTo_rounded 4 y, ?_⟩
  simp [setCell]
  rfl

/-! ## Examples -/

/-- two rows and four columns; one cell is masked and one holds the fill value -/
def exG : Grid where
  lon := [45, 135, 225, 315]
  lat := [45, -45]
  data := fun i j => if i = 1 ∧ j = 3 then some (-9999) else some (i + j / 3)
  mask := fun i j => i = 0 ∧ j = 1
  error := none
  time := some (20020407 / 10000)
  fill := some (some (-9999))

/-- arguments for reading it -/
def exO : Opts :=
  { spacing := some (90, 90), extent := none, nlat := 2, nlon := 4, columns := ["lon", "lat", "data", "time"], header := 0,
    date := false }

example : Global exG 90 90 where
  dlat_pos := by norm_num
  dlon_pos := by norm_num
  lat := ⟨45, by norm_num, by norm_num, fun i hi => by
    have : i < 2 := hi
    interval_cases i <;> simp [exG] <;> norm_num⟩
  lon := ⟨45, by norm_num, by norm_num, fun i hi => by
    have : i < 4 := hi
    interval_cases i <;> simp [exG] <;> norm_num⟩
  lat4 := by
    intro y hy
    simp [exG] at hy
    rcases hy with rfl | rfl
    · exact ⟨450000, by norm_num⟩
    · exact ⟨-450000, by norm_num⟩
  lon4 := by
    intro y hy
    simp [exG] at hy
    rcases hy with rfl | rfl | rfl | rfl
    · exact ⟨450000, by norm_num⟩
    · exact ⟨1350000, by norm_num⟩
    · exact ⟨2250000, by norm_num⟩
    · exact ⟨3150000, by norm_num⟩

example : NoNaN exG := by
  intro i _ j _ _
  simp only [exG]
  split <;> simp

example : Cell exG 1 2 (5 / 3) ∧ ¬ (∃ x, Cell exG 0 1 x) ∧ ¬ (∃ x, Cell exG 1 3 x) := by
  refine ⟨⟨by decide, by decide, by simp [exG], by simp [exG]; norm_num, by simp [exG]; norm_num⟩, ?_, ?_⟩
  · rintro ⟨x, hx⟩; have := hx.2.2.1; simp [exG] at this
  · rintro ⟨x, hx⟩
    have h1 := hx.2.2.2.1
    have h2 := hx.2.2.2.2
    simp [exG] at h1 h2
    exact h2 h1

example : Columns exO.columns := ⟨["time"], rfl, by decide⟩

example : (toAscii exG true).toOption.map (·.map String.ofList) = some
    ["   45.0000    45.0000       0.0000  2002.0407", "  225.0000    45.0000       0.6667  2002.0407",
     "  315.0000    45.0000       1.0000  2002.0407", "   45.0000   -45.0000       1.0000  2002.0407",
     "  135.0000   -45.0000       1.3333  2002.0407", "  225.0000   -45.0000       1.6667  2002.0407"] := by
  decide +kernel

example : ((toAscii exG true).bind (fromAscii none exO)).toOption.map (fun g => (g.lat, g.lon, g.data 0 2, g.data 1 3)) =
    some ([45, -45], [45, 135, 225, 315], some (6667 / 10000), some 0) := by
  decide +kernel

/-- dates, bounds with spacing, a regional grid -/
example : ((fromAscii none { exO with date := true } ["45.0 45.0 1.0 2002.5".toList]).toOption.isNone) = true := by
  decide +kernel

example : ((fromAscii none { exO with extent := some (0, 360, -90, 90), nlat := 0 } ["45.0 45.0 1.0".toList]).toOption.isNone)
    = true := by decide +kernel

example : ((fromAscii none { exO with spacing := some (1, 1), nlat := 10, nlon := 10 } ["5.0 45.0 1.0".toList]).toOption.isNone)
    = true := by decide +kernel

example : ((fromAscii none exO ["-45.0 45.0 1.0".toList, "45.0 45.0 2.0".toList]).toOption.map fun g =>
    (List.range 4).map fun j => g.data 0 j) = some [some 2, some 0, some 0, some 0] := by decide +kernel

end Verif.SpatialIO
