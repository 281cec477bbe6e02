import Verif.SpatialIO.Lines

/-!
# C81: grids written to and read from text files
-/
namespace Verif.SpatialIO
open Verif.SLR Verif.GIA

/-! ## Specification -/

/-- cell `(i, j)` of the grid holds the valid number `x`: it is not masked and is not the fill value -/
def Cell (g : Grid) (i j : ℕ) (x : ℚ) : Prop :=
  i < g.lat.length ∧ j < g.lon.length ∧ g.mask i j = false ∧ g.data i j = some x ∧ g.fill ≠ some (some x)

/-- every cell that is not masked holds a number -/
def NoNaN (g : Grid) : Prop := ∀ i < g.lat.length, ∀ j < g.lon.length, g.mask i j = false → g.data i j ≠ none

/-- a global grid from the north pole southwards and from the meridian of Greenwich eastwards: the first row is less than a
step from the pole, the first column less than a step east of Greenwich.  Coordinates have at most four decimals -/
structure Global (g : Grid) (dlon dlat : ℚ) : Prop where
  dlat_pos : 0 < dlat
  dlon_pos : 0 < dlon
  lat : ∃ a : ℚ, 0 ≤ a ∧ a < dlat ∧ ∀ i : ℕ, i < g.lat.length → g.lat[i]? = some (90 - (a + i * dlat))
  lon : ∃ b : ℚ, 0 ≤ b ∧ b < dlon ∧ ∀ j : ℕ, j < g.lon.length → g.lon[j]? = some (b + j * dlon)
  lat4 : ∀ y ∈ g.lat, Dec 4 y
  lon4 : ∀ x ∈ g.lon, Dec 4 x

/-- the columns of the written file, followed by names for the columns of errors and dates or by nothing -/
def Columns (cols : List String) : Prop :=
  ∃ rest, cols = "lon" :: "lat" :: "data" :: rest ∧ ∀ c ∈ rest, c ≠ "lon" ∧ c ≠ "lat" ∧ c ≠ "data"

/-! ## Proofs -/

theorem floor_offset (a h : ℚ) (k : ℕ) (h0 : 0 ≤ a) (h1 : a < h) : ⌊(a + k * h) / h⌋ = (k : ℤ) := by
  have hh : 0 < h := lt_of_le_of_lt h0 h1
  rw [Int.floor_eq_iff]
  constructor
  · rw [le_div_iff₀ hh]; push_cast; linarith
  · rw [div_lt_iff₀ hh]; push_cast; linarith

theorem pyIndex_nat (n k : ℕ) (h : k < n) : pyIndex n (k : ℤ) = some k := by
  unfold pyIndex
  rw [if_pos (by omega)]; simp

/-- the state after a cell is read -/
def putCell (g : Grid) (s : Grid) (c : ℕ × ℕ) : Grid :=
  { s with
    data := setCell s.data c.1 c.2 (some (roundTo 4 ((g.data c.1 c.2).getD 0)))
    mask := setCell s.mask c.1 c.2 false
    lon := s.lon.set c.2 (g.lon.getD c.2 0)
    lat := s.lat.set c.1 (g.lat.getD c.1 0) }

theorem readLine_cell (g : Grid) (dlon dlat : ℚ) (hg : Global g dlon dlat) (hn : NoNaN g) (date : Bool)
    (rest : List String) (hr : ∀ c ∈ rest, c ≠ "lon" ∧ c ≠ "lat" ∧ c ≠ "data") (c : ℕ × ℕ) (hc : c ∈ validCells g)
    (s : Grid) (hlat : s.lat.length = g.lat.length) (hlon : s.lon.length = g.lon.length) :
    readLine ("lon" :: "lat" :: "data" :: rest) false dlon dlat s
      (joinFields ((lineFields g date c).map fun f => fmtV f.1 4 f.2)) = .ok (putCell g s c) := by
  obtain ⟨i, j⟩ := c
  obtain ⟨hi, hj, hf, hm⟩ := (mem_validCells g i j).1 hc
  obtain ⟨x, hx⟩ := Option.ne_none_iff_exists'.1 (hn i hi j hj hm)
  obtain ⟨a, ha0, ha1, ha⟩ := hg.lat
  obtain ⟨b, hb0, hb1, hb⟩ := hg.lon
  have hlt : g.lat.getD i 0 = 90 - (a + i * dlat) := by rw [List.getD_eq_getElem?_getD, ha i hi]; rfl
  have hln : g.lon.getD j 0 = b + j * dlon := by rw [List.getD_eq_getElem?_getD, hb j hj]; rfl
  have d1 : roundTo 4 (g.lon.getD j 0) = g.lon.getD j 0 := roundTo_dec 4 _ (hg.lon4 _ (by
    rw [hln]; exact List.mem_of_getElem? (hb j hj)))
  have d2 : roundTo 4 (g.lat.getD i 0) = g.lat.getD i 0 := roundTo_dec 4 _ (hg.lat4 _ (by
    rw [hlt]; exact List.mem_of_getElem? (ha i hi)))
  have hnums := line_nums g date (i, j)
  obtain ⟨ts, hts⟩ : ∃ ts, ((lineFields g date (i, j)).flatMap fun f => toks 4 f.2) =
      .dec (litOf 4 (g.lon.getD j 0)) :: .dec (litOf 4 (g.lat.getD i 0)) :: .dec (litOf 4 x) :: ts := by
    unfold lineFields
    rw [hx, List.append_assoc, List.flatMap_append]
    exact ⟨_, rfl⟩
  rw [hts] at hnums
  obtain ⟨f1, f2, f3⟩ := field_first rest _ _ _ _ _ hr hnums
  have v1 : (Tok.dec (litOf 4 (g.lon.getD j 0))).val = g.lon.getD j 0 := d1
  have v2 : (Tok.dec (litOf 4 (g.lat.getD i 0))).val = g.lat.getD i 0 := d2
  rw [v1] at f1
  rw [v2] at f2
  have e1 : pyIndex s.lat.length ⌊(90 - g.lat.getD i 0) / dlat⌋ = some i := by
    rw [hlt, show (90 : ℚ) - (90 - (a + i * dlat)) = a + i * dlat by ring, floor_offset a dlat i ha0 ha1]
    exact pyIndex_nat _ _ (by omega)
  have e2 : pyIndex s.lon.length (trunc (g.lon.getD j 0 / dlon)) = some j := by
    unfold trunc
    rw [hln, if_pos (by have := hg.dlon_pos; positivity), floor_offset b dlon j hb0 hb1]
    exact pyIndex_nat _ _ (by omega)
  unfold readLine
  rw [f1, f2, f3]
  have := hg.dlon_pos.ne'
  have := hg.dlat_pos.ne'
  simp only [bind, Except.bind, pure, Except.pure, if_neg hg.dlon_pos.ne', if_neg hg.dlat_pos.ne', e1, e2]
  rw [if_neg (by simp)]
  unfold putCell
  simp only [hx, Option.getD_some]
  rfl

theorem read_cells (g : Grid) (dlon dlat : ℚ) (hg : Global g dlon dlat) (hn : NoNaN g) (date : Bool)
    (rest : List String) (hr : ∀ c ∈ rest, c ≠ "lon" ∧ c ≠ "lat" ∧ c ≠ "data") :
    ∀ (cs : List (ℕ × ℕ)) (_ : ∀ c ∈ cs, c ∈ validCells g) (s : Grid) (_ : s.lat.length = g.lat.length)
      (_ : s.lon.length = g.lon.length),
      (cs.map fun c => joinFields ((lineFields g date c).map fun f => fmtV f.1 4 f.2)).foldlM
        (readLine ("lon" :: "lat" :: "data" :: rest) false dlon dlat) s = .ok (cs.foldl (putCell g) s) := by
  intro cs
  induction cs with
  | nil => intro _ s _ _; rfl
  | cons c t ih =>
    intro hc s h1 h2
    rw [List.map_cons, List.foldlM_cons, readLine_cell g dlon dlat hg hn date rest hr c (hc c (by simp)) s h1 h2]
    exact ih (fun d hd => hc d (by simp [hd])) (putCell g s c) (by simp [putCell, h1]) (by simp [putCell, h2])

open scoped Classical in
/-- the cells after reading -/
theorem put_cells (g : Grid) : ∀ (cs : List (ℕ × ℕ)) (_ : ∀ c ∈ cs, c ∈ validCells g) (s : Grid)
    (_ : s.lat.length = g.lat.length) (_ : s.lon.length = g.lon.length),
    (∀ i j : ℕ, (cs.foldl (putCell g) s).data i j =
        if (i, j) ∈ cs then some (roundTo 4 ((g.data i j).getD 0)) else s.data i j) ∧
      (∀ i j : ℕ, s.mask i j = false → (cs.foldl (putCell g) s).mask i j = false) ∧
      (cs.foldl (putCell g) s).lat.length = g.lat.length ∧ (cs.foldl (putCell g) s).lon.length = g.lon.length ∧
      (∀ i : ℕ, (cs.foldl (putCell g) s).lat[i]? = if ∃ j, (i, j) ∈ cs then g.lat[i]? else s.lat[i]?) ∧
      (∀ j : ℕ, (cs.foldl (putCell g) s).lon[j]? = if ∃ i, (i, j) ∈ cs then g.lon[j]? else s.lon[j]?) ∧
      (cs.foldl (putCell g) s).fill = s.fill ∧ (cs.foldl (putCell g) s).time = s.time := by
  intro cs
  induction cs with
  | nil => intro _ s h1 h2; simp [h1, h2]
  | cons c t ih =>
    intro hc s h1 h2
    obtain ⟨a, b⟩ := c
    obtain ⟨ha, hb, _, _⟩ := (mem_validCells g a b).1 (hc (a, b) (by simp))
    obtain ⟨k1, k2, k3, k4, k5, k6, k7, k8⟩ := ih (fun d hd => hc d (by simp [hd])) (putCell g s (a, b))
      (by simp [putCell, h1]) (by simp [putCell, h2])
    rw [List.foldl_cons]
    refine ⟨?_, ?_, k3, k4, ?_, ?_, by rw [k7]; rfl, by rw [k8]; rfl⟩
    · intro i j
      rw [k1 i j]
      by_cases ht : (i, j) ∈ t
      · simp [ht]
      · by_cases he : i = a ∧ j = b
        · obtain ⟨rfl, rfl⟩ := he
          simp [ht, putCell, setCell]
        · simp [ht, putCell, setCell, he]
    · intro i j hij
      refine k2 i j ?_
      simp [putCell, setCell, hij]
    · intro i
      rw [k5 i]
      by_cases ht : ∃ j, (i, j) ∈ t
      · obtain ⟨j, hj⟩ := ht
        rw [if_pos ⟨j, hj⟩, if_pos ⟨j, by simp [hj]⟩]
      · rw [if_neg ht]
        by_cases he : i = a
        · subst he
          rw [if_pos ⟨b, by simp⟩]
          simp only [putCell]
          rw [List.getElem?_set_self (by omega), List.getD_eq_getElem?_getD, List.getElem?_eq_getElem ha]
          rfl
        · rw [if_neg]
          · simp only [putCell]
            rw [List.getElem?_set_ne (Ne.symm he)]
          · rintro ⟨j, hj⟩
            rw [List.mem_cons] at hj
            rcases hj with hj | hj
            · exact he (by simpa using congrArg Prod.fst hj)
            · exact ht ⟨j, hj⟩
    · intro j
      rw [k6 j]
      by_cases ht : ∃ i, (i, j) ∈ t
      · obtain ⟨i, hi⟩ := ht
        rw [if_pos ⟨i, hi⟩, if_pos ⟨i, by simp [hi]⟩]
      · rw [if_neg ht]
        by_cases he : j = b
        · subst he
          rw [if_pos ⟨a, by simp⟩]
          simp only [putCell]
          rw [List.getElem?_set_self (by omega), List.getD_eq_getElem?_getD, List.getElem?_eq_getElem hb]
          rfl
        · rw [if_neg]
          · simp only [putCell]
            rw [List.getElem?_set_ne (Ne.symm he)]
          · rintro ⟨i, hi⟩
            rw [List.mem_cons] at hi
            rcases hi with hi | hi
            · exact he (by simpa using congrArg Prod.snd hi)
            · exact ht ⟨i, hi⟩

theorem valid_iff (g : Grid) (hn : NoNaN g) (i j : ℕ) : (i, j) ∈ validCells g ↔ ∃ x, Cell g i j x := by
  rw [mem_validCells]
  constructor
  · rintro ⟨h1, h2, h3, h4⟩
    obtain ⟨x, hx⟩ := Option.ne_none_iff_exists'.1 (hn i h1 j h2 h4)
    refine ⟨x, h1, h2, h4, hx, ?_⟩
    intro hf
    rw [hf, hx] at h3
    simp [isFill] at h3
  · rintro ⟨x, h1, h2, h3, h4, h5⟩
    refine ⟨h1, h2, ?_, h3⟩
    rw [h4]
    unfold isFill
    split
    · rename_i a b e1 e2
      simp at e2
      subst e2
      simp only [decide_eq_false_iff_not]
      rintro rfl
      exact h5 e1
    · rfl

/-- `update_mask` on a grid without masks: a cell is masked exactly if it holds the fill value -/
theorem updateMask_spec (s : Grid) (i j : ℕ) (r : ℚ) (hm : s.mask i j = false) (hd : s.data i j = some r) :
    (updateMask s).data i j = some r ∧ (updateMask s).mask i j = decide (s.fill = some (some r)) := by
  unfold updateMask
  cases hf : s.fill with
  | none => simp [hm, hd]
  | some f =>
    cases f with
    | none => simp [hm, hd, isFill]
    | some f =>
      simp only [hm, hd, isFill, Bool.false_or, Option.isNone_some, Bool.or_false]
      by_cases h : f = r
      · simp [h]
      · simp [h]

theorem updateMask_axes (s : Grid) : (updateMask s).lat = s.lat ∧ (updateMask s).lon = s.lon := by
  unfold updateMask
  cases s.fill <;> simp

open scoped Classical in
/-- what is read, for any axes of the right lengths -/
theorem round_trip (g : Grid) (dlon dlat : ℚ) (hg : Global g dlon dlat) (hn : NoNaN g) (date : Bool)
    (ht : date = true → g.time ≠ none) (o : Opts) (hc : Columns o.columns) (hd : o.date = false)
    (hdr : List (List Char)) (hh : o.header = hdr.length) (fill : Option (Option ℚ)) (lon lat : List ℚ)
    (hdims : dims o = .ok (lon, lat, dlon, dlat)) (hlat : lat.length = g.lat.length) (hlon : lon.length = g.lon.length) :
    ∃ lines g', toAscii g date = .ok lines ∧ fromAscii fill o (hdr ++ lines) = .ok g' ∧
      (∀ i j x, Cell g i j x → ∃ r, Rounded 4 x r ∧ (Dec 4 x → r = x) ∧ g'.data i j = some r ∧
        g'.mask i j = decide (fill = some (some r))) ∧
      (∀ i j, (¬ ∃ x, Cell g i j x) → g'.data i j = some 0 ∧ g'.mask i j = decide (fill = some (some 0))) ∧
      g'.lat.length = g.lat.length ∧ g'.lon.length = g.lon.length ∧
      (∀ i : ℕ, g'.lat[i]? = if ∃ j x, Cell g i j x then g.lat[i]? else lat[i]?) ∧
      (∀ j : ℕ, g'.lon[j]? = if ∃ i x, Cell g i j x then g.lon[j]? else lon[j]?) := by
  obtain ⟨rest, hcols, hrest⟩ := hc
  have hfilter : (o.columns.filter fun c => c != "time") = "lon" :: "lat" :: "data" :: rest.filter fun c => c != "time" := by
    rw [hcols]; rfl
  have hr' : ∀ c ∈ rest.filter (fun c => c != "time"), c ≠ "lon" ∧ c ≠ "lat" ∧ c ≠ "data" := fun c hc =>
    hrest c (List.mem_filter.1 hc).1
  set s0 : Grid := { lon := lon, lat := lat, data := fun _ _ => some 0, mask := fun _ _ => false, error := none,
                     time := none, fill := fill } with hs0
  have hread := read_cells g dlon dlat hg hn date _ hr' (validCells g) (fun _ h => h) s0 hlat hlon
  obtain ⟨k1, k2, k3, k4, k5, k6, k7, k8⟩ := put_cells g (validCells g) (fun _ h => h) s0 hlat hlon
  refine ⟨_, updateMask ((validCells g).foldl (putCell g) s0), mapM_ok _ _ _ fun c _ => writeLine_eq g date c ht, ?_, ?_,
    ?_, ?_, ?_, ?_, ?_⟩
  · unfold fromAscii
    rw [hdims, hh, hfilter, hd]
    simp only [bind, Except.bind, List.drop_left]
    rw [hread]
    rfl
  · intro i j x hx
    refine ⟨roundTo 4 x, roundTo_rounded 4 x, roundTo_dec 4 x, ?_⟩
    have hmem := (valid_iff g hn i j).2 ⟨x, hx⟩
    have hd' : ((validCells g).foldl (putCell g) s0).data i j = some (roundTo 4 x) := by
      rw [k1, if_pos hmem, hx.2.2.2.1]; rfl
    have := updateMask_spec _ i j _ (k2 i j rfl) hd'
    rw [k7] at this
    exact this
  · intro i j hx
    have hmem : (i, j) ∉ validCells g := fun h => hx ((valid_iff g hn i j).1 h)
    have hd' : ((validCells g).foldl (putCell g) s0).data i j = some 0 := by
      rw [k1, if_neg hmem]
    have := updateMask_spec _ i j _ (k2 i j rfl) hd'
    rw [k7] at this
    exact this
  · rw [(updateMask_axes _).1, k3]
  · rw [(updateMask_axes _).2, k4]
  · intro i
    rw [(updateMask_axes _).1, k5]
    simp only [valid_iff g hn, hs0]
  · intro j
    rw [(updateMask_axes _).2, k6]
    simp only [valid_iff g hn, hs0]

end Verif.SpatialIO
