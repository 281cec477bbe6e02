import Verif.GeoRead.Text
import Verif.Geocenter.Props
import Verif.Time.Decimal

/-!
# C78: geocenter files
-/
namespace Verif.GeoRead
open Verif.Time Verif.Time.Spec Verif.SLR Verif.GIA Verif.Geocenter

/-! ## Specification -/

/-- the GRACE month `g` contains the day before the date `t` (a decimal year) -/
def MonthOfDayBefore (t : ℚ) (g : ℤ) : Prop :=
  ∃ y m d, Valid y m d ∧ dayNumber y m d = dayNumber ⌊t⌋ 1 1 + ⌊(t - ⌊t⌋) * yearLen ⌊t⌋⌋ - 1 ∧
    g = 12 * (y - 2002) + m

/-- `v` is the number of the line in the column called `name` (the first of that name) -/
def Named (COLUMNS : List String) (ts : List Tok) (name : String) (v : ℚ) : Prop :=
  ∃ k : ℕ, COLUMNS[k]? = some name ∧ (∀ j : ℕ, j < k → COLUMNS[j]? ≠ some name) ∧ ts[k]?.map Tok.val = some v

/-- degree one coefficients of a geocenter displacement -/
noncomputable def degreeOne (radius : ℝ) (x y z : ℚ) : ℝ × ℝ × ℝ :=
  (z / (radius * Real.sqrt 3), x / (radius * Real.sqrt 3), y / (radius * Real.sqrt 3))

/-! ## Lemmas -/

theorem adjust_rel {A : Type} (R : A → Entry → Prop) (M : A → ℤ → Prop)
    (hR : ∀ a r g, R a r → R a { r with month := g }) (as : List A) (rs : List Entry)
    (h : List.Forall₂ (fun a r => R a r ∧ M a r.month) as rs) :
    List.Forall₂ R as (adjust rs) ∧
      ∃ gs, List.Forall₂ M as gs ∧ (adjust rs).map Entry.month = adjustMonths gs := by
  have hlen : (adjustMonths (rs.map Entry.month)).length = rs.length := by rw [adjustMonths_length]; simp
  have key : ∀ (as : List A) (rs : List Entry) (gs : List ℤ), gs.length = rs.length →
      List.Forall₂ (fun a r => R a r ∧ M a r.month) as rs →
      List.Forall₂ R as ((rs.zip gs).map fun p => { p.1 with month := p.2 }) ∧
      (((rs.zip gs).map fun p => ({ p.1 with month := p.2 } : Entry)).map Entry.month = gs) ∧
      List.Forall₂ M as (rs.map Entry.month) := by
    intro as rs gs hl hf
    induction hf generalizing gs with
    | nil => have : gs = [] := by simpa using hl
             subst this; exact ⟨.nil, rfl, .nil⟩
    | @cons a r as rs h1 _ ih =>
      obtain ⟨g, gs, rfl⟩ : ∃ g gs', gs = g :: gs' := by
        cases gs with
        | nil => simp at hl
        | cons g gs => exact ⟨g, gs, rfl⟩
      obtain ⟨i1, i2, i3⟩ := ih gs (by simpa using hl)
      refine ⟨.cons (hR _ _ _ h1.1) i1, ?_, .cons h1.2 i3⟩
      simpa using i2
  obtain ⟨k1, k2, k3⟩ := key as rs _ hlen h
  exact ⟨k1, _, k3, k2⟩

theorem julianMonth_before (t : ℚ) (h0 : 1583 ≤ t) (h1 : t < 4000) :
    ∃ y m g, julianMonth t = some (y, m, g) ∧ MonthOfDayBefore t g ∧ 1 ≤ m ∧ m ≤ 12 ∧ g = 12 * (y - 2002) + m := by
  have f0 : (1583 : ℤ) ≤ ⌊t⌋ := Int.le_floor.2 (by exact_mod_cast h0)
  have f1 : ⌊t⌋ < 4000 := Int.floor_lt.2 (by exact_mod_cast h1)
  obtain ⟨y, m, d, hv, hd, hj⟩ := julianMonth_spec t (by omega) (by unfold dayNumber; simp [daysBefore]; omega)
  exact ⟨y, m, _, hj, ⟨y, m, d, hv, hd, rfl⟩, hv.1, hv.2.1, rfl⟩

theorem cartesian_eq (radius : ℝ) (x y z : ℚ) : cartesian radius x y z = some (degreeOne radius x y z) := by
  unfold cartesian fromCartesian mustBlock degreeOne
  simp

/-! ## GravIS -/

/-- a line of a GravIS file: date in the second column; coefficients in the third, sixth and ninth; errors in units of
1e-10 in the fifth, eighth and eleventh -/
def GravisEntry (xs : List Lit) (r : Entry) : Prop :=
  ∃ t c10 c11 s11 e10 e11 es11, xs[1]? = some t ∧ xs[2]? = some c10 ∧ xs[5]? = some c11 ∧ xs[8]? = some s11 ∧
    xs[4]? = some e10 ∧ xs[7]? = some e11 ∧ xs[10]? = some es11 ∧ r.time = t.val ∧
    r.coef = some ((c10.val : ℝ), (c11.val : ℝ), (s11.val : ℝ)) ∧
    r.err = some ((e10.val : ℝ) / 10 ^ 10, (e11.val : ℝ) / 10 ^ 10, (es11.val : ℝ) / 10 ^ 10)

/-- month of such a line before the adjustment: the nearest one -/
def GravisMonth (xs : List Lit) (g : ℤ) : Prop := ∃ t, xs[1]? = some t ∧ g = nearestMonth t.val

theorem gravisEntry_month (xs : List Lit) (r : Entry) (g : ℤ) (h : GravisEntry xs r) :
    GravisEntry xs { r with month := g } := by
  obtain ⟨t, a, b, c, d, e, f, h1, h2, h3, h4, h5, h6, h7, h8, h9, h10⟩ := h
  exact ⟨t, a, b, c, d, e, f, h1, h2, h3, h4, h5, h6, h7, h8, h9, h10⟩

/-- **C78** GravIS files: every line with numbers after the product line gives one date, in the order of the file; its
month is the one nearest to the beginning of the solution, adjusted -/
theorem gravis_spec (header : List Line) (product : Line) (body : List (Line × List Lit))
    (hh : ∀ l ∈ header, upperProduct l = false) (hp : upperProduct product = true)
    (hrow : ∀ p ∈ body, Row p.1 p.2) (hcol : ∀ p ∈ body, p.2 ≠ [] → 10 < p.2.length) :
    ∃ rs, fromGravis true (header ++ product :: body.map Prod.fst) = some rs ∧
      List.Forall₂ (fun p r => GravisEntry p.2 r) (body.filter fun p => !p.2.isEmpty) rs ∧
      ∃ gs, List.Forall₂ (fun p g => GravisMonth p.2 g) (body.filter fun p => !p.2.isEmpty) gs ∧
        rs.map Entry.month = adjustMonths gs := by
  obtain ⟨rs, hrs, hall⟩ := mapM_forall₂ Prod.fst gravisLine
    (fun (p : Line × List Lit) r => GravisEntry p.2 r ∧ GravisMonth p.2 r.month)
    (body.filter fun p => !p.2.isEmpty) (by
      intro p hp
      rw [List.mem_filter] at hp
      have hne : p.2 ≠ [] := by simpa using hp.2
      have hl := hcol p hp.1 hne
      have hr := hrow p hp.1
      have g : ∀ k, k ≤ 10 → ∃ x, p.2[k]? = some x := fun k hk => ⟨_, List.getElem?_eq_getElem (by omega)⟩
      obtain ⟨x1, g1⟩ := g 1 (by omega)
      obtain ⟨x2, g2⟩ := g 2 (by omega)
      obtain ⟨x5, g5⟩ := g 5 (by omega)
      obtain ⟨x8, g8⟩ := g 8 (by omega)
      obtain ⟨x4, g4⟩ := g 4 (by omega)
      obtain ⟨x7, g7⟩ := g 7 (by omega)
      obtain ⟨x10, g10⟩ := g 10 (by omega)
      refine ⟨⟨x1.val, nearestMonth x1.val, _, _⟩, ?_, ⟨_, _, _, _, _, _, _, g1, g2, g5, g8, g4,
        g7, g10, rfl, rfl, rfl⟩, _, g1, rfl⟩
      unfold gravisLine
      rw [col_row p.1 p.2 hr, col_row p.1 p.2 hr, col_row p.1 p.2 hr, col_row p.1 p.2 hr, col_row p.1 p.2 hr,
        col_row p.1 p.2 hr, col_row p.1 p.2 hr, g1, g2, g5, g8,
        g4, g7, g10]
      simp only [Option.map_some, Option.bind_eq_bind, Option.bind_some, scale_eq]
      rfl)
  have := adjust_rel (fun (p : Line × List Lit) r => GravisEntry p.2 r)
    (fun p g => GravisMonth p.2 g) (fun a r g h => gravisEntry_month a.2 r g h) _ rs hall
  refine ⟨adjust rs, ?_, this⟩
  unfold fromGravis
  rw [skipHeader_found upperProduct header product _ hh hp]
  simp only [Option.bind_eq_bind, Option.bind_some]
  unfold readLines
  rw [filter_map_fst (more 0) (fun xs => !xs.isEmpty) body (by
    intro p hp; rw [more_row 0 p.1 p.2 (hrow p hp)]; cases p.2 <;> simp), hrs]
  rfl

/-- **C78** a GravIS file without a product line is rejected -/
theorem gravis_no_header (ls : List Line) (h : ∀ l ∈ ls, upperProduct l = false) : fromGravis true ls = none := by
  unfold fromGravis
  rw [(skipHeader_missing upperProduct ls h).1]; rfl

/-! ## Dealiasing files -/

/-- a line of a dealiasing file for the month: a time of that month and a displacement -/
def AodLine (year month : ℕ) (l : Line) (p : ℚ × ℚ × ℚ) : Prop :=
  ∃ (d h mi s : ℕ) (tx ty tz : Tok), 1 ≤ d ∧ d ≤ monthDays year month ∧ h ≤ 23 ∧ mi ≤ 59 ∧ s ≤ 59 ∧
    Words l [isoText year month d h mi s, tx.chars, ty.chars, tz.chars] ∧ p = (tx.val, ty.val, tz.val)

/-- the lines that are not comments -/
def dataLines (ls : List Line) : List Line := ls.filter fun l => l.head? ≠ some '#'

theorem aodLine_spec (year month : ℕ) (hy : 1 ≤ year) (hy2 : year < 10000) (hm : 1 ≤ month) (hm2 : month ≤ 12)
    (l : Line) (p : ℚ × ℚ × ℚ) (h : AodLine year month l p) : aodLine year month l = some p := by
  obtain ⟨d, h, mi, s, tx, ty, tz, h1, h2, h3, h4, h5, hw, rfl⟩ := h
  unfold aodLine
  rw [split_words l _ hw]
  simp only [isoDate_text year month d h mi s hy hy2 hm hm2 h1 h2 h3 h4 h5, pyFloat_tok]
  simp

theorem mapM_of_forall₂ {A B : Type} (f : A → Option B) (as : List A) (bs : List B)
    (h : List.Forall₂ (fun a b => f a = some b) as bs) : as.mapM f = some bs := by
  induction h with
  | nil => rfl
  | cons h1 _ ih => simp [h1, ih]

theorem map_finRange {A B : Type} (xs : List A) (f : A → B) : (List.finRange xs.length).map (fun i => f xs[i]) = xs.map f := by
  apply List.ext_getElem
  · simp
  · intro i h1 h2; simp

/-- **C78** dealiasing files: every line that is not a comment gives the degree one coefficients of its displacement, with
the *default* radius of the Earth -/
theorem aod_spec (year month : ℕ) (hy : 1 ≤ year) (hy2 : year < 10000) (hm : 1 ≤ month) (hm2 : month ≤ 12)
    (ls : List Line) (xs : List (ℚ × ℚ × ℚ)) (h : List.Forall₂ (AodLine year month) (dataLines ls) xs) :
    fromAOD1B year month ls = some (xs.map fun p => degreeOne defaultRadius p.1 p.2.1 p.2.2) := by
  have e : (ls.filter fun l => !comment l) = dataLines ls := by
    unfold dataLines
    apply List.filter_congr
    intro l _
    simp [comment]
  unfold fromAOD1B
  rw [e, mapM_of_forall₂ (aodLine year month) _ xs (h.imp fun a b => aodLine_spec year month hy hy2 hm hm2 a b)]
  simp only [Option.bind_eq_bind, Option.bind_some, fromCartesian, mustBlock, Option.map_some]
  rw [← map_finRange xs]
  simp [degreeOne]

/-- **C78** a time outside of the month is refused -/
theorem aod_other_month (year month : ℤ) (ls : List Line) (l : Line) (hl : l ∈ dataLines ls) (ws : List (List Char))
    (d : List Char) (hw : Words l (d :: ws)) (y m : ℕ) (hd : isoDate d = some (y, m))
    (hne : (y : ℤ) ≠ year ∨ (m : ℤ) ≠ month) : fromAOD1B year month ls = none := by
  have e : (ls.filter fun l => !comment l) = dataLines ls := by
    unfold dataLines
    apply List.filter_congr
    intro l _
    simp [comment]
  have hnone : aodLine year month l = none := by
    unfold aodLine
    rw [split_words l _ hw]
    split
    · rename_i d' x y' z heq
      obtain ⟨rfl, -⟩ := List.cons.inj heq
      rw [hd]
      simp only [Option.bind_eq_bind, Option.bind_some]
      cases pyFloat x with
      | none => rfl
      | some x =>
        cases pyFloat y' with
        | none => rfl
        | some y' =>
          cases pyFloat z with
          | none => rfl
          | some z =>
            simp only [Option.bind_some]
            rw [if_neg (by tauto)]
    · rfl
  unfold fromAOD1B
  rw [e, mapM_none _ _ l hl hnone]
  rfl

/-- **C78** the dealiasing files that the reader looks for are not those that the program for them writes: the names differ
whatever release, product, year and month -/
theorem aod_names (release p p' : List Char) (y m y' m' : ℕ) :
    aodReadName release p y m ≠ aodWriteName release p' y' m' := by
  unfold aodReadName aodWriteName
  simp only [List.append_assoc, List.cons_append]
  intro h
  have h1 := List.append_cancel_left h
  have h2 := List.append_cancel_left h1
  simp at h2

/-! ## Satellite laser ranging -/

theorem idxOf_first (a : String) : ∀ (l : List String) (k : ℕ), l[k]? = some a → (∀ j : ℕ, j < k → l[j]? ≠ some a) →
    l.idxOf a = k
  | [], k, h, _ => by simp at h
  | x :: t, 0, h, _ => by simp at h; subst h; simp
  | x :: t, k + 1, h, h2 => by
    have hx : x ≠ a := by
      have := h2 0 (by omega)
      simpa using this
    rw [List.idxOf_cons_ne t hx, idxOf_first a t k (by simpa using h) fun j hj => by
      have := h2 (j + 1) (by omega)
      simpa using this]

theorem slrCol_named (COLUMNS : List String) (l : Line) (ts : List Tok) (h : LRow (dToE l) ts) (name : String) (v : ℚ)
    (hn : Named COLUMNS ts name v) : slrCol COLUMNS l name = some v := by
  obtain ⟨k, h1, h2, h3⟩ := hn
  obtain ⟨hk, he⟩ := List.getElem?_eq_some_iff.1 h1
  have hi : COLUMNS.idxOf name = k := idxOf_first name COLUMNS k h1 h2
  have hmem : name ∈ COLUMNS := by rw [← he]; exact List.getElem_mem hk
  unfold slrCol
  rw [if_pos hmem, hi, rxAll_lrow _ ts h, List.getElem?_map]
  cases hts : ts[k]? with
  | none => rw [hts] at h3; simp at h3
  | some t => rw [hts] at h3; simp at h3; simp [pyFloat_tok, h3]

/-- a line with its seven named columns -/
structure SlrCols (COLUMNS : List String) (ts : List Tok) (t x y z xs ys zs : ℚ) : Prop where
  time : Named COLUMNS ts "time" t
  x : Named COLUMNS ts "X" x
  y : Named COLUMNS ts "Y" y
  z : Named COLUMNS ts "Z" z
  xs : Named COLUMNS ts "X_sigma" xs
  ys : Named COLUMNS ts "Y_sigma" ys
  zs : Named COLUMNS ts "Z_sigma" zs
  lower : 1583 ≤ t
  upper : t < 4000

/-- the date of a line and what is read from it, without dealiasing -/
def SlrEntry (radius : ℝ) (COLUMNS : List String) (ts : List Tok) (r : Entry) : Prop :=
  ∃ x y z xs ys zs, SlrCols COLUMNS ts r.time x y z xs ys zs ∧ r.coef = some (degreeOne radius x y z) ∧
    r.err = some (degreeOne radius xs ys zs)

variable (radius : ℝ) (disk : Disk) (release : List Char) (COLUMNS : List String)

/-- **C78** satellite laser ranging files: every line after the header gives one date; coefficients and errors are those
of the displacements in the named columns for the radius of the object; months are those of the day before each date,
adjusted -/
theorem slr_spec (hd : disk.release release = true) (header : List Line) (body : List (Line × List Tok))
    (hrow : ∀ p ∈ body, LRow (dToE p.1) p.2)
    (hcol : ∀ p ∈ body, ∃ t x y z xs ys zs, SlrCols COLUMNS p.2 t x y z xs ys zs) :
    ∃ rs, fromSLR radius disk (some release) false header.length COLUMNS (header ++ body.map Prod.fst) = some rs ∧
      List.Forall₂ (fun p r => SlrEntry radius COLUMNS p.2 r) body rs ∧
      ∃ gs, List.Forall₂ (fun p g => ∃ t, Named COLUMNS p.2 "time" t ∧ MonthOfDayBefore t g) body gs ∧
        rs.map Entry.month = adjustMonths gs := by
  obtain ⟨rs, hrs, hall⟩ := mapM_forall₂ Prod.fst (slrLine radius disk release false COLUMNS)
    (fun (p : Line × List Tok) r => SlrEntry radius COLUMNS p.2 r ∧
      ∃ t, Named COLUMNS p.2 "time" t ∧ MonthOfDayBefore t r.month) body (by
      intro p hp
      obtain ⟨t, x, y, z, xs, ys, zs, hc⟩ := hcol p hp
      have hr := hrow p hp
      obtain ⟨yy, mm, g, hj, hg, -⟩ := julianMonth_before t hc.lower hc.upper
      refine ⟨⟨t, g, some (degreeOne radius x y z), some (degreeOne radius xs ys zs)⟩, ?_,
        ⟨x, y, z, xs, ys, zs, hc, rfl, rfl⟩, t, hc.time, hg⟩
      unfold slrLine
      rw [slrCol_named COLUMNS _ _ hr _ _ hc.time, slrCol_named COLUMNS _ _ hr _ _ hc.x, slrCol_named COLUMNS _ _ hr _ _ hc.y,
        slrCol_named COLUMNS _ _ hr _ _ hc.z, slrCol_named COLUMNS _ _ hr _ _ hc.xs,
        slrCol_named COLUMNS _ _ hr _ _ hc.ys, slrCol_named COLUMNS _ _ hr _ _ hc.zs]
      simp only [Option.bind_eq_bind, Option.bind_some, cartesian_eq, hj])
  have := adjust_rel (fun (p : Line × List Tok) r => SlrEntry radius COLUMNS p.2 r)
    (fun p g => ∃ t, Named COLUMNS p.2 "time" t ∧ MonthOfDayBefore t g) (fun a r g h => h) _ rs hall
  refine ⟨adjust rs, ?_, this⟩
  unfold fromSLR
  simp only [Option.bind_eq_bind, Option.bind_some]
  rw [if_neg (by simp [hd]), List.drop_left, hrs]
  rfl

/-- **C78** the reader cannot be called without naming a release, which is its default; nor without the directory of the
dealiasing files, even when they are not used -/
theorem slr_release (AOD : Bool) (HEADER : ℕ) (ls : List Line) :
    fromSLR radius disk none AOD HEADER COLUMNS ls = none ∧
      (disk.release release = false → fromSLR radius disk (some release) AOD HEADER COLUMNS ls = none) := by
  refine ⟨rfl, fun h => ?_⟩
  unfold fromSLR
  simp [h]

/-- **C78** a column that is not named is an error -/
theorem slr_missing_column (AOD : Bool) (HEADER : ℕ) (ls : List Line) (hl : HEADER < ls.length) (name : String)
    (hn : name ∈ ["time", "X", "Y", "Z", "X_sigma", "Y_sigma", "Z_sigma"]) (hm : name ∉ COLUMNS) :
    fromSLR radius disk (some release) AOD HEADER COLUMNS ls = none := by
  have hnone : ∀ l, slrLine radius disk release AOD COLUMNS l = none := by
    intro l
    have hc : slrCol COLUMNS l name = none := by unfold slrCol; rw [if_neg hm]
    unfold slrLine
    simp only [List.mem_cons, List.not_mem_nil, or_false] at hn
    have bn : ∀ {A B : Type} (o : Option A), (o.bind fun _ => (none : Option B)) = none := by
      intro A B o; cases o <;> rfl
    rcases hn with rfl | rfl | rfl | rfl | rfl | rfl | rfl <;> simp only [hc, Option.bind_eq_bind, Option.bind_none, bn]
  unfold fromSLR
  simp only [Option.bind_eq_bind, Option.bind_some]
  split
  · rfl
  · rw [mapM_none _ _ ((ls.drop HEADER)[0]'(by simp; omega)) (List.getElem_mem _) (hnone _)]
    rfl

/-- a line read with dealiasing removed: the monthly mean of the coefficients of the file for the month of the day before -/
def SlrAodEntry (ts : List Tok) (r : Entry) : Prop :=
  ∃ x y z xs ys zs, SlrCols COLUMNS ts r.time x y z xs ys zs ∧ r.err = some (degreeOne radius xs ys zs) ∧
    ∃ (yy mm : ℕ) (als : List Line) (ds : List (ℚ × ℚ × ℚ)), MonthOfDayBefore r.time (12 * ((yy : ℤ) - 2002) + mm) ∧
      1 ≤ mm ∧ mm ≤ 12 ∧ disk.file release (aodReadName release "glo".toList yy mm) = some als ∧
      List.Forall₂ (AodLine yy mm) (dataLines als) ds ∧
      let mean (f : ℚ × ℚ × ℚ → ℚ) : ℝ := (ds.map fun p => (f p : ℝ)).sum / ds.length
      r.coef = some (z / (radius * Real.sqrt 3) - mean (fun p => p.2.2) / (defaultRadius * Real.sqrt 3),
        x / (radius * Real.sqrt 3) - mean (fun p => p.1) / (defaultRadius * Real.sqrt 3),
        y / (radius * Real.sqrt 3) - mean (fun p => p.2.1) / (defaultRadius * Real.sqrt 3))

theorem month_unique (g : ℤ) (y m y' m' : ℤ) (h1 : 1 ≤ m) (h2 : m ≤ 12) (h1' : 1 ≤ m') (h2' : m' ≤ 12)
    (h : 12 * (y - 2002) + m = g) (h' : 12 * (y' - 2002) + m' = g) : y = y' ∧ m = m' := by omega

theorem mean_div {A : Type} (ds : List A) (f : A → ℝ) (c : ℝ) :
    (ds.map fun p => f p / c).sum / ds.length = (ds.map f).sum / ds.length / c := by
  have : (ds.map fun p => f p / c).sum = (ds.map f).sum / c := by
    induction ds with
    | nil => simp
    | cons a t ih => simp [ih, add_div]
  rw [this]; ring

/-- **C78** the same with dealiasing removed, if there is a file with data for the month of the day before each date -/
theorem slr_aod_spec (hd : disk.release release = true) (header : List Line) (body : List (Line × List Tok))
    (hrow : ∀ p ∈ body, LRow (dToE p.1) p.2)
    (hcol : ∀ p ∈ body, ∃ t x y z xs ys zs, SlrCols COLUMNS p.2 t x y z xs ys zs ∧ t < 3999 ∧
      ∀ yy mm : ℕ, 1 ≤ mm → mm ≤ 12 → MonthOfDayBefore t (12 * ((yy : ℤ) - 2002) + mm) →
        ∃ als ds, disk.file release (aodReadName release "glo".toList yy mm) = some als ∧ ds ≠ [] ∧
          List.Forall₂ (AodLine yy mm) (dataLines als) ds) :
    ∃ rs, fromSLR radius disk (some release) true header.length COLUMNS (header ++ body.map Prod.fst) = some rs ∧
      List.Forall₂ (fun p r => SlrAodEntry radius disk release COLUMNS p.2 r) body rs ∧
      ∃ gs, List.Forall₂ (fun p g => ∃ t, Named COLUMNS p.2 "time" t ∧ MonthOfDayBefore t g) body gs ∧
        rs.map Entry.month = adjustMonths gs := by
  obtain ⟨rs, hrs, hall⟩ := mapM_forall₂ Prod.fst (slrLine radius disk release true COLUMNS)
    (fun (p : Line × List Tok) r => SlrAodEntry radius disk release COLUMNS p.2 r ∧
      ∃ t, Named COLUMNS p.2 "time" t ∧ MonthOfDayBefore t r.month) body (by
      intro p hp
      obtain ⟨t, x, y, z, xs, ys, zs, hc, ht, hfile⟩ := hcol p hp
      have hr := hrow p hp
      obtain ⟨yy, mm, g, hj, hg, hm1, hm2, hge⟩ := julianMonth_before t hc.lower hc.upper
      have hyy : 1582 ≤ yy ∧ yy < 4000 := by
        obtain ⟨y', m', d', hv, hdn, hg'⟩ := hg
        have f0 : (1583 : ℤ) ≤ ⌊t⌋ := Int.le_floor.2 (by exact_mod_cast hc.lower)
        have f1 : ⌊t⌋ < 3999 := Int.floor_lt.2 (by exact_mod_cast ht)
        have hfl : 0 ≤ ⌊(t - ⌊t⌋) * yearLen ⌊t⌋⌋ ∧ ⌊(t - ⌊t⌋) * yearLen ⌊t⌋⌋ ≤ 366 := by
          have a0 : (0 : ℚ) ≤ t - ⌊t⌋ := by have := Int.floor_le t; linarith
          have a1 : t - ⌊t⌋ < 1 := by have := Int.lt_floor_add_one t; linarith
          have b0 : (0 : ℚ) ≤ yearLen ⌊t⌋ := by unfold yearLen; split_ifs <;> norm_num
          have b1 : (yearLen ⌊t⌋ : ℚ) ≤ 366 := by unfold yearLen; split_ifs <;> norm_num
          constructor
          · exact Int.floor_nonneg.2 (by positivity)
          · have : (⌊(t - ⌊t⌋) * yearLen ⌊t⌋⌋ : ℚ) ≤ 366 := by
              refine (Int.floor_le _).trans ?_
              nlinarith
            exact_mod_cast this
        obtain ⟨rfl, rfl⟩ := month_unique g yy mm y' m' hm1 hm2 hv.1 hv.2.1 hge.symm hg'.symm
        obtain ⟨v1, v2, v3, v4⟩ := hv
        have hb : 0 ≤ daysBefore yy mm ∧ daysBefore yy mm ≤ 335 := by
          by_cases hl : gregLeap yy <;> interval_cases mm <;> simp [daysBefore, hl]
        have hl : monthLen yy mm ≤ 31 := by
          by_cases hl : gregLeap yy <;> interval_cases mm <;> simp [monthLen, hl]
        unfold dayNumber at hdn
        have hz : daysBefore ⌊t⌋ 1 = 0 := by simp [daysBefore]
        rw [hz] at hdn
        generalize ⌊(t - ⌊t⌋) * (yearLen ⌊t⌋ : ℚ)⌋ = q at *
        generalize ⌊t⌋ = a at *
        generalize daysBefore yy mm = b at *
        generalize monthLen yy mm = c at *
        constructor <;> omega
      obtain ⟨yn, rfl⟩ := Int.eq_ofNat_of_zero_le (show 0 ≤ yy by omega)
      obtain ⟨mn, rfl⟩ := Int.eq_ofNat_of_zero_le (show 0 ≤ mm by omega)
      have hmn1 : 1 ≤ mn := by omega
      have hmn2 : mn ≤ 12 := by omega
      rw [hge] at hg
      obtain ⟨als, ds, hf, hne, hds⟩ := hfile yn mn hmn1 hmn2 hg
      have haod := aod_spec yn mn (by omega) (by omega) hmn1 hmn2 als ds hds
      refine ⟨⟨t, g, _, some (degreeOne radius xs ys zs)⟩, ?_,
        ⟨x, y, z, xs, ys, zs, hc, rfl, yn, mn, als, ds, hg, hmn1, hmn2, hf, hds, rfl⟩, t, hc.time, by rw [hge]; exact hg⟩
      unfold slrLine
      rw [slrCol_named COLUMNS _ _ hr _ _ hc.time, slrCol_named COLUMNS _ _ hr _ _ hc.x, slrCol_named COLUMNS _ _ hr _ _ hc.y,
        slrCol_named COLUMNS _ _ hr _ _ hc.z, slrCol_named COLUMNS _ _ hr _ _ hc.xs,
        slrCol_named COLUMNS _ _ hr _ _ hc.ys, slrCol_named COLUMNS _ _ hr _ _ hc.zs]
      simp only [Option.bind_eq_bind, Option.bind_some, cartesian_eq, hj, aodMean, Int.toNat_natCast, hf, haod]
      rw [Option.map_some]
      unfold meanTriple
      rw [if_neg (by simpa using hne)]
      simp only [subtract, Option.map_some, List.map_map, List.length_map, degreeOne, Function.comp_def, mean_div])
  have := adjust_rel (fun (p : Line × List Tok) r => SlrAodEntry radius disk release COLUMNS p.2 r)
    (fun p g => ∃ t, Named COLUMNS p.2 "time" t ∧ MonthOfDayBefore t g) (fun a r g h => h) _ rs hall
  refine ⟨adjust rs, ?_, this⟩
  unfold fromSLR
  simp only [Option.bind_eq_bind, Option.bind_some]
  rw [if_neg (by simp [hd]), List.drop_left, hrs]
  rfl

/-- **C78** with a directory that holds only the dealiasing files as their program names them, removing the dealiasing
always fails -/
theorem slr_aod_fails (HEADER : ℕ) (ls : List Line) (hl : HEADER < ls.length)
    (hdisk : ∀ n als, disk.file release n = some als → ∃ p y m, n = aodWriteName release p y m) :
    fromSLR radius disk (some release) true HEADER COLUMNS ls = none := by
  have hnone : ∀ l, slrLine radius disk release true COLUMNS l = none := by
    intro l
    have ha : ∀ yy mm, aodMean disk release yy mm = none := by
      intro yy mm
      unfold aodMean
      cases hf : disk.file release (aodReadName release "glo".toList yy.toNat mm.toNat) with
      | none => rfl
      | some als =>
        obtain ⟨p, y, m, hn⟩ := hdisk _ _ hf
        exact absurd hn (aod_names _ _ _ _ _ _ _)
    have bn : ∀ {A B : Type} (o : Option A), (o.bind fun _ => (none : Option B)) = none := by
      intro A B o; cases o <;> rfl
    unfold slrLine
    simp only [ha, Option.map_none, Option.bind_eq_bind, bn]
  unfold fromSLR
  simp only [Option.bind_eq_bind, Option.bind_some]
  split
  · rfl
  · rw [mapM_none _ _ ((ls.drop HEADER)[0]'(by simp; omega)) (List.getElem_mem _) (hnone _)]
    rfl

end Verif.GeoRead
