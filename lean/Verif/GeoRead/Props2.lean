import Verif.GeoRead.Props

/-!
# C78: geocenter files of Swenson, of this package and of GRACE Tellus
-/
namespace Verif.GeoRead
open Verif.Time Verif.Time.Spec Verif.SLR Verif.GIA Verif.Geocenter

/-! ## Swenson -/

/-- the line contains the text -/
def ContainsText (s : String) (l : Line) : Prop := ∃ a b, l = a ++ s.toList ++ b

theorem hasText_iff (s : String) (l : Line) : hasText s l = true ↔ ContainsText s l := by
  unfold hasText ContainsText
  rw [List.any_eq_true]
  constructor
  · rintro ⟨t, ht, hp⟩
    obtain ⟨a, rfl⟩ := (List.mem_tails t l).1 ht
    obtain ⟨b, rfl⟩ := List.isPrefixOf_iff_prefix.1 hp
    exact ⟨a, b, by simp⟩
  · rintro ⟨a, b, rfl⟩
    exact ⟨s.toList ++ b, (List.mem_tails _ _).2 ⟨a, by simp⟩, List.isPrefixOf_iff_prefix.2 ⟨b, rfl⟩⟩

theorem hasText_false (s : String) (l : Line) (h : ¬ ContainsText s l) : hasText s l = false := by
  rw [← hasText_iff] at h; simpa using h

/-- numbers of a line of a Swenson file: date, three coefficients in millimetres of water, and the month as a fifth number,
or not -/
def SwensonEntry (ts : List Tok) (r : Entry) : Prop :=
  ∃ t a b c, ts[0]? = some t ∧ ts[1]? = some a ∧ ts[2]? = some b ∧ ts[3]? = some c ∧ r.time = t.val ∧
    r.coef = some ((a.val : ℝ) / 10 / (5.517 * 6.371e8), (b.val : ℝ) / 10 / (5.517 * 6.371e8),
      (c.val : ℝ) / 10 / (5.517 * 6.371e8)) ∧ r.err = none

/-- the month of the line: as written, or that of the day before the date -/
def SwensonMonth (ts : List Tok) (g : ℤ) : Prop :=
  (ts.length = 5 ∧ ∃ s d ds, ts[4]? = some (.int s d ds none) ∧ g = s.val * decimal (d :: ds)) ∨
  (ts.length ≠ 5 ∧ ∃ t, ts[0]? = some t ∧ 1583 ≤ t.val ∧ t.val < 4000 ∧ MonthOfDayBefore t.val g)

/-- what `from_swenson` needs of a line -/
def SwensonCols (ts : List Tok) : Prop :=
  4 ≤ ts.length ∧ (ts.length = 5 → ∃ s d ds, ts[4]? = some (Tok.int s d ds none)) ∧
    (ts.length ≠ 5 → ∀ t ∈ ts.head?, 1583 ≤ t.val ∧ t.val < 4000)

/-- the entries made from the lines before `adjust_months` -/
theorem swenson_lines (rs : List (ℚ × ℤ × ℝ × ℝ × ℝ)) (body : List Line) (h : body.mapM swensonLine = some rs)
    (header : List Line) (mark : Line) (hh : ∀ l ∈ header, ¬ ContainsText "Time" l) (hm : ContainsText "Time" mark) :
    fromSwenson true (header ++ mark :: body) =
      some (adjust (rs.map fun p => ⟨p.1, p.2.1, some (p.2.2.1 / rhoRad, p.2.2.2.1 / rhoRad, p.2.2.2.2 / rhoRad), none⟩)) := by
  unfold fromSwenson
  rw [skipHeader_found _ header mark body (fun x hx => hasText_false _ _ (hh x hx)) ((hasText_iff _ _).2 hm)]
  simp only [Option.bind_eq_bind, Option.bind_some, h, fromCmwe, scaleBy, mustBlock, Option.map_some]
  congr 2
  rw [← map_finRange rs]
  simp [div_eq_mul_inv]

/-- **C78** Swenson files: every line after the one with the word `Time` gives one date, with coefficients converted from
millimetres of water equivalent; months are those written or those of the day before the dates, adjusted -/
theorem swenson_spec (header : List Line) (mark : Line) (body : List (Line × List Tok))
    (hh : ∀ l ∈ header, ¬ ContainsText "Time" l) (hm : ContainsText "Time" mark)
    (hrow : ∀ p ∈ body, LRow p.1 p.2) (hcol : ∀ p ∈ body, SwensonCols p.2) :
    ∃ rs, fromSwenson true (header ++ mark :: body.map Prod.fst) = some rs ∧
      List.Forall₂ (fun p r => SwensonEntry p.2 r) body rs ∧
      ∃ gs, List.Forall₂ (fun p g => SwensonMonth p.2 g) body gs ∧ rs.map Entry.month = adjustMonths gs := by
  obtain ⟨rs, hrs, hall⟩ := mapM_forall₂ Prod.fst swensonLine
    (fun (p : Line × List Tok) r => SwensonEntry p.2
        ⟨r.1, r.2.1, some (r.2.2.1 / rhoRad, r.2.2.2.1 / rhoRad, r.2.2.2.2 / rhoRad), none⟩ ∧ SwensonMonth p.2 r.2.1)
    body (by
      intro p hp
      obtain ⟨hl, h5, h4⟩ := hcol p hp
      have hr := hrow p hp
      have g : ∀ k, k < 4 → ∃ x, p.2[k]? = some x := fun k hk => ⟨_, List.getElem?_eq_getElem (by omega)⟩
      obtain ⟨x0, g0⟩ := g 0 (by omega)
      obtain ⟨x1, g1⟩ := g 1 (by omega)
      obtain ⟨x2, g2⟩ := g 2 (by omega)
      obtain ⟨x3, g3⟩ := g 3 (by omega)
      have hmon : ∃ g, swensonMonth p.1 x0.val = some g ∧ SwensonMonth p.2 g := by
        unfold swensonMonth
        rw [rxAll_lrow p.1 p.2 hr, List.length_map]
        by_cases h : p.2.length = 5
        · obtain ⟨s, d, ds, hs⟩ := h5 h
          refine ⟨s.val * decimal (d :: ds), ?_, Or.inl ⟨h, s, d, ds, hs, rfl⟩⟩
          rw [if_pos h, List.getElem?_map, hs]
          exact pyInt_tok s d ds
        · have hb := h4 h x0 (by rw [List.head?_eq_getElem?, g0]; rfl)
          obtain ⟨y, m, gg, hj, hg, -⟩ := julianMonth_before x0.val hb.1 hb.2
          refine ⟨gg, ?_, Or.inr ⟨h, x0, g0, hb.1, hb.2, hg⟩⟩
          rw [if_neg h, hj]; rfl
      obtain ⟨gg, hg1, hg2⟩ := hmon
      refine ⟨(x0.val, gg, 0.1 * (x1.val : ℝ), 0.1 * (x2.val : ℝ), 0.1 * (x3.val : ℝ)), ?_,
        ⟨x0, x1, x2, x3, g0, g1, g2, g3, rfl, ?_, rfl⟩, hg2⟩
      · unfold swensonLine
        rw [rxCol_lrow p.1 p.2 hr, rxCol_lrow p.1 p.2 hr, rxCol_lrow p.1 p.2 hr, rxCol_lrow p.1 p.2 hr, g0, g1, g2, g3]
        simp only [Option.map_some, Option.bind_eq_bind, Option.bind_some, hg1]
      · simp only [rhoRad]
        refine congrArg some (Prod.ext ?_ (Prod.ext ?_ ?_)) <;> · dsimp only; ring)
  have := adjust_rel (fun (p : Line × List Tok) r => SwensonEntry p.2 r) (fun p g => SwensonMonth p.2 g)
    (fun a r g h => by
      obtain ⟨t, a, b, c, h1, h2, h3, h4, h5, h6, h7⟩ := h
      exact ⟨t, a, b, c, h1, h2, h3, h4, h5, h6, h7⟩) body _ (List.forall₂_map_right_iff.2 hall)
  exact ⟨_, swenson_lines rs _ hrs header mark hh hm, this⟩

/-- **C78** without the line with the word `Time` the file is refused -/
theorem swenson_no_header (ls : List Line) (h : ∀ l ∈ ls, ¬ ContainsText "Time" l) : fromSwenson true ls = none := by
  unfold fromSwenson
  rw [(skipHeader_missing _ ls fun x hx => hasText_false _ _ (h x hx)).1]; rfl

/-! ## Files written by calc_degree_one.py -/

/-- one date to be written -/
structure Deg1 where
  time : ℚ
  c10 : ℚ
  c11 : ℚ
  s11 : ℚ
  month : ℤ

/-- text of `n` blanks -/
def blanks (n : ℕ) : List Char := List.replicate n ' '

/-- a line written with `{0:11.4f}{1:14.6e}{2:14.6e}{3:14.6e} {4:03d}` (scripts/calc_degree_one.py:876): correctly rounded
decimal numbers, here separated by blanks (exponents of two digits) -/
def Written (w : Deg1) (l : Line) : Prop :=
  ∃ (n0 n1 n2 n3 : ℕ) (x0 x1 x2 x3 : Lit) (s : Sgn) (d : Fin 10) (ds : List (Fin 10)),
    l = blanks n0 ++ (x0.chars ++ (blanks (n1 + 1) ++ (x1.chars ++ (blanks (n2 + 1) ++ (x2.chars ++
      (blanks (n3 + 1) ++ (x3.chars ++ (blanks 1 ++ intChars s d ds)))))))) ∧
    |x0.val - w.time| ≤ 1 / 2 / 10 ^ 4 ∧ |x1.val - w.c10| ≤ 1 / 2 / 10 ^ 6 * |w.c10| ∧
    |x2.val - w.c11| ≤ 1 / 2 / 10 ^ 6 * |w.c11| ∧ |x3.val - w.s11| ≤ 1 / 2 / 10 ^ 6 * |w.s11| ∧
    s.val * decimal (d :: ds) = w.month

/-- names and comments of the variables in the header (scripts/calc_degree_one.py:1305-1345) -/
def uciVariables : List (String × List Char) :=
  [("mid-epoch_time", "1st column".toList), ("C10", "2nd column".toList), ("C11", "3rd column".toList),
    ("S11", "4th column".toList), ("month", "5th column".toList)]

theorem lrow_blanks (n : ℕ) (cs : List Char) (ts : List Tok) (h : LRow cs ts) : LRow (blanks n ++ cs) ts := by
  induction n with
  | zero => simpa [blanks] using h
  | succ k ih => rw [blanks, List.replicate_succ, List.cons_append]; exact .blank _ (by decide) ih

theorem stop_blanks (n : ℕ) (cs : List Char) : Stop (blanks (n + 1) ++ cs) :=
  Or.inr ⟨' ', blanks n ++ cs, by simp [blanks, List.replicate_succ], by decide⟩

theorem lrow_num (cs : List Char) (ts : List Tok) (t : Tok) (hs : Stop cs) (h : LRow cs ts) : LRow (t.chars ++ cs) (t :: ts) := by
  simpa using LRow.num [] t (by simp) hs h

theorem uciJulian_some (t : ℚ) : ∃ j, uciJulian t = some j := by
  obtain ⟨dpm, e1, -⟩ := calendarDays_spec ⌊t⌋
  exact ⟨_, by unfold uciJulian; simp only [e1, Option.map_some]; rfl⟩

theorem uciColumns_written :
    ((uciVariables.filter fun v => v.1 ≠ "mid-epoch_time" ∧ v.1 ≠ "month").mapM uciColumn) =
      some [("C10", 1), ("C11", 2), ("S11", 3)] := by decide +kernel

/-- **C78** what is read back from a file written by `calc_degree_one.py` is what was written, up to the rounding of the
format; months are exact -/
theorem uci_roundtrip (yaml : List Line → Option (List (String × List Char))) (header : List Line) (mark : Line)
    (body : List (Deg1 × Line)) (hh : ∀ l ∈ header, ¬ ContainsText "# End of YAML header" l)
    (hm : ContainsText "# End of YAML header" mark) (hy : yaml (header ++ [mark]) = some uciVariables)
    (hw : ∀ p ∈ body, Written p.1 p.2) :
    ∃ rs, fromUCI yaml (header ++ mark :: body.map Prod.snd) = some rs ∧
      List.Forall₂ (fun p r => |r.time - p.1.time| ≤ 1 / 2 / 10 ^ 4 ∧ r.month = p.1.month ∧
        ∃ a b c, r.data = [("C10", a), ("C11", b), ("S11", c)] ∧ |a - p.1.c10| ≤ 1 / 2 / 10 ^ 6 * |p.1.c10| ∧
          |b - p.1.c11| ≤ 1 / 2 / 10 ^ 6 * |p.1.c11| ∧ |c - p.1.s11| ≤ 1 / 2 / 10 ^ 6 * |p.1.s11|) body rs := by
  obtain ⟨rs, hrs, hall⟩ := mapM_forall₂ Prod.snd (uciLine [("C10", 1), ("C11", 2), ("S11", 3)])
    (fun (p : Deg1 × Line) r => |r.time - p.1.time| ≤ 1 / 2 / 10 ^ 4 ∧ r.month = p.1.month ∧
        ∃ a b c, r.data = [("C10", a), ("C11", b), ("S11", c)] ∧ |a - p.1.c10| ≤ 1 / 2 / 10 ^ 6 * |p.1.c10| ∧
          |b - p.1.c11| ≤ 1 / 2 / 10 ^ 6 * |p.1.c11| ∧ |c - p.1.s11| ≤ 1 / 2 / 10 ^ 6 * |p.1.s11|) body (by
      intro p hp
      obtain ⟨n0, n1, n2, n3, x0, x1, x2, x3, s, d, ds, hl, b0, b1, b2, b3, hmon⟩ := hw p hp
      have hrow : LRow p.2 [.dec x0, .dec x1, .dec x2, .dec x3, .int s d ds none] := by
        rw [hl]
        refine lrow_blanks _ _ _ (lrow_num _ _ (.dec x0) (stop_blanks _ _) (lrow_blanks _ _ _
          (lrow_num _ _ (.dec x1) (stop_blanks _ _) (lrow_blanks _ _ _ (lrow_num _ _ (.dec x2) (stop_blanks _ _)
          (lrow_blanks _ _ _ (lrow_num _ _ (.dec x3) (stop_blanks 0 _) (lrow_blanks _ _ _ ?_))))))))
        have := lrow_num [] [] (.int s d ds none) (Or.inl rfl) .nil
        simpa [Tok.chars, exChars] using this
      have hrx := rxAll_lrow _ _ hrow
      obtain ⟨j, hj⟩ := uciJulian_some x0.val
      refine ⟨⟨x0.val, p.1.month, [("C10", x1.val), ("C11", x2.val), ("S11", x3.val)]⟩, ?_, b0, rfl, _, _, _, rfl, b1, b2, b3⟩
      have hp0 : rxCol p.2 0 = some x0.val := by rw [rxCol_lrow _ _ hrow]; rfl
      unfold uciLine
      rw [hp0, hrx]
      have hlast : pyInt (Tok.int s d ds none).chars = some p.1.month := by rw [pyInt_tok, hmon]
      have c0 : ∀ (x : Lit), pyFloat (Tok.dec x).chars = some x.val := fun x => pyFloat_tok (.dec x)
      simp only [List.map_cons, List.map_nil, List.getLast?_cons_cons, List.getLast?_singleton, Option.bind_eq_bind,
        Option.bind_some, hlast, hj, List.mapM_cons, List.mapM_nil]
      simp [pyIdx, c0, fields])
  refine ⟨rs, ?_, hall⟩
  unfold fromUCI
  rw [skipHeader_found _ header mark _ (fun x hx => hasText_false _ _ (hh x hx)) ((hasText_iff _ _).2 hm)]
  have htake : (header ++ mark :: body.map Prod.snd).take
      ((header ++ mark :: body.map Prod.snd).length - (body.map Prod.snd).length) = header ++ [mark] := by
    have : (header ++ mark :: body.map Prod.snd).length - (body.map Prod.snd).length = (header ++ [mark]).length := by
      simp; omega
    rw [this, show header ++ mark :: body.map Prod.snd = (header ++ [mark]) ++ body.map Prod.snd by simp, List.take_left]
  simp only [Option.bind_eq_bind, Option.bind_some]
  rw [htake, hy]
  simp only [Option.bind_some]
  rw [if_pos (by decide), uciColumns_written, Option.bind_some, hrs]

/-- **C78** without the end of the header the file is refused -/
theorem uci_no_header (yaml : List Line → Option (List (String × List Char))) (ls : List Line)
    (h : ∀ l ∈ ls, ¬ ContainsText "# End of YAML header" l) : fromUCI yaml ls = none := by
  unfold fromUCI
  rw [(skipHeader_missing _ ls fun x hx => hasText_false _ _ (h x hx)).1]; rfl

end Verif.GeoRead
