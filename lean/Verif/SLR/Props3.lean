import Verif.SLR.Props2
import Verif.Weekly.Props

/-!
# Property C76, continued: degrees 3 to 5, azimuthal dependence, harmonics of degree 5
-/
namespace Verif.SLR
open Verif.Time Verif.Time.Spec

section
variable (f : File) (header : List Line) (product : Line) (body : List (Line × List Lit))

theorem read_mjd (n dcol ecol : ℕ) (hrow : ∀ p ∈ body, Row p.1 p.2)
    (hcol : ∀ p ∈ body, n < p.2.length → MjdCols dcol ecol p.2) :
    ∃ rs, readLines (more n) (mjdLine dcol ecol) (body.map Prod.fst) = some rs ∧
      List.Forall₂ (fun p r => MjdEntry dcol ecol p.2 r ∧ r.month = nearestMonth r.time)
        (body.filter fun p => decide (n < p.2.length)) rs := by
  obtain ⟨rs, hrs, hall⟩ := mapM_forall₂ Prod.fst (mjdLine dcol ecol)
    (fun (p : Line × List Lit) r => MjdEntry dcol ecol p.2 r ∧ r.month = nearestMonth r.time)
    (body.filter fun p => decide (n < p.2.length)) (by
      intro p hp
      rw [List.mem_filter] at hp
      exact mjdLine_entry dcol ecol p.1 p.2 (hrow p hp.1) (hcol p hp.1 (by simpa using hp.2)))
  refine ⟨rs, ?_, hall⟩
  unfold readLines
  rw [filter_map_fst (more n) (fun xs => decide (n < xs.length)) body (by
    intro p hp; rw [more_row n p.1 p.2 (hrow p hp)]), hrs]

theorem forall₂_ne_nil {A B : Type} (R : A → B → Prop) (as : List A) (bs : List B) (h : List.Forall₂ R as bs) :
    as ≠ [] ↔ bs ≠ [] := by cases h <;> simp

theorem read_gsfc (n dcol ecol : ℕ) (hrow : ∀ p ∈ body, Row p.1 p.2)
    (hcol : ∀ p ∈ body, n < p.2.length → MjdCols dcol ecol p.2) (hsome : ∃ p ∈ body, n < p.2.length) :
    ∃ rs, (((readLines (more n) (mjdLine dcol ecol) (body.map Prod.fst)).bind nonEmpty).map finish) = some rs ∧
      List.Forall₂ (fun p r => MjdEntry dcol ecol p.2 r) (body.filter fun p => decide (n < p.2.length)) rs ∧
      MonthsOk rs := by
  obtain ⟨rs, h1, h2⟩ := read_mjd body n dcol ecol hrow hcol
  have hne : rs ≠ [] := by
    rw [← forall₂_ne_nil _ _ _ h2]
    obtain ⟨p, hp, hl⟩ := hsome
    exact List.ne_nil_of_mem (List.mem_filter.2 ⟨hp, by simpa using hl⟩)
  refine ⟨finish rs, ?_, finish_forall₂ _ (fun a r g h => h) _ rs h2⟩
  rw [h1, Option.bind_some]
  unfold nonEmpty
  rw [if_neg hne]; rfl

/-- **C76** C30 of TN-14: one entry for every line with more than seven numbers, of the sixth and eighth columns -/
theorem c30_tn (mean : ℚ) (hk : kindC30 f.name = .tn) (hf : f.lines = header ++ product :: body.map Prod.fst)
    (hh : ∀ l ∈ header, titleProduct l = false) (hp : titleProduct product = true)
    (hrow : ∀ p ∈ body, Row p.1 p.2) (hcol : ∀ p ∈ body, 7 < p.2.length → MjdCols 5 7 p.2)
    (hsome : ∃ p ∈ body, 7 < p.2.length) :
    ∃ rs, c30 f mean true = some rs ∧
      List.Forall₂ (fun p r => MjdEntry 5 7 p.2 r) (body.filter fun p => decide (7 < p.2.length)) rs ∧
      MonthsOk rs := by
  obtain ⟨rs, h1, h2⟩ := read_gsfc body 7 5 7 hrow hcol hsome
  refine ⟨rs, ?_, h2⟩
  unfold c30
  rw [hk]
  simp only
  rw [hf, skipHeader_found titleProduct header product _ hh hp, Option.bind_some, h1]

/-- **C76** a TN-14 file without any C30 is refused -/
theorem c30_tn_none (mean : ℚ) (hk : kindC30 f.name = .tn) (hf : f.lines = header ++ product :: body.map Prod.fst)
    (hh : ∀ l ∈ header, titleProduct l = false) (hp : titleProduct product = true)
    (hrow : ∀ p ∈ body, Row p.1 p.2) (hno : ∀ p ∈ body, p.2.length ≤ 7) : c30 f mean true = none := by
  obtain ⟨rs, h1, h2⟩ := read_mjd body 7 5 7 hrow (fun p hp h => absurd h (by have := hno p hp; omega))
  have : (body.filter fun p => decide (7 < p.2.length)) = [] := by
    rw [List.filter_eq_nil_iff]; intro p hp; have := hno p hp; simp; omega
  rw [this] at h2
  cases h2
  unfold c30
  rw [hk]
  simp only
  rw [hf, skipHeader_found titleProduct header product _ hh hp, Option.bind_some, h1]
  rfl

/-- **C76** C50 of the GSFC file when all lines have all columns: eleventh and thirteenth columns -/
theorem c50_gsfc (argsort : List ℚ → List ℕ) (mean : ℚ) (DATE : List ℚ) (i : Bool) (hk : kindC50 f.name = .gsfc)
    (hf : f.lines = header ++ product :: body.map Prod.fst)
    (hh : ∀ l ∈ header, titleProduct l = false) (hp : titleProduct product = true)
    (hrow : ∀ p ∈ body, Row p.1 p.2) (hcol : ∀ p ∈ body, 7 < p.2.length → MjdCols 10 12 p.2)
    (hsome : ∃ p ∈ body, 7 < p.2.length) :
    ∃ rs, c50 argsort f mean DATE i true = some rs ∧
      List.Forall₂ (fun p r => MjdEntry 10 12 p.2 r) (body.filter fun p => decide (7 < p.2.length)) rs ∧
      MonthsOk rs := by
  obtain ⟨rs, h1, h2⟩ := read_gsfc body 7 10 12 hrow hcol hsome
  refine ⟨rs, ?_, h2⟩
  unfold c50
  rw [hk]
  simp only
  rw [hf, skipHeader_found titleProduct header product _ hh hp, Option.bind_some, h1]

/-- **C76** (disagreement) a line with C30 but without C50, which the documentation of TN-14 allows, is not skipped:
the reader fails -/
theorem c50_gsfc_short (argsort : List ℚ → List ℕ) (mean : ℚ) (DATE : List ℚ) (i : Bool) (hk : kindC50 f.name = .gsfc)
    (hf : f.lines = header ++ product :: body.map Prod.fst)
    (hh : ∀ l ∈ header, titleProduct l = false) (hp : titleProduct product = true)
    (p : Line × List Lit) (hpb : p ∈ body) (hrow : Row p.1 p.2) (h1 : 7 < p.2.length) (h2 : p.2.length ≤ 12) :
    c50 argsort f mean DATE i true = none := by
  have hnone : readLines (more 7) (mjdLine 10 12) (body.map Prod.fst) = none := by
    unfold readLines
    refine mapM_none _ _ p.1 ?_ ?_
    · rw [List.mem_filter, more_row 7 p.1 p.2 hrow]
      exact ⟨List.mem_map_of_mem hpb, by simpa using h1⟩
    · unfold mjdLine
      rw [col_row p.1 p.2 hrow 12]
      have : p.2[12]? = none := by simpa using h2
      rw [this]
      cases col p.1 0 with
      | none => rfl
      | some m =>
        simp only [Option.bind_eq_bind, Option.bind_some]
        cases mjdTime m with
        | none => rfl
        | some t =>
          simp only [Option.bind_some]
          cases col p.1 10 <;> rfl
  unfold c50
  rw [hk]
  simp only
  rw [hf, skipHeader_found titleProduct header product _ hh hp, Option.bind_some, hnone]
  rfl

theorem read_year (dcol ecol : ℕ) (hrow : ∀ p ∈ body, Row p.1 p.2)
    (hcol : ∀ p ∈ body, p.2 ≠ [] → 1 < p.2.length ∧ dcol < p.2.length ∧ ecol < p.2.length) :
    ∃ rs, (readLines (more 0) (yearLine dcol ecol) (body.map Prod.fst)).map finish = some rs ∧
      List.Forall₂ (fun p r => YearEntry dcol ecol p.2 r) (body.filter fun p => !p.2.isEmpty) rs ∧ MonthsOk rs := by
  obtain ⟨rs, hrs, hall⟩ := mapM_forall₂ Prod.fst (yearLine dcol ecol)
    (fun (p : Line × List Lit) r => YearEntry dcol ecol p.2 r ∧ r.month = nearestMonth r.time)
    (body.filter fun p => !p.2.isEmpty) (by
      intro p hp
      rw [List.mem_filter] at hp
      obtain ⟨a, b, c⟩ := hcol p hp.1 (by simpa using hp.2)
      exact yearLine_entry dcol ecol p.1 p.2 (hrow p hp.1) b c a)
  refine ⟨finish rs, ?_, finish_forall₂ _ (fun a r g h => h) _ rs hall⟩
  unfold readLines
  rw [filter_map_fst (more 0) (fun xs => !xs.isEmpty) body (by
    intro p hp; rw [more_row 0 p.1 p.2 (hrow p hp)]; cases p.2 <;> simp), hrs]
  rfl

/-- **C76** C30 of the GravIS file: sixth and eighth columns -/
theorem c30_gravis (mean : ℚ) (hk : kindC30 f.name = .gravis) (hf : f.lines = header ++ product :: body.map Prod.fst)
    (hh : ∀ l ∈ header, upperProduct l = false) (hp : upperProduct product = true)
    (hrow : ∀ p ∈ body, Row p.1 p.2) (hcol : ∀ p ∈ body, p.2 ≠ [] → 7 < p.2.length) :
    ∃ rs, c30 f mean true = some rs ∧
      List.Forall₂ (fun p r => YearEntry 5 7 p.2 r) (body.filter fun p => !p.2.isEmpty) rs ∧ MonthsOk rs := by
  obtain ⟨rs, h1, h2⟩ := read_year body 5 7 hrow (fun p hp h => by have := hcol p hp h; omega)
  refine ⟨rs, ?_, h2⟩
  unfold c30
  rw [hk]
  simp only
  rw [hf, skipHeader_found upperProduct header product _ hh hp, Option.bind_some, h1]

/-- entry of a LARES table: the anomaly, in units of 1e-10, is added to the mean; no error is known -/
def LaresEntry (mean : ℚ) (row : List ℚ) (r : Rec) : Prop :=
  r.time = row.getD 0 0 ∧ r.data = mean + row.getD 1 0 / 10 ^ 10 ∧ r.error = 0

theorem lares_spec (mean : ℚ) (rows : List (List ℚ)) :
    ((lares mean rows).map finish = none ↔ rows.length < 2) ∧
    ∀ rs, (lares mean rows).map finish = some rs →
      List.Forall₂ (LaresEntry mean) rows rs ∧
      rs.map Rec.month = adjustMonths (rs.map fun r => calendarToGrace r.time) := by
  unfold lares
  split_ifs with h
  · simp [h]
  · refine ⟨by simp [h], ?_⟩
    intro rs hrs
    simp only [Option.map_some, Option.some.injEq] at hrs
    subst hrs
    refine finish_gen (fun r => calendarToGrace r.time) (fun _ _ => rfl) _ (fun a r g h => h) _ _ ?_
    clear h
    induction rows with
    | nil => exact .nil
    | cons row rows ih => exact .cons ⟨⟨rfl, by norm_num; ring, rfl⟩, rfl⟩ ih

/-- **C76** LARES tables are read by the three readers in the same way, with at least two rows; with fewer rows
they fail -/
theorem lares_tables (argsort : List ℚ → List ℕ) (mean : ℚ) (DATE : List ℚ) (i H : Bool) (rows : List (List ℚ))
    (ht : f.table = some rows) (o : Option (List Rec))
    (ho : (kindC30 f.name = .lares ∧ o = c30 f mean H) ∨ (kindC40 f.name = .lares ∧ o = c40 argsort f mean DATE i) ∨
      (kindC50 f.name = .lares ∧ o = c50 argsort f mean DATE i H)) :
    (o = none ↔ rows.length < 2) ∧
    ∀ rs, o = some rs → List.Forall₂ (LaresEntry mean) rows rs ∧
      rs.map Rec.month = adjustMonths (rs.map fun r => calendarToGrace r.time) := by
  have : o = (lares mean rows).map finish := by
    rcases ho with ⟨hk, h⟩ | ⟨hk, h⟩ | ⟨hk, h⟩ <;> rw [h]
    · unfold c30; rw [hk]; simp only [ht, Option.bind_some]
    · unfold c40; rw [hk]; simp only [ht, Option.bind_some]
    · unfold c50; rw [hk]; simp only [ht, Option.bind_some]
  rw [this]
  exact lares_spec mean rows

example : (lares 3 [[2004, 5], [2005, 7]]).isSome = true := by simp [lares]

/-! ## Azimuthal dependence -/

theorem finish2_gen {A : Type} (mo : Rec2 → ℤ) (hmo : ∀ r g, mo { r with month := g } = mo r) (R : A → Rec2 → Prop)
    (hR : ∀ a r g, R a r → R a { r with month := g })
    (as : List A) (rs : List Rec2) (h : List.Forall₂ (fun a r => R a r ∧ r.month = mo r) as rs) :
    List.Forall₂ R as (finish2 rs) ∧ (finish2 rs).map Rec2.month = adjustMonths ((finish2 rs).map mo) := by
  have hlen : (adjustMonths (rs.map Rec2.month)).length = rs.length := by rw [adjustMonths_length]; simp
  have key : ∀ (as : List A) (rs : List Rec2) (gs : List ℤ), gs.length = rs.length →
      List.Forall₂ (fun a r => R a r ∧ r.month = mo r) as rs →
      List.Forall₂ R as ((rs.zip gs).map fun p => { p.1 with month := p.2 }) ∧
      (((rs.zip gs).map fun p => ({ p.1 with month := p.2 } : Rec2)).map Rec2.month = gs) ∧
      (((rs.zip gs).map fun p => ({ p.1 with month := p.2 } : Rec2)).map mo = rs.map Rec2.month) := by
    intro as rs gs hl hf
    induction hf generalizing gs with
    | nil => have : gs = [] := by simpa using hl
             subst this; exact ⟨.nil, rfl, rfl⟩
    | @cons a r as rs h1 _ ih =>
      obtain ⟨g, gs, rfl⟩ : ∃ g gs', gs = g :: gs' := by
        cases gs with
        | nil => simp at hl
        | cons g gs => exact ⟨g, gs, rfl⟩
      obtain ⟨i1, i2, i3⟩ := ih gs (by simpa using hl)
      refine ⟨.cons (hR _ _ _ h1.1) i1, ?_, ?_⟩
      · simpa using i2
      · simpa [h1.2, hmo] using i3
  obtain ⟨k1, k2, k3⟩ := key as rs _ hlen h
  refine ⟨k1, ?_⟩
  unfold finish2
  rw [k2, k3]

/-- **C76** CSR table of C21,S21 or C22,S22: the de-aliasing means (columns 6 and 7, in units of 1e-10) are removed;
errors in units of 1e-10 -/
theorem cs2_csr (argsort : List ℚ → List ℕ) (ORDER : ℤ) (DATE : List ℚ) (i H : Bool) (rows : List (List ℚ))
    (hk : kindCS2 f.name = .csr) (ht : f.table = some rows) :
    ∃ rs, cs2 argsort f ORDER DATE i H = some rs ∧
      List.Forall₂ (fun row (r : Rec2) => r.time = row.getD 0 0 ∧
        r.C = row.getD 1 0 - row.getD 5 0 / 10 ^ 10 ∧ r.S = row.getD 2 0 - row.getD 6 0 / 10 ^ 10 ∧
        r.eC = row.getD 3 0 / 10 ^ 10 ∧ r.eS = row.getD 4 0 / 10 ^ 10) rows rs ∧
      rs.map Rec2.month = adjustMonths (rs.map fun r => calendarToGrace r.time) := by
  refine ⟨finish2 (rows.map csr2), ?_, ?_⟩
  · unfold cs2 cs2Rows; rw [hk]; simp only [ht, Option.map_some]
  · refine finish2_gen (fun r => calendarToGrace r.time) (fun _ _ => rfl) _ (fun a r g h => h) _ _ ?_
    clear ht
    induction rows with
    | nil => exact .nil
    | cons row rows ih =>
      refine .cons ⟨⟨rfl, ?_, ?_, ?_, ?_⟩, rfl⟩ ih
      all_goals simp only [csr2]; norm_num; ring

/-- **C76** GravIS file: columns 9, 12 (coefficients) and 11, 14 (errors) -/
theorem cs2_gravis (argsort : List ℚ → List ℕ) (ORDER : ℤ) (DATE : List ℚ) (i : Bool)
    (hk : kindCS2 f.name = .gravis) (hf : f.lines = header ++ product :: body.map Prod.fst)
    (hh : ∀ l ∈ header, upperProduct l = false) (hp : upperProduct product = true)
    (hrow : ∀ p ∈ body, Row p.1 p.2) (hcol : ∀ p ∈ body, p.2 ≠ [] → 13 < p.2.length) :
    ∃ rs, cs2 argsort f ORDER DATE i true = some rs ∧
      List.Forall₂ (fun p (r : Rec2) => ∃ t c ec s es, p.2[1]? = some t ∧ p.2[8]? = some c ∧ p.2[10]? = some ec ∧
        p.2[11]? = some s ∧ p.2[13]? = some es ∧ r.time = t.val ∧ r.C = c.val ∧ r.S = s.val ∧
        r.eC = ec.val / 10 ^ 10 ∧ r.eS = es.val / 10 ^ 10) (body.filter fun p => !p.2.isEmpty) rs ∧
      rs.map Rec2.month = adjustMonths (rs.map fun r => nearestMonth r.time) := by
  obtain ⟨rs, hrs, hall⟩ := mapM_forall₂ Prod.fst gravis2
    (fun (p : Line × List Lit) (r : Rec2) => (∃ t c ec s es, p.2[1]? = some t ∧ p.2[8]? = some c ∧
        p.2[10]? = some ec ∧ p.2[11]? = some s ∧ p.2[13]? = some es ∧ r.time = t.val ∧ r.C = c.val ∧ r.S = s.val ∧
        r.eC = ec.val / 10 ^ 10 ∧ r.eS = es.val / 10 ^ 10) ∧ r.month = nearestMonth r.time)
    (body.filter fun p => !p.2.isEmpty) (by
      intro p hp
      rw [List.mem_filter] at hp
      have h13 := hcol p hp.1 (by simpa using hp.2)
      have hr := hrow p hp.1
      refine ⟨⟨p.2[1].val, startMonth p.2[1].val, p.2[8].val, p.2[11].val, p.2[10].val * 1e-10,
        p.2[13].val * 1e-10⟩, ?_, ⟨p.2[1], p.2[8], p.2[10], p.2[11], p.2[13], ?_⟩, rfl⟩
      · unfold gravis2
        simp only [col_row p.1 p.2 hr]
        have h1 : 1 < p.2.length := by omega
        have h8 : 8 < p.2.length := by omega
        have h10 : 10 < p.2.length := by omega
        have h11 : 11 < p.2.length := by omega
        simp [h1, h8, h10, h11, h13]
      · have h1 : 1 < p.2.length := by omega
        have h8 : 8 < p.2.length := by omega
        have h10 : 10 < p.2.length := by omega
        have h11 : 11 < p.2.length := by omega
        refine ⟨by simp [h1], by simp [h8], by simp [h10], by simp [h11], by simp [h13], rfl, rfl, rfl, ?_, ?_⟩ <;>
          norm_num <;> ring)
  refine ⟨finish2 rs, ?_, finish2_gen (fun r => nearestMonth r.time) (fun _ _ => rfl) _ (fun a r g h => h) _ rs hall⟩
  unfold cs2 cs2Rows
  rw [hk]
  simp only
  rw [hf, skipHeader_found upperProduct header product _ hh hp, Option.bind_some]
  unfold readLines
  rw [filter_map_fst (more 0) (fun xs => !xs.isEmpty) body (by
    intro p hp; rw [more_row 0 p.1 p.2 (hrow p hp)]; cases p.2 <;> simp), hrs]
  rfl

/-- **C76** a file name `CS2` does not know is an error -/
theorem cs2_unknown (argsort : List ℚ → List ℕ) (ORDER : ℤ) (DATE : List ℚ) (i H : Bool)
    (hk : kindCS2 f.name = .unknown) : cs2 argsort f ORDER DATE i H = none := by
  unfold cs2 cs2Rows; rw [hk]; rfl

theorem average_all_series (argsort : List ℚ → List ℕ) (ha : Weekly.IsArgsort argsort) (t : List ℚ)
    (ht : t ≠ []) (N : ℕ) (hN : 0 < N) (D : ℚ) :
    ∃ S, Weekly.Nearest t D N S ∧ ∀ d : List ℚ, d.length = t.length →
      Weekly.average argsort t d N D = some (Weekly.meanOver S (Weekly.dayTime t), Weekly.meanOver S (Weekly.week d)) := by
  have hn := Weekly.take_nearest argsort ha t D N
  have hne : (argsort (Weekly.sqDist t D)).take N ≠ [] := by
    intro h
    have h3 := hn.2.2.1
    rw [h] at h3
    have : 0 < t.length := List.length_pos_iff.2 ht
    simp at h3; omega
  refine ⟨(argsort (Weekly.sqDist t D)).take N, hn, ?_⟩
  intro d hl
  unfold Weekly.average
  dsimp only
  have e1 : ((argsort (Weekly.sqDist t D)).take N).map (fun k => (Weekly.dayTimes t).getD k 0) =
      ((argsort (Weekly.sqDist t D)).take N).map (Weekly.dayTime t) :=
    List.map_congr_left fun k hk => Weekly.dayTimes_getD t k (hn.2.1 k hk)
  have e2 : ((argsort (Weekly.sqDist t D)).take N).map (fun k => (Weekly.dayData d).getD k 0) =
      ((argsort (Weekly.sqDist t D)).take N).map (Weekly.week d) :=
    List.map_congr_left fun k hk => Weekly.dayData_getD d k (by rw [hl]; exact hn.2.1 k hk)
  rw [e1, e2, Weekly.mean_map _ _ hne, Weekly.mean_map _ _ hne]

/-- time and the two coefficients are the means of the 28 daily values nearest to the date -/
def Averaged (t c s : List ℚ) (D : ℚ) (r : Rec2) : Prop :=
  ∃ S, Weekly.Nearest t D 28 S ∧ r.time = Weekly.meanOver S (Weekly.dayTime t) ∧
    r.C = Weekly.meanOver S (Weekly.week c) ∧ r.S = Weekly.meanOver S (Weekly.week s) ∧ r.eC = 0 ∧ r.eS = 0

theorem average2_spec (argsort : List ℚ → List ℕ) (ha : Weekly.IsArgsort argsort) (t c s DATE : List ℚ)
    (ht : t ≠ []) (hc : c.length = t.length) (hs : s.length = t.length) :
    ∃ rs, (average2 argsort t c s DATE false).map finish2 = some rs ∧
      List.Forall₂ (Averaged t c s) DATE rs ∧
      rs.map Rec2.month = adjustMonths (rs.map fun r => calendarToGrace r.time) := by
  obtain ⟨rs, h1, h2⟩ := mapM_forall₂ id (fun D => do
      let a ← Weekly.average argsort t c 28 D
      let b ← Weekly.average argsort t s 28 D
      let x := Weekly.store false a.1
      some (⟨x, calendarToGrace x, a.2, b.2, 0, 0⟩ : Rec2))
    (fun D r => Averaged t c s D r ∧ r.month = calendarToGrace r.time) DATE (by
      intro D _
      obtain ⟨S, hS, hav⟩ := average_all_series argsort ha t ht 28 (by norm_num) D
      refine ⟨⟨Weekly.meanOver S (Weekly.dayTime t), calendarToGrace (Weekly.meanOver S (Weekly.dayTime t)),
        Weekly.meanOver S (Weekly.week c), Weekly.meanOver S (Weekly.week s), 0, 0⟩, ?_,
        ⟨S, hS, rfl, rfl, rfl, rfl, rfl⟩, rfl⟩
      simp only [id, hav c hc, hav s hs]
      rfl)
  rw [List.map_id] at h1
  refine ⟨finish2 rs, ?_, finish2_gen (fun r => calendarToGrace r.time) (fun _ _ => rfl) _ (fun a r g h => h) _ rs h2⟩
  unfold average2
  rw [h1]
  rfl

/-- **C76** 7-day tables: for every date asked for, time and coefficients are the means of the 28 daily values
nearest to it -/
theorem cs2_weekly_table (argsort : List ℚ → List ℕ) (ha : Weekly.IsArgsort argsort) (ORDER : ℤ) (DATE : List ℚ)
    (H : Bool) (rows : List (List ℚ)) (hk : kindCS2 f.name = .gsfc7) (ht : f.table = some rows) (hne : rows ≠ []) :
    ∃ rs, cs2 argsort f ORDER DATE false H = some rs ∧
      List.Forall₂ (Averaged (rows.map fun x => x.getD 0 0) (rows.map fun x => x.getD 1 0)
        (rows.map fun x => x.getD 2 0)) DATE rs ∧
      rs.map Rec2.month = adjustMonths (rs.map fun r => calendarToGrace r.time) := by
  obtain ⟨rs, h1, h2⟩ := average2_spec argsort ha (rows.map fun x => x.getD 0 0) (rows.map fun x => x.getD 1 0)
    (rows.map fun x => x.getD 2 0) DATE (by simpa using hne) (by simp) (by simp)
  refine ⟨rs, ?_, h2⟩
  unfold cs2 cs2Rows
  rw [hk]
  simp only [ht]
  exact h1

/-- **C76** 7-day harmonics: the coefficients of degree 2 and the order asked for, in the same way -/
theorem cs2_weekly_harmonics (argsort : List ℚ → List ℕ) (ha : Weekly.IsArgsort argsort) (m : ℕ) (hm : m ≤ 6)
    (DATE : List ℚ) (H : Bool) (ms : List Month) (hk : kindCS2 f.name = .weekly) (hr : readHarmonics f = some ms)
    (hne : ms ≠ []) :
    ∃ rs, cs2 argsort f m DATE false H = some rs ∧
      List.Forall₂ (Averaged (ms.map Month.time) (ms.map fun x => x.c 2 m) (ms.map fun x => x.s 2 m)) DATE rs ∧
      rs.map Rec2.month = adjustMonths (rs.map fun r => calendarToGrace r.time) := by
  obtain ⟨rs, h1, h2⟩ := average2_spec argsort ha (ms.map Month.time) (ms.map fun x => x.c 2 m)
    (ms.map fun x => x.s 2 m) DATE (by simpa using hne) (by simp) (by simp)
  refine ⟨rs, ?_, h2⟩
  have hi : idx7 (m : ℤ) = some m := by unfold idx7; rw [if_pos (by omega)]; rfl
  unfold cs2 cs2Rows
  rw [hk]
  simp only [hr, hi]
  exact h1

theorem finish_keep {A : Type} (R : A → Rec → Prop) (hR : ∀ a r g, R a r → R a { r with month := g })
    (as : List A) (rs : List Rec) (h : List.Forall₂ R as rs) :
    List.Forall₂ R as (finish rs) ∧ (finish rs).map Rec.month = adjustMonths (rs.map Rec.month) ∧
      (finish rs).map Rec.time = rs.map Rec.time := by
  have hlen : (adjustMonths (rs.map Rec.month)).length = rs.length := by rw [adjustMonths_length]; simp
  unfold finish
  generalize adjustMonths (rs.map Rec.month) = gs at hlen
  induction h generalizing gs with
  | nil => have : gs = [] := by simpa using hlen
           subst this; exact ⟨.nil, rfl, rfl⟩
  | @cons a r as rs h1 _ ih =>
    obtain ⟨g, gs, rfl⟩ : ∃ g gs', gs = g :: gs' := by
      cases gs with
      | nil => simp at hlen
      | cons g gs => exact ⟨g, gs, rfl⟩
    obtain ⟨i1, i2, i3⟩ := ih gs (by simpa using hlen)
    exact ⟨.cons (hR _ _ _ h1) i1, by simpa using i2, by simpa using i3⟩

theorem weeklyZonal_eq (argsort : List ℚ → List ℕ) (DATE : List ℚ) (l : ℕ) (ms : List Month)
    (hr : readHarmonics f = some ms) (ps : List (ℚ × ℚ))
    (h : DATE.mapM (fun D => Weekly.average argsort (ms.map Month.time) (ms.map fun m => m.c l 0) 28 D) = some ps) :
    weeklyZonal argsort f l DATE false = some (finish (ps.map fun p => ⟨p.1, calendarToGrace p.1, p.2, 0⟩)) := by
  unfold weeklyZonal Weekly.convertWeekly
  rw [hr]
  simp only [Option.bind_eq_bind, Option.bind_some, h, Option.map_some]
  congr 1
  unfold finish Weekly.store
  simp only [Bool.false_eq_true, if_false, List.map_map]
  have hl : (adjustMonths (ps.map ((fun x => calendarToGrace x) ∘ fun p => p.1))).length = ps.length := by
    rw [adjustMonths_length]; simp
  have he : (Rec.month ∘ fun p : ℚ × ℚ => (⟨p.1, calendarToGrace p.1, p.2, 0⟩ : Rec)) =
      ((fun x => calendarToGrace x) ∘ fun p => p.1) := rfl
  rw [he]
  generalize adjustMonths (ps.map ((fun x => calendarToGrace x) ∘ fun p => p.1)) = gs at hl
  clear h
  induction ps generalizing gs with
  | nil => simp
  | cons p ps ih =>
    cases gs with
    | nil => simp at hl
    | cons g gs => simpa using ih gs (by simpa using hl)

/-- **C76** C40 and C50 of 7-day harmonics -/
theorem weekly_zonal (argsort : List ℚ → List ℕ) (ha : Weekly.IsArgsort argsort) (mean : ℚ) (DATE : List ℚ) (H : Bool)
    (ms : List Month) (hr : readHarmonics f = some ms) (hne : ms ≠ []) (l : ℕ) (o : Option (List Rec))
    (ho : (l = 4 ∧ kindC40 f.name = .weekly ∧ o = c40 argsort f mean DATE false) ∨
      (l = 5 ∧ kindC50 f.name = .weekly ∧ o = c50 argsort f mean DATE false H)) :
    ∃ rs, o = some rs ∧
      List.Forall₂ (fun D (r : Rec) => ∃ S, Weekly.Nearest (ms.map Month.time) D 28 S ∧
        r.time = Weekly.meanOver S (Weekly.dayTime (ms.map Month.time)) ∧
        r.data = Weekly.meanOver S (Weekly.week (ms.map fun x => x.c l 0)) ∧ r.error = 0) DATE rs ∧
      rs.map Rec.month = adjustMonths (adjustMonths (rs.map fun r => calendarToGrace r.time)) := by
  have key : ∃ rs, (weeklyZonal argsort f l DATE false).map finish = some rs ∧
      List.Forall₂ (fun D (r : Rec) => ∃ S, Weekly.Nearest (ms.map Month.time) D 28 S ∧
        r.time = Weekly.meanOver S (Weekly.dayTime (ms.map Month.time)) ∧
        r.data = Weekly.meanOver S (Weekly.week (ms.map fun x => x.c l 0)) ∧ r.error = 0) DATE rs ∧
      rs.map Rec.month = adjustMonths (adjustMonths (rs.map fun r => calendarToGrace r.time)) := by
    obtain ⟨ps, h1, h2⟩ := mapM_forall₂ id
      (fun D => Weekly.average argsort (ms.map Month.time) (ms.map fun m => m.c l 0) 28 D)
      (fun D p => ∃ S, Weekly.Nearest (ms.map Month.time) D 28 S ∧
        p.1 = Weekly.meanOver S (Weekly.dayTime (ms.map Month.time)) ∧
        p.2 = Weekly.meanOver S (Weekly.week (ms.map fun x => x.c l 0))) DATE (by
        intro D _
        obtain ⟨S, hS, hav⟩ := average_all_series argsort ha (ms.map Month.time) (by simpa using hne) 28 (by norm_num) D
        exact ⟨_, hav (ms.map fun m => m.c l 0) (by simp), S, hS, rfl, rfl⟩)
    rw [List.map_id] at h1
    have h3 : List.Forall₂ (fun D (r : Rec) => ∃ S, Weekly.Nearest (ms.map Month.time) D 28 S ∧
        r.time = Weekly.meanOver S (Weekly.dayTime (ms.map Month.time)) ∧
        r.data = Weekly.meanOver S (Weekly.week (ms.map fun x => x.c l 0)) ∧ r.error = 0) DATE
        (ps.map fun p => (⟨p.1, calendarToGrace p.1, p.2, 0⟩ : Rec)) := by
      rw [List.forall₂_map_right_iff]
      exact h2.imp fun D p ⟨S, a, b, c⟩ => ⟨S, a, b, c, rfl⟩
    rw [weeklyZonal_eq f argsort DATE l ms hr ps h1, Option.map_some]
    obtain ⟨k1, k2, k3⟩ := finish_keep _ (fun a r g h => h) _ _ h3
    obtain ⟨j1, j2, j3⟩ := finish_keep _ (fun a r g h => h) _ _ k1
    refine ⟨_, rfl, j1, ?_⟩
    rw [j2, k2]
    congr 2
    have : ∀ rs : List Rec, (rs.map fun r => calendarToGrace r.time) =
        (rs.map Rec.time).map fun t => calendarToGrace t := by intro rs; rw [List.map_map]; rfl
    rw [this, j3, k3, List.map_map, List.map_map, List.map_map]
    rfl
  rcases ho with ⟨rfl, hk, h⟩ | ⟨rfl, hk, h⟩ <;> rw [h]
  · unfold c40; rw [hk]; exact key
  · unfold c50; rw [hk]; exact key

end
end Verif.SLR
