import Verif.SLR.Model
import Verif.Time.Julian
import Verif.Time.Decimal
import Verif.Time.Adjust
import Mathlib.Tactic.IntervalCases
import Mathlib.Tactic.Linarith

/-!
# Property C76: the satellite laser ranging readers
-/
namespace Verif.SLR
open Verif.Time Verif.Time.Spec

/-! ## Specification -/

/-- `t` is the decimal year of the Modified Julian Day `MJD`, truncated to the full hour -/
def DateOf (MJD t : ℚ) : Prop :=
  ∃ (y m d h mi : ℤ) (s : ℚ), Valid y m d ∧ 0 ≤ h ∧ h ≤ 23 ∧ 0 ≤ mi ∧ mi ≤ 59 ∧ 0 ≤ s ∧ s < 60 ∧
    MJD = dayNumber y m d + (h / 24 + mi / 1440 + s / 86400 : ℚ) ∧
    t = y + ((dayNumber y m d - dayNumber y 1 1 : ℤ) + (h : ℚ) / 24) / yearLen y

/-- a line of numbers `xs` (only those with a decimal point count) gives the entry `r`: date from the Modified
Julian Day in the first column, coefficient and error (in units of 1e-10) in the given columns, from 0 -/
def MjdEntry (dcol ecol : ℕ) (xs : List Lit) (r : Rec) : Prop :=
  ∃ m x e, xs[0]? = some m ∧ xs[dcol]? = some x ∧ xs[ecol]? = some e ∧
    DateOf m.val r.time ∧ r.data = x.val ∧ r.error = (e.val : ℝ) / 10 ^ 10

/-- the same with the decimal year in the second column -/
def YearEntry (dcol ecol : ℕ) (xs : List Lit) (r : Rec) : Prop :=
  ∃ t x e, xs[1]? = some t ∧ xs[dcol]? = some x ∧ xs[ecol]? = some e ∧
    r.time = t.val ∧ r.data = x.val ∧ r.error = (e.val : ℝ) / 10 ^ 10

/-- GRACE month nearest to a date that begins a solution -/
def nearestMonth (t : ℚ) : ℤ := calendarToGrace t (around := npRound)

/-- months of the output: the nearest months, adjusted for the special months -/
def MonthsOk (rs : List Rec) : Prop := rs.map Rec.month = adjustMonths (rs.map fun r => nearestMonth r.time)

/-- a text contains another one, up to the case of letters -/
def Contains (s : String) (n : List Char) : Prop :=
  ∃ a w b, n = a ++ w ++ b ∧ w.map Char.toLower = s.toList.map Char.toLower

/-! ## Dates -/

theorem dayNumber_year (y m d : ℤ) (hv : Valid y m d) (h0 : 0 ≤ dayNumber y m d) (h1 : dayNumber y m d < 200000) :
    1 ≤ y ∧ y < 4000 := by
  obtain ⟨hm1, hm2, hd1, hd2⟩ := hv
  have hb : 0 ≤ daysBefore y m ∧ daysBefore y m ≤ 335 := by
    by_cases hl : gregLeap y <;> interval_cases m <;> simp [daysBefore, hl]
  have hl : monthLen y m ≤ 31 := by
    by_cases hl : gregLeap y <;> interval_cases m <;> simp [monthLen, hl]
  unfold dayNumber at h0 h1
  generalize daysBefore y m = a at *
  generalize monthLen y m = b at *
  constructor <;> omega

theorem mjdTime_date (M : ℚ) (h0 : 0 ≤ M) (h1 : M < 200000) : ∃ t, mjdTime M = some t ∧ DateOf M t := by
  have hr := convertJulian_right_inverse (M + 2400000.5) (by norm_num; linarith)
  obtain ⟨-, -, -, -, a1, a2, a3, a4, a5, a6, -⟩ := convertJulian_ranges (M + 2400000.5)
  set r := convertJulian (M + 2400000.5) with hrdef
  obtain ⟨hv, hs⟩ := hr
  have hM : M = dayNumber r.year r.month r.day + (r.hour / 24 + r.minute / 1440 + r.second / 86400 : ℚ) := by
    linarith
  have b1 : (0 : ℚ) ≤ r.hour := by exact_mod_cast a1
  have b2 : (r.hour : ℚ) ≤ 23 := by exact_mod_cast a2
  have b3 : (0 : ℚ) ≤ r.minute := by exact_mod_cast a3
  have b4 : (r.minute : ℚ) ≤ 59 := by exact_mod_cast a4
  have c1 : (-1 : ℚ) < dayNumber r.year r.month r.day := by linarith
  have c2 : (dayNumber r.year r.month r.day : ℚ) < 200000 := by linarith
  have d1 : -1 < dayNumber r.year r.month r.day := by exact_mod_cast c1
  have d2 : dayNumber r.year r.month r.day < 200000 := by exact_mod_cast c2
  have hy := dayNumber_year _ _ _ hv (by omega) d2
  have e := decimal_of_date r.year r.month r.day r.hour 0 0 (by omega) hv.1 hv.2.1
  refine ⟨_, ?_, r.year, r.month, r.day, r.hour, r.minute, r.second, hv, a1, a2, a3, a4, a5, a6, hM, rfl⟩
  unfold mjdTime
  simp only [← hrdef]
  have e' : convertCalendarDecimal r.year r.month (day := some (r.day : ℚ)) (hour := some (r.hour : ℚ)) =
      convertCalendarDecimal r.year r.month (day := some (r.day : ℚ)) (hour := some (r.hour : ℚ))
        (minute := some 0) (second := some 0) := rfl
  rw [e', e]
  simp

theorem npRound_near (x : ℚ) (n : ℤ) (h : |x - n| < 1 / 2) : npRound x = n := by
  have h1 := Int.floor_le x
  have h2 := Int.lt_floor_add_one x
  rw [abs_lt] at h
  obtain ⟨ha, hb⟩ := h
  unfold npRound
  split_ifs with a b c
  · have c1 : (⌊x⌋ : ℚ) < n + 1 := by linarith
    have c2 : (n : ℚ) < ⌊x⌋ + 1 := by linarith
    have d1 : ⌊x⌋ < n + 1 := by exact_mod_cast c1
    have d2 : n < ⌊x⌋ + 1 := by exact_mod_cast c2
    omega
  · have c1 : (⌊x⌋ : ℚ) < n := by linarith
    have c2 : (n : ℚ) < ⌊x⌋ + 2 := by linarith
    have d1 : ⌊x⌋ < n := by exact_mod_cast c1
    have d2 : n < ⌊x⌋ + 2 := by exact_mod_cast c2
    omega
  · exfalso
    have e : x = ⌊x⌋ + 1 / 2 := by linarith
    have c1 : (⌊x⌋ : ℚ) < n := by linarith
    have c2 : (n : ℚ) < ⌊x⌋ + 1 := by linarith
    have d1 : ⌊x⌋ < n := by exact_mod_cast c1
    have d2 : n < ⌊x⌋ + 1 := by exact_mod_cast c2
    omega
  · exfalso
    have e : x = ⌊x⌋ + 1 / 2 := by linarith
    have c1 : (⌊x⌋ : ℚ) < n := by linarith
    have c2 : (n : ℚ) < ⌊x⌋ + 1 := by linarith
    have d1 : ⌊x⌋ < n := by exact_mod_cast c1
    have d2 : n < ⌊x⌋ + 1 := by exact_mod_cast c2
    omega

theorem days_table (y m : ℤ) (h1 : 1 ≤ m) (h2 : m ≤ 12) (f : ℚ) :
    (0 ≤ f → f < 14 → |12 * ((daysBefore y m : ℚ) + f) / yearLen y - (m - 1 : ℤ)| < 1 / 2) ∧
    (18 ≤ f → f < monthLen y m → |12 * ((daysBefore y m : ℚ) + f) / yearLen y - (m : ℤ)| < 1 / 2) := by
  by_cases hl : gregLeap y
  · have hL : yearLen y = 366 := by simp [yearLen, hl]
    rw [hL]
    interval_cases m <;> simp [daysBefore, monthLen, hl] <;> constructor <;> intro a b <;> rw [abs_lt] <;>
      constructor <;> linarith
  · have hL : yearLen y = 365 := by simp [yearLen, hl]
    rw [hL]
    interval_cases m <;> simp [daysBefore, monthLen, hl] <;> constructor <;> intro a b <;> rw [abs_lt] <;>
      constructor <;> linarith

theorem doy (y m d : ℤ) : dayNumber y m d - dayNumber y 1 1 = daysBefore y m + (d - 1) := by
  unfold dayNumber; simp [daysBefore]; ring

/-- **C76** a solution that begins in the first 14 days of a calendar month belongs to that month; one that
begins on day 19 or later belongs to the next -/
theorem month_of_start (y m d h : ℤ) (hv : Valid y m d) (h0 : 0 ≤ h) (h1 : h ≤ 23) (t : ℚ)
    (ht : t = y + ((dayNumber y m d - dayNumber y 1 1 : ℤ) + (h : ℚ) / 24) / yearLen y) :
    (d ≤ 14 → nearestMonth t = 12 * (y - 2002) + m) ∧ (19 ≤ d → nearestMonth t = 12 * (y - 2002) + m + 1) := by
  obtain ⟨m1, m2, d1, d2⟩ := hv
  have q0 : (0 : ℚ) ≤ h := by exact_mod_cast h0
  have q1 : (h : ℚ) ≤ 23 := by exact_mod_cast h1
  have qd1 : (1 : ℚ) ≤ d := by exact_mod_cast d1
  have qd2 : (d : ℚ) ≤ monthLen y m := by exact_mod_cast d2
  have hx : 12 * (t - 2002) = 12 * (y - 2002 : ℤ) +
      12 * ((daysBefore y m : ℚ) + ((d : ℚ) - 1 + h / 24)) / yearLen y := by
    rw [ht, doy]; push_cast; ring
  obtain ⟨k1, k2⟩ := days_table y m m1 m2 ((d : ℚ) - 1 + h / 24)
  unfold nearestMonth calendarToGrace
  constructor
  · intro hd
    have qd : (d : ℚ) ≤ 14 := by exact_mod_cast hd
    have := k1 (by linarith) (by linarith)
    rw [npRound_near _ (12 * (y - 2002) + (m - 1)) (by
      rw [hx]; convert this using 2; push_cast; ring)]
    ring
  · intro hd
    have qd : (19 : ℚ) ≤ d := by exact_mod_cast hd
    have := k2 (by linarith) (by linarith)
    rw [npRound_near _ (12 * (y - 2002) + m) (by
      rw [hx]; convert this using 2; push_cast; ring)]

example : nearestMonth (2015 + (90 : ℚ) / 365) = 160 := by decide +kernel

/-! ## Header and lines -/

/-- **C76** the header is skipped to the end of the line that announces the product -/
theorem skipHeader_found (last : Line → Bool) (pre : List Line) (l : Line) (body : List Line)
    (hp : ∀ x ∈ pre, last x = false) (hl : last l = true) :
    skipHeader last true (pre ++ l :: body) = some body := by
  unfold skipHeader
  have : (pre ++ l :: body).dropWhile (fun l => !last l) = l :: body := by
    rw [List.dropWhile_append_of_pos (by intro x hx; simp [hp x hx])]
    simp [hl]
  simp [this]

/-- **C76** a file without that line is refused; with `HEADER=False` every line is data -/
theorem skipHeader_missing (last : Line → Bool) (ls : List Line) (hp : ∀ x ∈ ls, last x = false) :
    skipHeader last true ls = none ∧ skipHeader last false ls = some ls := by
  unfold skipHeader
  have : ls.dropWhile (fun l => !last l) = [] := by
    have := List.dropWhile_append_of_pos (p := fun l => !last l) (l₁ := ls) (l₂ := [])
      (by intro x hx; simp [hp x hx])
    simpa using this
  simp [this]

theorem col_row (l : Line) (xs : List Lit) (h : Row l xs) (k : ℕ) : col l k = xs[k]?.map Lit.val := by
  unfold col
  rw [findNumbers_row l xs h, List.getElem?_map]
  cases xs[k]? with
  | none => rfl
  | some x => simp [pyFloat_lit]

theorem more_row (n : ℕ) (l : Line) (xs : List Lit) (h : Row l xs) : more n l = decide (n < xs.length) := by
  unfold more; rw [findNumbers_row l xs h, List.length_map]

theorem scale_eq (e : ℚ) : (e : ℝ) * 1e-10 = (e : ℝ) / 10 ^ 10 := by norm_num; ring

theorem mapM_forall₂ {A B C : Type} (g : A → C) (rd : C → Option B) (R : A → B → Prop) :
    ∀ (as : List A), (∀ a ∈ as, ∃ b, rd (g a) = some b ∧ R a b) →
      ∃ bs, (as.map g).mapM rd = some bs ∧ List.Forall₂ R as bs
  | [], _ => ⟨[], rfl, .nil⟩
  | a :: as, h => by
    obtain ⟨b, hb, hR⟩ := h a (by simp)
    obtain ⟨bs, hbs, hf⟩ := mapM_forall₂ g rd R as fun x hx => h x (by simp [hx])
    exact ⟨b :: bs, by simp [hb, hbs], .cons hR hf⟩

theorem mapM_none {B C : Type} (rd : C → Option B) (cs : List C) (c : C) (hc : c ∈ cs) (h : rd c = none) :
    cs.mapM rd = none := by
  induction cs with
  | nil => simp at hc
  | cons x t ih =>
    rw [List.mapM_cons]
    rcases List.mem_cons.1 hc with rfl | hc
    · simp [h]
    · cases rd x with
      | none => rfl
      | some b => simp [ih hc]

theorem filter_map_fst (keep : Line → Bool) (q : List Lit → Bool) (body : List (Line × List Lit))
    (h : ∀ p ∈ body, keep p.1 = q p.2) :
    (body.map Prod.fst).filter keep = (body.filter fun p => q p.2).map Prod.fst := by
  induction body with
  | nil => rfl
  | cons p t ih =>
    have hp := h p (by simp)
    have := ih fun x hx => h x (by simp [hx])
    rw [List.map_cons, List.filter_cons, List.filter_cons, hp]
    split <;> simp [this]

/-- the columns needed are there and the Modified Julian Day is between 1858 and 2406 -/
def MjdCols (dcol ecol : ℕ) (xs : List Lit) : Prop :=
  dcol < xs.length ∧ ecol < xs.length ∧ ∀ m ∈ xs.head?, 0 ≤ m.val ∧ m.val < 200000

theorem mjdLine_entry (dcol ecol : ℕ) (l : Line) (xs : List Lit) (h : Row l xs) (hc : MjdCols dcol ecol xs) :
    ∃ r, mjdLine dcol ecol l = some r ∧ MjdEntry dcol ecol xs r ∧ r.month = nearestMonth r.time := by
  obtain ⟨h1, h2, h3⟩ := hc
  have h0 : 0 < xs.length := by omega
  have e0 : xs[0]? = some xs[0] := by simp [h0]
  obtain ⟨t, ht, hD⟩ := mjdTime_date xs[0].val (h3 _ (by rw [List.head?_eq_getElem?, e0]; rfl)).1
    (h3 _ (by rw [List.head?_eq_getElem?, e0]; rfl)).2
  refine ⟨⟨t, startMonth t, xs[dcol].val, (xs[ecol].val : ℝ) * 1e-10⟩, ?_, ⟨xs[0], xs[dcol], xs[ecol], e0, ?_, ?_,
    hD, rfl, scale_eq _⟩, rfl⟩
  · unfold mjdLine
    rw [col_row l xs h, col_row l xs h, col_row l xs h, e0]
    simp [ht, h1, h2]
  · simp [h1]
  · simp [h2]

theorem yearLine_entry (dcol ecol : ℕ) (l : Line) (xs : List Lit) (h : Row l xs) (h1 : dcol < xs.length)
    (h2 : ecol < xs.length) (h3 : 1 < xs.length) :
    ∃ r, yearLine dcol ecol l = some r ∧ YearEntry dcol ecol xs r ∧ r.month = nearestMonth r.time := by
  refine ⟨⟨xs[1].val, startMonth xs[1].val, xs[dcol].val, (xs[ecol].val : ℝ) * 1e-10⟩, ?_,
    ⟨xs[1], xs[dcol], xs[ecol], ?_, ?_, ?_, rfl, rfl, scale_eq _⟩, rfl⟩
  · unfold yearLine
    rw [col_row l xs h, col_row l xs h, col_row l xs h]
    simp [h1, h2, h3]
  · simp [h3]
  · simp [h1]
  · simp [h2]

theorem finish_forall₂ {A : Type} (R : A → Rec → Prop) (hR : ∀ a r g, R a r → R a { r with month := g })
    (as : List A) (rs : List Rec) (h : List.Forall₂ (fun a r => R a r ∧ r.month = nearestMonth r.time) as rs) :
    List.Forall₂ R as (finish rs) ∧ MonthsOk (finish rs) := by
  have hlen : (adjustMonths (rs.map Rec.month)).length = rs.length := by rw [adjustMonths_length]; simp
  have key : ∀ (as : List A) (rs : List Rec) (gs : List ℤ), gs.length = rs.length →
      List.Forall₂ (fun a r => R a r ∧ r.month = nearestMonth r.time) as rs →
      List.Forall₂ R as ((rs.zip gs).map fun p => { p.1 with month := p.2 }) ∧
      (((rs.zip gs).map fun p => ({ p.1 with month := p.2 } : Rec)).map Rec.month = gs) ∧
      (((rs.zip gs).map fun p => ({ p.1 with month := p.2 } : Rec)).map (fun r => nearestMonth r.time) =
        rs.map Rec.month) := by
    intro as rs gs hl hf
    induction hf generalizing gs with
    | nil => have : gs = [] := by simpa using hl
             subst this; exact ⟨.nil, rfl, rfl⟩
    | @cons a r as rs h1 _ ih =>
      obtain ⟨g, gs, rfl⟩ : ∃ g gs', gs = g :: gs' := by
        cases gs with
        | nil => simp at hl
        | cons g gs => exact ⟨g, gs, rfl⟩
      obtain ⟨i1, i2, i3⟩ := ih gs (by simpa using hl)
      refine ⟨.cons (hR _ _ _ h1.1) i1, ?_, ?_⟩
      · simpa using i2
      · simpa [h1.2] using i3
  obtain ⟨k1, k2, k3⟩ := key as rs _ hlen h
  refine ⟨k1, ?_⟩
  unfold MonthsOk finish
  rw [k2, k3]

/-! ## Oblateness -/

section
variable (f : File) (AOD : Bool) (header : List Line) (product : Line) (body : List (Line × List Lit))

/-- **C76** TN-11 and TN-14 files: every line with numbers after the product line gives one entry, in the order
of the file: date, third column, fifth column in units of 1e-10; months are the nearest ones, adjusted -/
theorem c20_tn (hk : kindC20 f.name = .tn) (hf : f.lines = header ++ product :: body.map Prod.fst)
    (hh : ∀ l ∈ header, anyProduct l = false) (hp : anyProduct product = true)
    (hrow : ∀ p ∈ body, Row p.1 p.2) (hcol : ∀ p ∈ body, p.2 ≠ [] → MjdCols 2 4 p.2) :
    ∃ rs, c20 f AOD true = some rs ∧
      List.Forall₂ (fun p r => MjdEntry 2 4 p.2 r) (body.filter fun p => !p.2.isEmpty) rs ∧ MonthsOk rs := by
  obtain ⟨rs, hrs, hall⟩ := mapM_forall₂ Prod.fst (mjdLine 2 4)
    (fun (p : Line × List Lit) r => MjdEntry 2 4 p.2 r ∧ r.month = nearestMonth r.time)
    (body.filter fun p => !p.2.isEmpty) (by
      intro p hp
      rw [List.mem_filter] at hp
      have hne : p.2 ≠ [] := by simpa using hp.2
      exact mjdLine_entry 2 4 p.1 p.2 (hrow p hp.1) (hcol p hp.1 hne))
  have := finish_forall₂ (fun (p : Line × List Lit) r => MjdEntry 2 4 p.2 r) (fun a r g h => h) _ rs hall
  refine ⟨finish rs, ?_, this⟩
  unfold c20
  rw [hk]
  simp only
  rw [hf, skipHeader_found anyProduct header product _ hh hp, Option.bind_some]
  unfold readLines
  rw [filter_map_fst (more 0) (fun xs => !xs.isEmpty) body (by
    intro p hp; rw [more_row 0 p.1 p.2 (hrow p hp)]; cases p.2 <;> simp), hrs]
  rfl

/-- **C76** GravIS files of GFZ: one entry for every line with numbers; the date is the decimal year of the second
column.  (The file documents its standard deviations in units of 1e-12; they are scaled by 1e-10.) -/
theorem c20_gravis (hk : kindC20 f.name = .gravis) (hf : f.lines = header ++ product :: body.map Prod.fst)
    (hh : ∀ l ∈ header, upperProduct l = false) (hp : upperProduct product = true)
    (hrow : ∀ p ∈ body, Row p.1 p.2) (hcol : ∀ p ∈ body, p.2 ≠ [] → 4 < p.2.length) :
    ∃ rs, c20 f AOD true = some rs ∧
      List.Forall₂ (fun p r => YearEntry 2 4 p.2 r) (body.filter fun p => !p.2.isEmpty) rs ∧ MonthsOk rs := by
  obtain ⟨rs, hrs, hall⟩ := mapM_forall₂ Prod.fst (yearLine 2 4)
    (fun (p : Line × List Lit) r => YearEntry 2 4 p.2 r ∧ r.month = nearestMonth r.time)
    (body.filter fun p => !p.2.isEmpty) (by
      intro p hp
      rw [List.mem_filter] at hp
      have hne : p.2 ≠ [] := by simpa using hp.2
      have := hcol p hp.1 hne
      exact yearLine_entry 2 4 p.1 p.2 (hrow p hp.1) (by omega) (by omega) (by omega))
  have := finish_forall₂ (fun (p : Line × List Lit) r => YearEntry 2 4 p.2 r) (fun a r g h => h) _ rs hall
  refine ⟨finish rs, ?_, this⟩
  unfold c20
  rw [hk]
  simp only
  rw [hf, skipHeader_found upperProduct header product _ hh hp, Option.bind_some]
  unfold readLines
  rw [filter_map_fst (more 0) (fun xs => !xs.isEmpty) body (by
    intro p hp; rw [more_row 0 p.1 p.2 (hrow p hp)]; cases p.2 <;> simp), hrs]
  rfl

/-- the line is marked as a GRACE month -/
def GMark (l : Line) : Prop := ∃ a b, l = a ++ 'G' :: '*' :: b ∨ l = a ++ 'G' :: 'm' :: b

theorem gFlag_iff (l : Line) : gFlag l = true ↔ GMark l := by
  unfold gFlag GMark
  rw [List.any_eq_true]
  constructor
  · rintro ⟨t, ht, h⟩
    rw [List.mem_tails] at ht
    obtain ⟨a, rfl⟩ := ht
    simp only [Bool.or_eq_true, List.isPrefixOf_iff_prefix] at h
    rcases h with ⟨b, rfl⟩ | ⟨b, rfl⟩
    · exact ⟨a, b, Or.inl rfl⟩
    · exact ⟨a, b, Or.inr rfl⟩
  · rintro ⟨a, b, rfl | rfl⟩
    · refine ⟨'G' :: '*' :: b, by simp [List.mem_tails], ?_⟩
      simp only [Bool.or_eq_true, List.isPrefixOf_iff_prefix]
      exact Or.inl ⟨b, rfl⟩
    · refine ⟨'G' :: 'm' :: b, by simp [List.mem_tails], ?_⟩
      simp only [Bool.or_eq_true, List.isPrefixOf_iff_prefix]
      exact Or.inr ⟨b, rfl⟩

open Classical in
/-- **C76** GFZ files: one entry for every line marked `G*` or `Gm`, and none for the others -/
theorem c20_gfz (hk : kindC20 f.name = .gfz) (hf : f.lines = header ++ product :: body.map Prod.fst)
    (hh : ∀ l ∈ header, upperProduct l = false) (hp : upperProduct product = true)
    (hrow : ∀ p ∈ body, Row p.1 p.2) (hcol : ∀ p ∈ body, GMark p.1 → 4 < p.2.length) :
    ∃ rs, c20 f AOD true = some rs ∧
      List.Forall₂ (fun p r => YearEntry 2 4 p.2 r) (body.filter fun p => decide (GMark p.1)) rs ∧ MonthsOk rs := by
  obtain ⟨rs, hrs, hall⟩ := mapM_forall₂ Prod.fst (yearLine 2 4)
    (fun (p : Line × List Lit) r => YearEntry 2 4 p.2 r ∧ r.month = nearestMonth r.time)
    (body.filter fun p => decide (GMark p.1)) (by
      intro p hp
      rw [List.mem_filter] at hp
      have := hcol p hp.1 (by simpa using hp.2)
      exact yearLine_entry 2 4 p.1 p.2 (hrow p hp.1) (by omega) (by omega) (by omega))
  have := finish_forall₂ (fun (p : Line × List Lit) r => YearEntry 2 4 p.2 r) (fun a r g h => h) _ rs hall
  refine ⟨finish rs, ?_, this⟩
  unfold c20
  rw [hk]
  simp only
  rw [hf, skipHeader_found upperProduct header product _ hh hp, Option.bind_some]
  unfold readLines
  have hfilter : (body.map Prod.fst).filter gFlag = (body.filter fun p => decide (GMark p.1)).map Prod.fst := by
    rw [List.filter_map]
    congr 1
    apply List.filter_congr
    intro p _
    rw [Bool.eq_iff_iff, Function.comp, gFlag_iff]; simp
  rw [hfilter, hrs]
  rfl

/-- **C76** the CSR table: the restored de-aliasing model (fifth column, in units of 1e-10) is removed when asked
for; errors are in units of 1e-10 -/
theorem c20_csr (hk : kindC20 f.name = .csr) (rows : List (List ℚ)) (ht : f.table = some rows) :
    ∃ rs, c20 f AOD true = some rs ∧
      List.Forall₂ (fun row r => r.time = row.getD 0 0 ∧
        r.data = row.getD 1 0 - (if AOD then row.getD 4 0 / 10 ^ 10 else 0) ∧
        r.error = ((row.getD 3 0 : ℚ) : ℝ) / 10 ^ 10) rows rs ∧
      rs.map Rec.month = adjustMonths (rs.map fun r => calendarToGrace r.time) := by
  have hlen : (adjustMonths ((c20Csr AOD rows).map Rec.month)).length = rows.length := by
    rw [adjustMonths_length]; simp [c20Csr]
  have key : ∀ (rows : List (List ℚ)) (gs : List ℤ), gs.length = rows.length →
      List.Forall₂ (fun row (r : Rec) => r.time = row.getD 0 0 ∧
        r.data = row.getD 1 0 - (if AOD then row.getD 4 0 / 10 ^ 10 else 0) ∧
        r.error = ((row.getD 3 0 : ℚ) : ℝ) / 10 ^ 10) rows
        (((c20Csr AOD rows).zip gs).map fun p => { p.1 with month := p.2 }) ∧
      ((((c20Csr AOD rows).zip gs).map fun p => ({ p.1 with month := p.2 } : Rec)).map Rec.month = gs) ∧
      ((((c20Csr AOD rows).zip gs).map fun p => ({ p.1 with month := p.2 } : Rec)).map
        (fun r => calendarToGrace r.time) = (c20Csr AOD rows).map Rec.month) := by
    intro rows
    induction rows with
    | nil => intro gs hl; have : gs = [] := by simpa using hl
             subst this; exact ⟨.nil, rfl, rfl⟩
    | cons row rows ih =>
      intro gs hl
      obtain ⟨g, gs, rfl⟩ : ∃ g gs', gs = g :: gs' := by
        cases gs with
        | nil => simp at hl
        | cons g gs => exact ⟨g, gs, rfl⟩
      obtain ⟨i1, i2, i3⟩ := ih gs (by simpa using hl)
      unfold c20Csr at i1 i2 i3 ⊢
      refine ⟨.cons ⟨rfl, ?_, scale_eq _⟩ i1, ?_, ?_⟩
      · dsimp only
        congr 1
        split
        · norm_num; ring
        · rfl
      · simpa using i2
      · simpa using i3
  obtain ⟨k1, k2, k3⟩ := key rows _ hlen
  refine ⟨finish (c20Csr AOD rows), ?_, k1, ?_⟩
  · unfold c20; rw [hk]; simp only [ht, Option.map_some]
  · unfold finish; rw [k2, k3]

end

end Verif.SLR
