import Verif.GeoRead.Props2

/-!
# C78: GRACE Tellus geocenter files as text; examples for all readers
-/
namespace Verif.GeoRead
open Verif.Time Verif.Time.Spec Verif.SLR Verif.GIA Verif.Geocenter

/-! ## Specification -/

/-- decimal year of the beginning of a day -/
def decimalDay (y m d : ℤ) : ℚ := y + ((dayNumber y m d - dayNumber y 1 1 : ℤ) : ℚ) / yearLen y

/-- decimal year of the middle of a month -/
def decimalMonth (y m : ℤ) : ℚ :=
  y + (((dayNumber y m 1 - dayNumber y 1 1 : ℤ) : ℚ) + (monthLen y m : ℚ) / 2) / yearLen y

/-- a calendar date of the years 1 to 3999 -/
def IsDate (y m d : ℕ) : Prop := 1 ≤ y ∧ y < 4000 ∧ 1 ≤ m ∧ m ≤ 12 ∧ 1 ≤ d ∧ d ≤ monthDays y m

/-- date and month of a line: in the files of JPL the eighth and ninth number begin with the first and the last day
(`yyyymmdd`), the date is the middle of the two and the month the twelfth of the year it is in; in the others the first number
begins with year and month (`yyyymm`) -/
def TellusDate (JPL : Bool) (ts : List Tok) (t : ℚ) (g : ℤ) : Prop :=
  match JPL with
  | true => ∃ (y1 m1 d1 y2 m2 d2 : ℕ) (w7 w8 : Tok), ts[7]? = some w7 ∧ ts[8]? = some w8 ∧
      IsDate y1 m1 d1 ∧ IsDate y2 m2 d2 ∧
      w7.chars.take 8 = pad4 y1 ++ (pad2 m1 ++ pad2 d1) ∧ w8.chars.take 8 = pad4 y2 ++ (pad2 m2 ++ pad2 d2) ∧
      t = (decimalDay y1 m1 d1 + decimalDay y2 m2 d2) / 2 ∧ g = 12 * (⌊t⌋ - 2002) + ⌊12 * (t - ⌊t⌋)⌋ + 1
  | false => ∃ (y m : ℕ) (w : Tok), ts[0]? = some w ∧ IsDate y m 1 ∧ w.chars.take 6 = pad4 y ++ pad2 m ∧
      t = decimalMonth y m ∧ g = 12 * (y - 2002) + m

/-- the third number of the line is the order -/
def Order (ts : List Tok) (m : ℤ) : Prop := ∃ s d ds, ts[2]? = some (Tok.int s d ds none) ∧ s.val * decimal (d :: ds) = m

/-- the two lines of a date: order 0 with its coefficient and error, order 1 with two of each -/
def TellusPair (JPL : Bool) (ts0 ts1 : List Tok) : Prop :=
  Order ts0 0 ∧ Order ts1 1 ∧ 5 < ts0.length ∧ 6 < ts1.length ∧ (∃ t g, TellusDate JPL ts0 t g) ∧ ∃ t g, TellusDate JPL ts1 t g

/-- value of a number of the line -/
noncomputable def at' (ts : List Tok) (k : ℕ) : ℝ := ((ts[k]?.map Tok.val).getD 0 : ℚ)

/-- what is read from the two lines; the date is that of the second -/
def TellusEntry (JPL : Bool) (ts0 ts1 : List Tok) (r : TEntry) : Prop :=
  (∃ t g, TellusDate JPL ts1 t g ∧ r.time = (t : ℝ)) ∧ r.coef = (at' ts0 3, at' ts1 3, at' ts1 4) ∧
    r.err = (at' ts0 5, at' ts1 5, at' ts1 6)

/-- the line that ends the header -/
def EndOfHeader (JPL : Bool) (l : Line) : Prop :=
  match JPL with
  | true => ∃ (a b : Char) (r : List Char), isSpace a = true ∧ isSpace b = true ∧
      l = "end".toList ++ a :: ("of".toList ++ b :: ("header".toList ++ r))
  | false => ∃ r, l = "'(a6,".toList ++ r

/-! ## Proofs -/

theorem monthDays_len (y m : ℕ) (h1 : 1 ≤ m) (h2 : m ≤ 12) : (monthDays y m : ℤ) = monthLen y m := by
  have hl : (gregLeap (y : ℤ)) ↔ (y % 4 = 0 ∧ (y % 100 ≠ 0 ∨ y % 400 = 0)) := by
    unfold gregLeap; omega
  by_cases h : y % 4 = 0 ∧ (y % 100 ≠ 0 ∨ y % 400 = 0)
  · have hg := hl.2 h
    interval_cases m <;> simp [monthDays, monthLen, h, hg]
  · have hg : ¬ gregLeap (y : ℤ) := fun c => h (hl.1 c)
    interval_cases m <;> simp only [monthDays, monthLen, h, hg] <;> norm_num

theorem decimal_day (y m d : ℕ) (h : IsDate y m d) :
    convertCalendarDecimal (y : ℤ) m (day := some (d : ℚ)) = some (decimalDay y m d) := by
  obtain ⟨h1, h2, h3, h4, h5, h6⟩ := h
  have := decimal_of_date (y : ℤ) m d 0 0 0 (by omega) (by omega) (by omega)
  unfold decimalDay
  have e : ((y : ℤ) : ℚ) + (((dayNumber y m d - dayNumber y 1 1 : ℤ) : ℚ) + (0 / 24 + 0 / 1440 + 0 / 86400)) / yearLen y =
      ((y : ℤ) : ℚ) + ((dayNumber y m d - dayNumber y 1 1 : ℤ) : ℚ) / yearLen y := by norm_num
  rw [← e, ← this]
  rfl

theorem tellusDate_spec (JPL : Bool) (ts : List Tok) (t : ℚ) (g : ℤ) (h : TellusDate JPL ts t g) :
    tellusDate JPL (ts.map Tok.chars) = some (t, g) := by
  cases JPL with
  | true =>
    obtain ⟨y1, m1, d1, y2, m2, d2, w7, w8, g7, g8, v1, v2, e7, e8, rfl, rfl⟩ := h
    have k1 := ymd_text y1 m1 d1 v1.1 (by have := v1.2.1; omega) v1.2.2.1 v1.2.2.2.1 v1.2.2.2.2.1 v1.2.2.2.2.2
    have k2 := ymd_text y2 m2 d2 v2.1 (by have := v2.2.1; omega) v2.2.2.1 v2.2.2.2.1 v2.2.2.2.2.1 v2.2.2.2.2.2
    unfold tellusDate
    simp only [List.getElem?_map, g7, g8, Option.map_some, Option.bind_some, e7, e8, k1, k2, Option.bind_eq_bind,
      decimal_day y1 m1 d1 v1, decimal_day y2 m2 d2 v2]
    congr 2
    unfold calendarToGrace
    generalize (decimalDay y1 m1 d1 + decimalDay y2 m2 d2) / 2 = t
    have : (12 * (((⌊t⌋ : ℤ) : ℚ) - 2002)) = ((12 * (⌊t⌋ - 2002) : ℤ) : ℚ) := by push_cast; ring
    rw [this, Int.floor_intCast, Int.floor_add_one]
    ring
  | false =>
    obtain ⟨y, m, w, g0, v, e, rfl, rfl⟩ := h
    have k := ym_text y m v.1 (by have := v.2.1; omega) v.2.2.1 v.2.2.2.1
    have hm := decimal_mid_month (y : ℤ) m (by have := v.1; have := v.2.1; omega) (by have := v.2.2.1; omega)
      (by have := v.2.2.2.1; omega)
    unfold tellusDate
    simp only [List.getElem?_map, g0, Option.map_some, Option.bind_some, e, k, Option.bind_eq_bind, hm]
    unfold calendarToGrace decimalMonth
    congr 2
    have : (12 * ((y : ℚ) - 2002)) = ((12 * ((y : ℤ) - 2002) : ℤ) : ℚ) := by push_cast; ring
    rw [this, Int.floor_intCast]

theorem word_at (ts : List Tok) (k : ℕ) (h : k < ts.length) : word (ts.map Tok.chars) k = some (at' ts k) := by
  unfold word at'
  rw [List.getElem?_map, List.getElem?_eq_getElem h]
  simp [pyFloat_tok]

theorem order_word (ts : List Tok) (m : ℤ) (h : Order ts m) : ((ts.map Tok.chars)[2]?.bind pyInt) = some m := by
  obtain ⟨s, d, ds, h1, h2⟩ := h
  rw [List.getElem?_map, h1, ← h2]
  exact pyInt_tok s d ds

theorem tellusLine_zero (JPL : Bool) (l : Line) (ts : List Tok) (hr : LRow l ts) (ho : Order ts 0) (hl : 5 < ts.length)
    (t : ℚ) (g : ℤ) (hd : TellusDate JPL ts t g) : tellusLine JPL l = some ⟨0, at' ts 3, 0, at' ts 5, 0, t, g⟩ := by
  unfold tellusLine
  simp only [rxAll_lrow l ts hr, order_word ts 0 ho, Option.bind_eq_bind, Option.bind_some, decide_true]
  rw [word_at ts 3 (by omega), word_at ts 5 (by omega), tellusDate_spec JPL ts t g hd]
  rfl

theorem tellusLine_one (JPL : Bool) (l : Line) (ts : List Tok) (hr : LRow l ts) (ho : Order ts 1) (hl : 6 < ts.length)
    (t : ℚ) (g : ℤ) (hd : TellusDate JPL ts t g) :
    tellusLine JPL l = some ⟨1, at' ts 3, at' ts 4, at' ts 5, at' ts 6, t, g⟩ := by
  unfold tellusLine
  simp only [rxAll_lrow l ts hr, order_word ts 1 ho, Option.bind_eq_bind, Option.bind_some, decide_true]
  rw [word_at ts 3 (by omega), word_at ts 4 (by omega), word_at ts 5 (by omega), word_at ts 6 (by omega),
    tellusDate_spec JPL ts t g hd]
  rfl

theorem tellusMark_iff (JPL : Bool) (l : Line) : tellusMark JPL l = true ↔ EndOfHeader JPL l := by
  cases JPL with
  | true =>
    simp only [tellusMark, EndOfHeader, if_true, Bool.and_eq_true, List.isPrefixOf_iff_prefix]
    constructor
    · rintro ⟨⟨⟨⟨⟨r1, h1⟩, h2⟩, ⟨r2, h3⟩⟩, h4⟩, ⟨r3, h5⟩⟩
      subst h1
      cases r1 with
      | nil => simp at h2
      | cons a r1 =>
        have e4 : ("end".toList ++ a :: r1).drop 4 = r1 := rfl
        have e6 : ("end".toList ++ a :: r1).drop 6 = r1.drop 2 := rfl
        have e7 : ("end".toList ++ a :: r1).drop 7 = r1.drop 3 := rfl
        rw [e4] at h3; rw [e6] at h4; rw [e7] at h5
        subst h3
        cases r2 with
        | nil => simp at h4
        | cons b r2 =>
          have e3 : ("of".toList ++ b :: r2).drop 3 = r2 := rfl
          rw [e3] at h5
          subst h5
          exact ⟨a, b, r3, by simpa using h2, by simpa using h4, rfl⟩
    · rintro ⟨a, b, r, ha, hb, rfl⟩
      refine ⟨⟨⟨⟨⟨_, rfl⟩, ?_⟩, ⟨_, rfl⟩⟩, ?_⟩, ⟨r, rfl⟩⟩
      · simpa using ha
      · simpa using hb
  | false =>
    simp only [tellusMark, EndOfHeader, Bool.false_eq_true, if_false, List.isPrefixOf_iff_prefix]
    exact ⟨fun ⟨r, h⟩ => ⟨r, h.symm⟩, fun ⟨r, h⟩ => ⟨r, h.symm⟩⟩

theorem tellusMark_false (JPL : Bool) (l : Line) (h : ¬ EndOfHeader JPL l) : tellusMark JPL l = false := by
  rw [← tellusMark_iff] at h; simpa using h

/-- the two lines of every date -/
def linesOf (body : List ((Line × List Tok) × (Line × List Tok))) : List Line := body.flatMap fun p => [p.1.1, p.2.1]

theorem lines_pairs (JPL : Bool) (body : List ((Line × List Tok) × (Line × List Tok)))
    (hrow : ∀ p ∈ body, LRow p.1.1 p.1.2 ∧ LRow p.2.1 p.2.2) (hpair : ∀ p ∈ body, TellusPair JPL p.1.2 p.2.2) :
    ∃ ps, (linesOf body).mapM (tellusLine JPL) = some (pairLines ps) ∧ WellFormed ps ∧
      List.Forall₂ (fun p q => (∃ t g, TellusDate JPL p.2.2 t g ∧ q.2.time = (t : ℝ) ∧ q.2.month = g) ∧
        q.1.c = at' p.1.2 3 ∧ q.1.ec = at' p.1.2 5 ∧ q.2.c = at' p.2.2 3 ∧ q.2.s = at' p.2.2 4 ∧
        q.2.ec = at' p.2.2 5 ∧ q.2.es = at' p.2.2 6) body ps := by
  induction body with
  | nil => exact ⟨[], rfl, by intro p hp; simp at hp, .nil⟩
  | cons p t ih =>
    obtain ⟨ps, h1, h2, h3⟩ := ih (fun x hx => hrow x (by simp [hx])) (fun x hx => hpair x (by simp [hx]))
    obtain ⟨r0, r1⟩ := hrow p (by simp)
    obtain ⟨o0, o1, l0, l1, ⟨t0, g0, d0⟩, t1, g1, d1⟩ := hpair p (by simp)
    have e0 := tellusLine_zero JPL _ _ r0 o0 l0 t0 g0 d0
    have e1 := tellusLine_one JPL _ _ r1 o1 l1 t1 g1 d1
    refine ⟨(⟨0, at' p.1.2 3, 0, at' p.1.2 5, 0, t0, g0⟩, ⟨1, at' p.2.2 3, at' p.2.2 4, at' p.2.2 5, at' p.2.2 6, t1, g1⟩) :: ps,
      ?_, ?_, .cons ⟨⟨t1, g1, d1, rfl, rfl⟩, rfl, rfl, rfl, rfl, rfl, rfl⟩ h3⟩
    · have : linesOf (p :: t) = p.1.1 :: p.2.1 :: linesOf t := rfl
      rw [this, List.mapM_cons, e0, List.mapM_cons, e1, h1]
      rfl
    · intro q hq
      rcases List.mem_cons.1 hq with rfl | hq
      · exact ⟨rfl, rfl⟩
      · exact h2 q hq

/-- **C78** GRACE Tellus files as text: after the end of the header every two lines give one date, with the coefficients and
errors in the fourth to seventh number of the lines and the date in their text; months are adjusted -/
theorem tellus_text_spec (JPL : Bool) (header : List Line) (mark : Line) (body : List ((Line × List Tok) × (Line × List Tok)))
    (hh : ∀ l ∈ header, ¬ EndOfHeader JPL l) (hm : EndOfHeader JPL mark)
    (hrow : ∀ p ∈ body, LRow p.1.1 p.1.2 ∧ LRow p.2.1 p.2.2) (hpair : ∀ p ∈ body, TellusPair JPL p.1.2 p.2.2) :
    ∃ rs, fromTellusText JPL true (header ++ mark :: linesOf body) = some rs ∧
      List.Forall₂ (fun p r => TellusEntry JPL p.1.2 p.2.2 r) body rs ∧
      ∃ gs, List.Forall₂ (fun p g => ∃ t, TellusDate JPL p.2.2 t g) body gs ∧ rs.map TEntry.month = adjustMonths gs := by
  obtain ⟨ps, h1, h2, h3⟩ := lines_pairs JPL body hrow hpair
  obtain ⟨s, hs, hj⟩ := fromTellus_spec ps h2
  have hmonths : ((List.range ps.length).map fun i : ℕ => s.month i) = ps.map fun q => q.2.month := by
    apply List.ext_getElem
    · simp
    · intro i a b
      simp only [List.length_map, List.length_range] at a
      simp only [List.getElem_map, List.getElem_range]
      exact (hj i ps[i] (List.getElem?_eq_getElem a)).2.2.2.2.2.2.2
  have hlen : body.length = ps.length := h3.length_eq
  refine ⟨(List.range ps.length).map fun i : ℕ => ⟨s.time i, (adjustMonths (ps.map fun q => q.2.month)).getD i 0,
    (s.c10 i, s.c11 i, s.s11 i), (s.ec10 i, s.ec11 i, s.es11 i)⟩, ?_, ?_, ps.map fun q => q.2.month, ?_, ?_⟩
  · unfold fromTellusText
    rw [skipHeader_found _ header mark _ (fun x hx => tellusMark_false _ _ (hh x hx)) ((tellusMark_iff _ _).2 hm)]
    simp only [Option.bind_eq_bind, Option.bind_some, h1, hs, Except.toOption, hmonths]
  · rw [List.forall₂_iff_get]
    refine ⟨by simp [hlen], ?_⟩
    intro i a b
    have hi : i < ps.length := by omega
    have hR := (List.forall₂_iff_get.1 h3).2 i a hi
    obtain ⟨k1, k2, k3, k4, k5, k6, k7, k8⟩ := hj i ps[i] (List.getElem?_eq_getElem hi)
    simp only [List.get_eq_getElem] at hR
    obtain ⟨⟨t, g, d, q1, q2⟩, q3, q4, q5, q6, q7, q8⟩ := hR
    simp only [List.get_eq_getElem, List.getElem_map, List.getElem_range]
    refine ⟨⟨t, g, d, by rw [k7, q1]⟩, ?_, ?_⟩
    · rw [k1, k3, k4, q3, q5, q6]
    · rw [k2, k5, k6, q4, q7, q8]
  · rw [List.forall₂_map_right_iff]
    exact h3.imp fun p q ⟨⟨t, g, d, _, q2⟩, _⟩ => ⟨t, by rw [q2]; exact d⟩
  · rw [List.map_map]
    apply List.ext_getElem
    · simp [adjustMonths_length]
    · intro i a b
      simp [List.getElem?_eq_getElem b]

/-- **C78** a file without the end of the header is refused -/
theorem tellus_no_header (JPL : Bool) (ls : List Line) (h : ∀ l ∈ ls, ¬ EndOfHeader JPL l) :
    fromTellusText JPL true ls = none := by
  unfold fromTellusText
  rw [(skipHeader_missing _ ls fun x hx => tellusMark_false _ _ (h x hx)).1]; rfl

/-! ## Concrete cases -/

/-- the numbers, each after a blank -/
def numberLine (ts : List Tok) : Line := ts.flatMap fun t => ' ' :: t.chars

theorem numberLine_stop (ts : List Tok) : Stop (numberLine ts) := by
  cases ts with
  | nil => exact Or.inl rfl
  | cons t r => exact Or.inr ⟨' ', t.chars ++ numberLine r, rfl, by decide⟩

theorem numberLine_lrow (ts : List Tok) : LRow (numberLine ts) ts := by
  induction ts with
  | nil => exact .nil
  | cons t r ih =>
    show LRow (' ' :: (t.chars ++ numberLine r)) (t :: r)
    exact .blank ' ' (by decide) (lrow_num _ _ t (numberLine_stop r) ih)

/-- `2002.5` -/
def date1 : Lit := ⟨.none, [2, 0, 0, 2], [5], none, by simp⟩
/-- `-1.5e-10` -/
def coef1 : Lit := ⟨.minus, [1], [5], some (false, .minus, 1, [0]), by simp⟩

example : date1.chars = "2002.5".toList ∧ coef1.chars = "-1.5e-10".toList := by decide

-- a label before a number, as in GRCOF2
example : LRow "GRCOF2 1".toList [.int .none 2 [] none, .int .none 1 [] none] := by
  have h : LRow " 1".toList [.int .none 1 [] none] :=
    .blank ' ' (by decide) (lrow_num [] [] (.int .none 1 [] none) (Or.inl rfl) .nil)
  exact LRow.num "GRCOF".toList (.int .none 2 [] none) (by decide) (Or.inr ⟨' ', ['1'], rfl, by decide⟩) h

-- a GravIS line: eleven numbers with decimal points
example : Row (coef1.chars) [coef1] ∧ upperProduct "PRODUCT: degree 1".toList = true := by
  refine ⟨?_, by decide⟩
  simpa using Row.num coef1 (Or.inl rfl) Row.nil

-- columns of a satellite laser ranging file
example : SlrCols ["time", "X", "Y", "Z", "X_sigma", "Y_sigma", "Z_sigma"]
    (.dec date1 :: List.replicate 6 (.dec coef1)) 2002.5 (-1.5e-10) (-1.5e-10) (-1.5e-10) (-1.5e-10) (-1.5e-10) (-1.5e-10) := by
  have ht : date1.val = 2002.5 := by decide +kernel
  have hc : coef1.val = -1.5e-10 := by decide +kernel
  constructor
  · exact ⟨0, rfl, by simp, by simp [Tok.val, ht]⟩
  · exact ⟨1, rfl, by decide, by simp [Tok.val, hc]⟩
  · exact ⟨2, rfl, by decide, by simp [Tok.val, hc]⟩
  · exact ⟨3, rfl, by decide, by simp [Tok.val, hc]⟩
  · exact ⟨4, rfl, by decide, by simp [Tok.val, hc]⟩
  · exact ⟨5, rfl, by decide, by simp [Tok.val, hc]⟩
  · exact ⟨6, rfl, by decide, by simp [Tok.val, hc]⟩
  · norm_num
  · norm_num

-- the first of July 2002 (181 days after the first of January) gets the month of June
example : julianMonth (2002 + 181 / 365) = some (2002, 6, 6) := by decide +kernel
example : julianMonth (2002 + 182 / 365) = some (2002, 7, 7) := by decide +kernel

-- a line of a dealiasing file
example : AodLine 2002 4 (isoText 2002 4 1 6 0 0 ++ numberLine [.dec coef1, .dec coef1, .dec date1])
    (coef1.val, coef1.val, date1.val) := by
  refine ⟨1, 6, 0, 0, .dec coef1, .dec coef1, .dec date1, by norm_num, by decide, by norm_num, by norm_num, by norm_num,
    ?_, rfl⟩
  have w : ∀ (x : Lit) (cs : List Char) (ws : List (List Char)), (∀ c ∈ x.chars, isSpace c = false) → x.chars ≠ [] →
      Stop cs → Words cs ws → Words (' ' :: (x.chars ++ cs)) (x.chars :: ws) :=
    fun x cs ws h1 h2 h3 h4 => .blank ' ' (by decide) (.word _ h2 h1 h3 h4)
  refine .word (isoText 2002 4 1 6 0 0) (by decide) (by decide) (numberLine_stop [.dec coef1, .dec coef1, .dec date1]) ?_
  refine w coef1 _ _ (by decide) (by decide) (numberLine_stop [.dec coef1, .dec date1])
    (w coef1 _ _ (by decide) (by decide) (numberLine_stop [.dec date1]) (w date1 _ _ (by decide) (by decide) (Or.inl rfl) .nil))

example : isoText 2002 4 1 6 0 0 = "2002-04-01T06:00:00".toList := by decide

-- a Swenson line with and one without the month
example : SwensonCols [.dec date1, .dec coef1, .dec coef1, .dec coef1, .int .none 7 [] none] ∧
    SwensonCols [.dec date1, .dec coef1, .dec coef1, .dec coef1] := by
  have ht : date1.val = 2002.5 := by decide +kernel
  refine ⟨⟨by simp, fun _ => ⟨.none, 7, [], rfl⟩, fun h => absurd rfl h⟩, by simp, fun h => absurd h (by simp), ?_⟩
  intro _ t h
  simp at h; subst h
  simp only [Tok.val, ht]; norm_num

-- a line of this package
example : Written ⟨2002.5, -1.5e-10, -1.5e-10, -1.5e-10, 7⟩
    "  2002.5 -1.5e-10 -1.5e-10 -1.5e-10 007".toList := by
  have ht : date1.val = 2002.5 := by decide +kernel
  have hc : coef1.val = -1.5e-10 := by decide +kernel
  exact ⟨2, 0, 0, 0, date1, coef1, coef1, coef1, .none, 0, [0, 7], by decide, by rw [ht]; norm_num, by rw [hc]; norm_num,
    by rw [hc]; norm_num, by rw [hc]; norm_num, by decide⟩

/-- `20020405.0000` and `20020430.0000` -/
def day1 : Lit := ⟨.none, [2, 0, 0, 2, 0, 4, 0, 5], [0, 0, 0, 0], none, by simp⟩
/-- `20020430.0000` -/
def day2 : Lit := ⟨.none, [2, 0, 0, 2, 0, 4, 3, 0], [0, 0, 0, 0], none, by simp⟩

-- two lines of a Tellus file
example : TellusPair true
    [.int .none 2 [] none, .int .none 1 [] none, .int .none 0 [] none, .dec coef1, .dec coef1, .dec coef1, .dec coef1, .dec day1, .dec day2]
    [.int .none 2 [] none, .int .none 1 [] none, .int .none 1 [] none, .dec coef1, .dec coef1, .dec coef1, .dec coef1, .dec day1, .dec day2] := by
  have hd : ∀ (o : Tok), ∃ t g, TellusDate true [.int .none 2 [] none, .int .none 1 [] none, o, .dec coef1, .dec coef1,
      .dec coef1, .dec coef1, .dec day1, .dec day2] t g := fun o =>
    ⟨_, _, 2002, 4, 5, 2002, 4, 30, _, _, rfl, rfl, by unfold IsDate; decide, by unfold IsDate; decide, by decide, by decide,
      rfl, rfl⟩
  exact ⟨⟨.none, 0, [], rfl, by decide⟩, ⟨.none, 1, [], rfl, by decide⟩, by simp, by simp, hd _, hd _⟩

example : EndOfHeader true "end of header ====".toList := ⟨' ', ' ', " ====".toList, by decide, by decide, by decide⟩

end Verif.GeoRead
