import Verif.GeoRead.Props3
import Mathlib.Tactic.IntervalCases

/-!
# Geocenter readers: exactly which dates, files and headers are accepted (C78)
-/
namespace Verif.GeoRead
open Verif.Time Verif.SLR Verif.GIA Verif.Geocenter

/-! ## GravIS -/

/-- **C78** with `HEADER=False` all lines are read: the result is that of the same lines after a header -/
theorem gravis_plain (header : List Line) (product : Line) (hh : ∀ l ∈ header, upperProduct l = false) (hp : upperProduct product = true)
    (ls : List Line) : fromGravis false ls = fromGravis true (header ++ product :: ls) := by
  unfold fromGravis
  rw [skipHeader_found upperProduct header product ls hh hp]
  rfl

example : fromGravis false [] = some [] ∧ fromGravis true [] = none := ⟨rfl, rfl⟩

/-! ## Dates -/

/-- a number of one or two digits within limits -/
def Numeral (lo hi : ℕ) (t : List Char) (n : ℕ) : Prop :=
  (t.length = 1 ∨ t.length = 2) ∧ (∀ c ∈ t, c.isDigit = true) ∧ digitsVal t = n ∧ lo ≤ n ∧ n ≤ hi

/-- four digits -/
def Year (t : List Char) (y : ℕ) : Prop := t.length = 4 ∧ (∀ c ∈ t, c.isDigit = true) ∧ digitsVal t = y

theorem field_iff (lo hi : ℕ) (cs : List Char) (n : ℕ) (r : List Char) :
    field lo hi cs = some (n, r) ↔ ∃ t, cs = t ++ r ∧ Numeral lo hi t n ∧ ∀ c ∈ r.head?, c.isDigit = false := by
  unfold field
  simp only
  constructor
  · intro h
    split_ifs at h with hc
    simp only [Option.some.injEq, Prod.mk.injEq] at h
    obtain ⟨rfl, rfl⟩ := h
    refine ⟨cs.takeWhile Char.isDigit, (List.takeWhile_append_dropWhile).symm, ⟨hc.1, fun c hcm => ?_, rfl, hc.2.1, hc.2.2⟩, ?_⟩
    · exact List.all_eq_true.1 List.all_takeWhile c hcm
    · intro c hcm
      have := List.head?_dropWhile_not Char.isDigit cs
      rw [Option.mem_def] at hcm
      rw [hcm] at this
      simpa using this
  · rintro ⟨t, rfl, ⟨h1, h2, h3, h4, h5⟩, hr⟩
    have e1 : (t ++ r).takeWhile Char.isDigit = t := by
      rw [List.takeWhile_append_of_pos h2]
      cases r with
      | nil => simp
      | cons c r => simp [hr c (by simp)]
    have e2 : (t ++ r).dropWhile Char.isDigit = r := by
      rw [List.dropWhile_append_of_pos h2]
      cases r with
      | nil => simp
      | cons c r => simp [hr c (by simp)]
    rw [e1, e2, h3, if_pos ⟨h1, h4, h5⟩]

theorem year4_iff (cs : List Char) (y : ℕ) (r : List Char) : year4 cs = some (y, r) ↔ ∃ t, cs = t ++ r ∧ Year t y := by
  unfold year4
  simp only
  constructor
  · intro h
    split_ifs at h with hc
    simp only [Option.some.injEq, Prod.mk.injEq] at h
    obtain ⟨rfl, rfl⟩ := h
    exact ⟨cs.take 4, (List.take_append_drop 4 cs).symm, hc.1, List.all_eq_true.1 hc.2, rfl⟩
  · rintro ⟨t, rfl, h1, h2, h3⟩
    rw [List.take_left' h1, List.drop_left' h1, if_pos ⟨h1, List.all_eq_true.2 h2⟩, h3]

theorem eat_iff (c : Char) (cs r : List Char) : eat c cs = some r ↔ cs = c :: r := by
  cases cs with
  | nil => simp [eat]
  | cons d l =>
    simp only [eat, Option.ite_none_right_eq_some, Option.some.injEq, List.cons.injEq]

/-- **C78** the dates of dealiasing files: year, month and day of a real date and a time of day, nothing before or after them; month,
day, hour, minute and second may have one digit; up to two leap seconds -/
theorem isoDate_iff (cs : List Char) (y m : ℕ) : isoDate cs = some (y, m) ↔
    ∃ Y M D H MI S d h mi s, cs = Y ++ '-' :: (M ++ '-' :: (D ++ 'T' :: (H ++ ':' :: (MI ++ ':' :: S)))) ∧ Year Y y ∧ 1 ≤ y ∧ Numeral 1 12 M m ∧
      Numeral 1 31 D d ∧ d ≤ monthDays y m ∧ Numeral 0 23 H h ∧ Numeral 0 59 MI mi ∧ Numeral 0 61 S s := by
  unfold isoDate
  simp only [Option.bind_eq_bind, Option.bind_eq_some_iff, Prod.exists, year4_iff, eat_iff, field_iff, Option.ite_none_right_eq_some,
    Option.some.injEq, Prod.mk.injEq]
  constructor
  · rintro ⟨y', r1, ⟨Y, rfl, hY⟩, r2, rfl, m', r3, ⟨M, rfl, hM, -⟩, r4, rfl, d, r5, ⟨D, rfl, hD, -⟩, r6, rfl, h, r7, ⟨H, rfl, hH, -⟩, r8, rfl,
      mi, r9, ⟨MI, rfl, hMI, -⟩, r10, rfl, s, r11, ⟨S, rfl, hS, -⟩, ⟨rfl, h1, h2⟩, rfl, rfl⟩
    exact ⟨Y, M, D, H, MI, S, d, h, mi, s, by simp, hY, h1, hM, hD, h2, hH, hMI, hS⟩
  · rintro ⟨Y, M, D, H, MI, S, d, h, mi, s, rfl, hY, h1, hM, hD, h2, hH, hMI, hS⟩
    have nd : ∀ (c : Char) (r : List Char), c.isDigit = false → ∀ x ∈ (c :: r).head?, x.isDigit = false := by
      intro c r hc x hx; simp at hx; rw [← hx]; exact hc
    exact ⟨y, _, ⟨Y, rfl, hY⟩, _, rfl, m, _, ⟨M, rfl, hM, nd _ _ (by decide)⟩, _, rfl, d, _, ⟨D, rfl, hD, nd _ _ (by decide)⟩, _, rfl, h, _,
      ⟨H, rfl, hH, nd _ _ (by decide)⟩, _, rfl, mi, _, ⟨MI, rfl, hMI, nd _ _ (by decide)⟩, _, rfl, s, [], ⟨S, by simp, hS, by simp⟩, ⟨rfl, h1, h2⟩, rfl, rfl⟩

example : isoDate "2002-4-1T6:00:00".toList = some (2002, 4) ∧ isoDate "2002-02-29T06:00:00".toList = none ∧
    isoDate "2002-04-01T06:00:00Z".toList = none := by decide +kernel

theorem digitsVal_one (a : Char) : digitsVal [a] = digit a := by simp [digitsVal]

theorem mem_altMonth (cs : List Char) (m : ℕ) (r : List Char) : (m, r) ∈ altMonth cs → ∃ t, cs = t ++ r ∧ Numeral 1 12 t m ∨
    ∃ a, a.isDigit = true ∧ cs = a :: r ∧ m = digit a ∧ 1 ≤ m := by
  intro h
  unfold altMonth at h
  rcases List.mem_append.1 h with h | h
  · rcases cs with _ | ⟨a, _ | ⟨b, l⟩⟩
    · simp at h
    · simp at h
    · simp only at h
      split_ifs at h with hc
      · rw [List.mem_singleton] at h
        cases h
        exact ⟨[a, b], Or.inl ⟨rfl, Or.inr rfl, by simp [hc.1, hc.2.1], rfl, hc.2.2.1, hc.2.2.2⟩⟩
      · simp at h
  · rcases cs with _ | ⟨a, l⟩
    · simp at h
    · simp only at h
      split_ifs at h with hc
      · rw [List.mem_singleton] at h
        cases h
        exact ⟨[a], Or.inr ⟨a, hc.1, rfl, rfl, hc.2⟩⟩
      · simp at h

theorem digit_le (a : Char) (h : a.isDigit = true) : digit a ≤ 9 := by
  unfold digit
  have : a.toNat ≤ 57 := by
    simp only [Char.isDigit, Bool.and_eq_true, decide_eq_true_eq] at h
    exact h.2
  have h0 : '0'.toNat = 48 := rfl
  omega

theorem altMonth_numeral (cs : List Char) (m : ℕ) (r : List Char) (h : (m, r) ∈ altMonth cs) : ∃ t, cs = t ++ r ∧ Numeral 1 12 t m := by
  obtain ⟨t, h | ⟨a, h1, h2, h3, h4⟩⟩ := mem_altMonth cs m r h
  · exact ⟨t, h⟩
  · have := digit_le a h1
    exact ⟨[a], by simp [h2], Or.inl rfl, by simp [h1], by rw [digitsVal_one, h3], h4, by omega⟩

theorem altDay_numeral (cs : List Char) (m : ℕ) (r : List Char) (h : (m, r) ∈ altDay cs) : ∃ t, cs = t ++ r ∧ Numeral 1 31 t m := by
  unfold altDay at h
  rcases List.mem_append.1 h with h | h
  · rcases cs with _ | ⟨a, _ | ⟨b, l⟩⟩
    · simp at h
    · simp at h
    · simp only at h
      split_ifs at h with hc
      · rw [List.mem_singleton] at h
        cases h
        exact ⟨[a, b], rfl, Or.inr rfl, by simp [hc.1, hc.2.1], rfl, hc.2.2.1, hc.2.2.2⟩
      · simp at h
  · rcases cs with _ | ⟨a, l⟩
    · simp at h
    · simp only at h
      split_ifs at h with hc
      · rw [List.mem_singleton] at h
        cases h
        have := digit_le a hc.1
        exact ⟨[a], rfl, Or.inl rfl, by simp [hc.1], digitsVal_one a, hc.2, by omega⟩
      · simp at h

/-- **C78** days in Tellus files that are accepted are real dates: year, month and day, and nothing else -/
theorem ymd_valid (cs : List Char) (y m d : ℕ) (h : ymd cs = some (y, m, d)) :
    ∃ Y M D, cs = Y ++ M ++ D ∧ Year Y y ∧ 1 ≤ y ∧ Numeral 1 12 M m ∧ Numeral 1 31 D d ∧ d ≤ monthDays y m := by
  unfold ymd at h
  simp only [Option.bind_eq_bind, Option.bind_eq_some_iff, Prod.exists, year4_iff, Option.ite_none_right_eq_some,
    Option.some.injEq, Prod.mk.injEq] at h
  obtain ⟨y', r1, ⟨Y, rfl, hY⟩, m', d', r2, h2, ⟨rfl, h3, h4⟩, rfl, rfl, rfl⟩ := h
  have hm := List.mem_of_head? h2
  obtain ⟨p, hp, hq⟩ := List.mem_flatMap.1 hm
  obtain ⟨q, hqd, he⟩ := List.mem_map.1 hq
  simp only [Prod.mk.injEq] at he
  obtain ⟨rfl, rfl, he⟩ := he
  obtain ⟨M, hM, hM'⟩ := altMonth_numeral r1 p.1 p.2 hp
  obtain ⟨D, hD, hD'⟩ := altDay_numeral p.2 q.1 q.2 hqd
  rw [he, List.append_nil] at hD
  exact ⟨Y, M, D, by rw [hM, hD, List.append_assoc], hY, h3, hM', hD', h4⟩

/-- **C78** months in Tellus files: year and month, of one or two digits -/
theorem ym_iff (cs : List Char) (y m : ℕ) : ym cs = some (y, m) ↔ ∃ Y M, cs = Y ++ M ∧ Year Y y ∧ 1 ≤ y ∧ Numeral 1 12 M m := by
  constructor
  · intro h
    unfold ym at h
    simp only [Option.bind_eq_bind, Option.bind_eq_some_iff, Prod.exists, year4_iff, Option.ite_none_right_eq_some,
      Option.some.injEq, Prod.mk.injEq] at h
    obtain ⟨y', r1, ⟨Y, rfl, hY⟩, m', r2, h2, ⟨rfl, h3⟩, rfl, rfl⟩ := h
    obtain ⟨M, hM, hM'⟩ := altMonth_numeral r1 _ _ (List.mem_of_head? h2)
    rw [List.append_nil] at hM
    exact ⟨Y, M, by rw [hM], hY, h3, hM'⟩
  · rintro ⟨Y, M, rfl, hY, h1, h2, h3, h4, h5, h6⟩
    have e : year4 (Y ++ M) = some (y, M) := (year4_iff _ _ _).2 ⟨Y, rfl, hY⟩
    have ha : (altMonth M).head? = some (m, []) := by
      unfold altMonth
      rcases M with _ | ⟨a, _ | ⟨b, _ | ⟨c, l⟩⟩⟩
      · simp at h2
      · rw [digitsVal_one] at h4
        simp [h3 a (by simp), h4, h5]
      · simp only
        rw [h4, if_pos ⟨h3 a (by simp), h3 b (by simp), h5, h6⟩]
        rfl
      · simp at h2
    unfold ym
    simp only [Option.bind_eq_bind, e, Option.bind_some, ha]
    simp [h1]

example : ym "20021".toList = some (2002, 1) ∧ ymd "20020229".toList = none ∧ ymd "20020228".toList = some (2002, 2, 28) := by decide +kernel

/-! ## Dealiasing -/

/-- **C78** a dealiasing file without data lines: the mean of nothing is not a number, and so are the coefficients of the month -/
theorem aod_empty (disk : Disk) (release : List Char) (yy mm : ℕ) (als : List Line)
    (hf : disk.file release (aodReadName release "glo".toList yy mm) = some als) (he : ∀ l ∈ als, l.head? = some '#') (a : ℝ × ℝ × ℝ) :
    (aodMean disk release yy mm).map (subtract a) = some none := by
  have h0 : als.filter (fun l => !comment l) = [] := by
    rw [List.filter_eq_nil_iff]
    intro l hl
    simp [comment, he l hl]
  have h1 : fromAOD1B yy mm als = some [] := by
    unfold fromAOD1B
    rw [h0]
    simp [fromCartesian, mustBlock]
  unfold aodMean
  simp only [Int.toNat_natCast, hf, Option.bind_eq_bind, Option.bind_some, h1]
  simp [meanTriple, subtract]

theorem toDigits_two (m : ℕ) (h : m < 100) : two m = pad2 m := by interval_cases m <;> decide +kernel

/-- **C78** the names of the files for years of four digits -/
theorem aod_name_text (release product : List Char) (y m : ℕ) (hy : 1000 ≤ y) (hy2 : y < 10000) (hm : m < 100) :
    aodReadName release product y m = "AOD1B_".toList ++ release ++ " ".toList ++ product ++ "_".toList ++ pad4 y ++ "_".toList ++ pad2 m ++
      ".txt".toList ∧
    aodWriteName release product y m = "AOD1B_".toList ++ release ++ "_".toList ++ product ++ "_".toList ++ pad4 y ++ "_".toList ++ pad2 m ++
      ".txt".toList := by
  have hd : Nat.toDigits 10 y = pad4 y := by
    have dc : ∀ k : ℕ, k < 10 → Nat.digitChar k = dchar (Fin.ofNat 10 k) := by decide
    have dm : ∀ k : ℕ, dchar (Fin.ofNat 10 k) = dchar (Fin.ofNat 10 (k % 10)) := by
      intro k; congr 1; apply Fin.ext; simp [Fin.ofNat]
    rw [Nat.toDigits_of_base_le (by omega) (by omega), Nat.toDigits_of_base_le (by omega) (by omega), Nat.toDigits_of_base_le (by omega) (by omega),
      Nat.toDigits_of_lt_base (by omega)]
    unfold pad4
    rw [dc _ (by omega), dc _ (by omega), dc _ (by omega), dc _ (by omega), dm (y / 10), dm y, dm (y / 100), dm (y / 1000)]
    have e1 : y / 10 / 10 = y / 100 := by omega
    have e2 : y / 100 / 10 = y / 1000 := by omega
    have e3 : y / 1000 % 10 = y / 1000 := by omega
    simp [e1, e2, e3]
  unfold aodReadName aodWriteName
  rw [toDigits_two m hm, hd]
  constructor <;> simp

/-! ## UCI -/

/-- **C78** without a date or without a month among the variables the file is refused -/
theorem uci_missing (yaml : List Line → Option (List (String × List Char))) (header : List Line) (mark : Line) (body : List Line)
    (hh : ∀ l ∈ header, ¬ ContainsText "# End of YAML header" l) (hm : ContainsText "# End of YAML header" mark)
    (vars : List (String × List Char)) (hy : yaml (header ++ [mark]) = some vars)
    (hv : "mid-epoch_time" ∉ vars.map Prod.fst ∨ "month" ∉ vars.map Prod.fst) : fromUCI yaml (header ++ mark :: body) = none := by
  unfold fromUCI
  rw [skipHeader_found _ header mark _ (fun x hx => hasText_false _ _ (hh x hx)) ((hasText_iff _ _).2 hm)]
  have htake : (header ++ mark :: body).take ((header ++ mark :: body).length - body.length) = header ++ [mark] := by
    have : (header ++ mark :: body).length - body.length = (header ++ [mark]).length := by simp; omega
    rw [this, show header ++ mark :: body = (header ++ [mark]) ++ body by simp, List.take_left]
  simp only [Option.bind_eq_bind, Option.bind_some]
  rw [htake, hy]
  simp only [Option.bind_some]
  rw [if_neg (by rintro ⟨h1, h2⟩; exact hv.elim (· h1) (· h2))]

/-- the attributes of a geocenter object that hold numbers of a file -/
def Attribute (v : String) : Prop :=
  v = "C10" ∨ v = "C11" ∨ v = "S11" ∨ v = "eC10" ∨ v = "eC11" ∨ v = "eS11" ∨ v = "X" ∨ v = "Y" ∨ v = "Z" ∨ v = "X_sigma" ∨ v = "Y_sigma" ∨ v = "Z_sigma"

/-- **C78** each variable of the file that is an attribute of geocenter objects is set, from its column; other variables are not kept -/
theorem uci_attributes (columns : List (String × ℤ)) (l : Line) (u : UEntry) (h : uciLine columns l = some u) :
    (∀ v : String, (∃ x, (v, x) ∈ u.data) ↔ Attribute v ∧ v ∈ columns.map Prod.fst) ∧
    ∀ v x, (v, x) ∈ u.data → ∃ k, (v, k) ∈ columns ∧ (pyIdx (rxAll l) k).bind pyFloat = some x := by
  unfold uciLine at h
  simp only [Option.bind_eq_bind, Option.bind_eq_some_iff, Option.some.injEq] at h
  obtain ⟨t, -, g, -, j, -, data, hd, rfl⟩ := h
  have hall : List.Forall₂ (fun (c : String × ℤ) (p : String × ℚ) => p.1 = c.1 ∧ (pyIdx (rxAll l) c.2).bind pyFloat = some p.2) columns data := by
    induction columns generalizing data with
    | nil => simp at hd; subst hd; exact .nil
    | cons c r ih =>
      rw [List.mapM_cons] at hd
      simp only [Option.bind_eq_bind, Option.bind_eq_some_iff, Option.map_eq_some_iff, Option.pure_def, Option.some.injEq] at hd
      obtain ⟨p, ⟨x, hx, rfl⟩, rest, hrest, rfl⟩ := hd
      exact .cons ⟨rfl, Option.bind_eq_some_iff.2 hx⟩ (ih rest hrest)
  have hfields : ∀ v, v ∈ fields ↔ Attribute v := by
    intro v; simp [fields, Attribute]
  have back : ∀ p ∈ data, ∃ c ∈ columns, p.1 = c.1 ∧ (pyIdx (rxAll l) c.2).bind pyFloat = some p.2 := by
    intro p hp
    clear hd
    induction hall with
    | nil => simp at hp
    | @cons a b la lb h1 _ ih =>
      rcases List.mem_cons.1 hp with rfl | hp
      · exact ⟨a, by simp, h1⟩
      · obtain ⟨c, hc, h⟩ := ih hp
        exact ⟨c, by simp [hc], h⟩
  have forth : ∀ c ∈ columns, ∃ p ∈ data, p.1 = c.1 := by
    intro c hc
    clear hd back
    induction hall with
    | nil => simp at hc
    | @cons a b la lb h1 _ ih =>
      rcases List.mem_cons.1 hc with rfl | hc
      · exact ⟨b, by simp, h1.1⟩
      · obtain ⟨p, hp, h⟩ := ih hc
        exact ⟨p, by simp [hp], h⟩
  constructor
  · intro v
    constructor
    · rintro ⟨x, hx⟩
      obtain ⟨h1, h2⟩ := List.mem_filter.1 hx
      obtain ⟨c, hc, e, -⟩ := back _ h1
      exact ⟨(hfields v).1 (by simpa using h2), List.mem_map.2 ⟨c, hc, e.symm⟩⟩
    · rintro ⟨h1, h2⟩
      obtain ⟨c, hc, rfl⟩ := List.mem_map.1 h2
      obtain ⟨p, hp, e⟩ := forth c hc
      exact ⟨p.2, List.mem_filter.2 ⟨by rw [← e]; exact hp, by simpa using (hfields _).2 h1⟩⟩
  · intro v x hx
    obtain ⟨c, hc, e, he⟩ := back _ (List.mem_filter.1 hx).1
    exact ⟨c.2, by simp only at e; rw [e]; exact hc, he⟩


example : (uciLine [("C10", 1), ("quality", 2)] "2002.5 1.5 2.0 007".toList).map (fun u => (u.month, u.data)) = some (7, [("C10", 3 / 2)]) := by
  decide +kernel

end Verif.GeoRead
