import Verif.GeoRead.Model
import Verif.SLR.Props

/-!
# Lines with labels, dates as text: specification and lemmas for the geocenter readers
-/
namespace Verif.GeoRead
open Verif.Time Verif.Time.Spec Verif.SLR Verif.GIA

/-! ## Specification -/

/-- `LRow cs ts`: the line consists of blanks, of words without digits, and of the numbers `ts`, each of which may be
preceded by a label such as `GRCOF` in `GRCOF2` -/
inductive LRow : List Char → List Tok → Prop
  | nil : LRow [] []
  | blank {cs ts} (c : Char) : isSpace c = true → LRow cs ts → LRow (c :: cs) ts
  | word {cs ts} (w : List Char) : (∀ c ∈ w, c.isDigit = false ∧ isSpace c = false) → Stop cs → LRow cs ts →
      LRow (w ++ cs) ts
  | num {cs ts} (w : List Char) (t : Tok) :
      (∀ c ∈ w, c.isDigit = false ∧ isSpace c = false ∧ c ≠ '+' ∧ c ≠ '-' ∧ c ≠ '.') → Stop cs → LRow cs ts →
      LRow (w ++ (t.chars ++ cs)) (t :: ts)

/-- two digits of a number below 100 -/
def pad2 (n : ℕ) : List Char := [dchar (Fin.ofNat 10 (n / 10)), dchar (Fin.ofNat 10 n)]

/-- four digits of a number below 10000 -/
def pad4 (n : ℕ) : List Char :=
  [dchar (Fin.ofNat 10 (n / 1000)), dchar (Fin.ofNat 10 (n / 100)), dchar (Fin.ofNat 10 (n / 10)), dchar (Fin.ofNat 10 n)]

/-- `2002-04-01T06:00:00` -/
def isoText (y m d h mi s : ℕ) : List Char :=
  pad4 y ++ '-' :: (pad2 m ++ '-' :: (pad2 d ++ 'T' :: (pad2 h ++ ':' :: (pad2 mi ++ ':' :: pad2 s))))

/-! ## Numbers -/

theorem rxAt_letter (c : Char) (r : List Char) (h1 : c.isDigit = false) (h2 : c ≠ '+') (h3 : c ≠ '-') (h4 : c ≠ '.') :
    rxAt (c :: r) = none := by
  unfold rxAt
  simp [optSign, h1, h2, h3, h4]

theorem rxNums_label (w cs : List Char)
    (hw : ∀ c ∈ w, c.isDigit = false ∧ isSpace c = false ∧ c ≠ '+' ∧ c ≠ '-' ∧ c ≠ '.') (n : ℕ) :
    rxNums (w.length + n) (w ++ cs) = rxNums n cs := by
  induction w with
  | nil => simp
  | cons c t ih =>
    have hc := hw c (by simp)
    rw [List.length_cons, show t.length + 1 + n = (t.length + n) + 1 from by omega, List.cons_append, rxNums,
      rxAt_letter c _ hc.1 hc.2.2.1 hc.2.2.2.1 hc.2.2.2.2]
    exact ih fun a ha => hw a (by simp [ha])

theorem tok_ne_nil (x : Tok) : x.chars ≠ [] := by
  cases x with
  | dec x => simp [Tok.chars, Lit.chars]
  | int s d ds ex => simp [Tok.chars, intChars]

theorem rxNums_lrow (cs : List Char) (ts : List Tok) (h : LRow cs ts) :
    ∀ n, cs.length ≤ n → rxNums n cs = ts.map Tok.chars := by
  induction h with
  | nil => intro n _; cases n <;> rfl
  | @blank cs xs c hc _ ih =>
    intro n hn
    obtain ⟨k, rfl⟩ : ∃ k, n = k + 1 := ⟨n - 1, by simp at hn; omega⟩
    rw [rxNums]
    have hf := space_facts c hc
    rw [rxAt_letter c cs hf.1 hf.2.2.1 hf.2.2.2.1 hf.2.1]
    exact ih k (by simpa using hn)
  | @word cs xs w hw hs _ ih =>
    intro n hn
    rw [List.length_append] at hn
    obtain ⟨k, rfl⟩ : ∃ k, n = w.length + k := ⟨n - w.length, by omega⟩
    rw [rxNums_word w cs (fun a ha => (hw a ha).1) hs]
    exact ih k (by omega)
  | @num cs xs w x hw hs _ ih =>
    intro n hn
    rw [List.length_append, List.length_append] at hn
    obtain ⟨k, rfl⟩ : ∃ k, n = w.length + k := ⟨n - w.length, by omega⟩
    rw [rxNums_label w _ hw]
    obtain ⟨c, t, hc⟩ := List.exists_cons_of_ne_nil (tok_ne_nil x)
    have hl : x.chars.length = t.length + 1 := by rw [hc]; rfl
    obtain ⟨j, rfl⟩ : ∃ j, k = j + 1 := ⟨k - 1, by omega⟩
    have e := rxAt_tok x cs hs
    rw [hc, List.cons_append] at e ⊢
    rw [rxNums, e]
    dsimp only
    rw [ih j (by omega), List.map_cons, hc]

/-- exactly the numbers of the line are found, in order -/
theorem rxAll_lrow (cs : List Char) (ts : List Tok) (h : LRow cs ts) : rxAll cs = ts.map Tok.chars :=
  rxNums_lrow cs ts h _ le_rfl

theorem rxCol_lrow (l : Line) (ts : List Tok) (h : LRow l ts) (k : ℕ) : rxCol l k = ts[k]?.map Tok.val := by
  unfold rxCol
  rw [rxAll_lrow l ts h, List.getElem?_map]
  cases ts[k]? with
  | none => rfl
  | some t => simp [pyFloat_tok]

/-! ## Dates -/

theorem dchar_ofNat (n : ℕ) : (dchar (Fin.ofNat 10 n)).isDigit = true ∧ digit (dchar (Fin.ofNat 10 n)) = n % 10 :=
  ⟨dchar_isDigit _, by rw [dchar_digit]; rfl⟩

theorem pad2_val (n : ℕ) (h : n < 100) : digitsVal (pad2 n) = n := by
  unfold digitsVal pad2
  simp only [List.foldl_cons, List.foldl_nil, (dchar_ofNat _).2]
  omega

theorem pad4_val (n : ℕ) (h : n < 10000) : digitsVal (pad4 n) = n := by
  unfold digitsVal pad4
  simp only [List.foldl_cons, List.foldl_nil, (dchar_ofNat _).2]
  omega

theorem pad2_digits (n : ℕ) (r : List Char) (hr : ∀ c ∈ r.head?, c.isDigit = false) :
    (pad2 n ++ r).takeWhile Char.isDigit = pad2 n ∧ (pad2 n ++ r).dropWhile Char.isDigit = r :=
  takeDigits [_, _] r hr

theorem field_pad2 (lo hi n : ℕ) (r : List Char) (h : lo ≤ n) (h2 : n ≤ hi) (h3 : hi < 100)
    (hr : ∀ c ∈ r.head?, c.isDigit = false) : field lo hi (pad2 n ++ r) = some (n, r) := by
  obtain ⟨e1, e2⟩ := pad2_digits n r hr
  have hl : (pad2 n).length = 2 := rfl
  unfold field
  simp only [e1, e2, pad2_val n (by omega), hl]
  simp [h, h2]

theorem year4_pad4 (n : ℕ) (r : List Char) (h : n < 10000) : year4 (pad4 n ++ r) = some (n, r) := by
  have e1 : (pad4 n ++ r).take 4 = pad4 n := rfl
  have e2 : (pad4 n ++ r).drop 4 = r := rfl
  have e3 : (pad4 n).length = 4 := rfl
  have e4 : (pad4 n).all Char.isDigit = true := by simp [pad4, dchar_isDigit]
  unfold year4
  simp only [e1, e2, e3, e4, pad4_val n h]
  simp

theorem monthDays_le (y m : ℕ) : monthDays y m ≤ 31 := by
  unfold monthDays; split_ifs <;> omega

/-- **C78** a date and time of the calendar is recognised -/
theorem isoDate_text (y m d h mi s : ℕ) (hy : 1 ≤ y) (hy2 : y < 10000) (hm : 1 ≤ m) (hm2 : m ≤ 12) (hd : 1 ≤ d)
    (hd2 : d ≤ monthDays y m) (hh : h ≤ 23) (hmi : mi ≤ 59) (hs : s ≤ 59) :
    isoDate (isoText y m d h mi s) = some (y, m) := by
  have hd31 := monthDays_le y m
  have nd : ∀ (x : Char) (r : List Char), x.isDigit = false → ∀ c ∈ (x :: r).head?, c.isDigit = false := by
    intro x r hx c hc; simp at hc; rw [← hc]; exact hx
  unfold isoDate isoText
  rw [year4_pad4 y _ hy2]
  simp only [Option.bind_eq_bind, Option.bind_some, eat, if_true]
  rw [field_pad2 1 12 m _ hm hm2 (by norm_num) (nd _ _ (by decide))]
  simp only [Option.bind_some, if_true]
  rw [field_pad2 1 31 d _ hd (by omega) (by norm_num) (nd _ _ (by decide))]
  simp only [Option.bind_some, if_true]
  rw [field_pad2 0 23 h _ (by omega) hh (by norm_num) (nd _ _ (by decide))]
  simp only [Option.bind_some, if_true]
  rw [field_pad2 0 59 mi _ (by omega) hmi (by norm_num) (nd _ _ (by decide))]
  simp only [Option.bind_some, if_true]
  have := field_pad2 0 61 s [] (by omega) (by omega) (by norm_num) (by simp)
  rw [List.append_nil] at this
  rw [this]
  simp [hy, hd2]

theorem altMonth_pad2 (m : ℕ) (r : List Char) (h1 : 1 ≤ m) (h2 : m ≤ 12) : (altMonth (pad2 m ++ r)).head? = some (m, r) := by
  have hv := pad2_val m (by omega)
  unfold pad2 at hv ⊢
  simp only [List.cons_append, List.nil_append, altMonth, hv]
  rw [if_pos ⟨dchar_isDigit _, dchar_isDigit _, h1, h2⟩]
  rfl

theorem altDay_pad2 (d : ℕ) (r : List Char) (h1 : 1 ≤ d) (h2 : d ≤ 31) : (altDay (pad2 d ++ r)).head? = some (d, r) := by
  have hv := pad2_val d (by omega)
  unfold pad2 at hv ⊢
  simp only [List.cons_append, List.nil_append, altDay, hv]
  rw [if_pos ⟨dchar_isDigit _, dchar_isDigit _, h1, h2⟩]
  rfl

theorem head_flatMap {A B : Type} (l : List A) (f : A → List B) (a : A) (b : B) (h1 : l.head? = some a)
    (h2 : (f a).head? = some b) : (l.flatMap f).head? = some b := by
  cases l with
  | nil => simp at h1
  | cons x t =>
    simp at h1; subst h1
    rw [List.flatMap_cons, List.head?_append, h2]; rfl

/-- **C78** the eight digits of a date are recognised -/
theorem ymd_text (y m d : ℕ) (hy : 1 ≤ y) (hy2 : y < 10000) (hm : 1 ≤ m) (hm2 : m ≤ 12) (hd : 1 ≤ d)
    (hd2 : d ≤ monthDays y m) : ymd (pad4 y ++ (pad2 m ++ pad2 d)) = some (y, m, d) := by
  have hd31 := monthDays_le y m
  unfold ymd
  rw [year4_pad4 y _ hy2]
  simp only [Option.bind_eq_bind, Option.bind_some]
  rw [head_flatMap _ _ (m, pad2 d) (m, d, []) (altMonth_pad2 m _ hm hm2) (by
    have := altDay_pad2 d [] hd (by omega)
    rw [List.append_nil] at this
    rw [List.head?_map, this]; rfl)]
  simp [hy, hd2]

/-- the six digits of a month are recognised -/
theorem ym_text (y m : ℕ) (hy : 1 ≤ y) (hy2 : y < 10000) (hm : 1 ≤ m) (hm2 : m ≤ 12) :
    ym (pad4 y ++ pad2 m) = some (y, m) := by
  unfold ym
  rw [year4_pad4 y _ hy2]
  simp only [Option.bind_eq_bind, Option.bind_some]
  have := altMonth_pad2 m [] hm hm2
  rw [List.append_nil] at this
  rw [this]
  simp [hy]

/-- **C78** month of a decimal year by way of the Julian date: the calendar month of the day *before* -/
theorem julianMonth_spec (t : ℚ) (h4 : ⌊t⌋ % 4000 ≠ 0) (hg : -100839 ≤ dayNumber ⌊t⌋ 1 1) :
    ∃ y m d, Valid y m d ∧
      dayNumber y m d = dayNumber ⌊t⌋ 1 1 + ⌊(t - ⌊t⌋) * yearLen ⌊t⌋⌋ - 1 ∧
      julianMonth t = some (y, m, 12 * (y - 2002) + m) := by
  have hf0 : (0 : ℚ) ≤ t - ⌊t⌋ := by have := Int.floor_le t; linarith
  have hf1 : t - ⌊t⌋ < 1 := by have := Int.lt_floor_add_one t; linarith
  have hL : (0 : ℚ) < yearLen ⌊t⌋ := by unfold yearLen; split_ifs <;> norm_num
  have hJ := calendarToJulian_one_day_early ⌊t⌋ (t - ⌊t⌋) hf0 hf1 h4
  rw [add_sub_cancel] at hJ
  set J : ℚ := dayNumber ⌊t⌋ 1 1 + 2400000.5 + (t - ⌊t⌋) * yearLen ⌊t⌋ - 1 with hJd
  have hge : (2299160.5 : ℚ) ≤ J := by
    have q : (-100839 : ℚ) ≤ dayNumber ⌊t⌋ 1 1 := by exact_mod_cast hg
    have : 0 ≤ (t - ⌊t⌋) * yearLen ⌊t⌋ := by positivity
    rw [hJd]
    have e : (2299160.5 : ℚ) = -100839 + 2400000.5 - 1 := by norm_num
    rw [e]; linarith
  obtain ⟨hv, hd⟩ := convertJulian_right_inverse J hge
  obtain ⟨-, -, -, -, a1, a2, a3, a4, a5, a6, hs⟩ := convertJulian_ranges J
  refine ⟨_, _, _, hv, ?_, ?_⟩
  · rw [hs] at hd
    have e1 : (dayNumber (convertJulian J).year (convertJulian J).month (convertJulian J).day : ℚ) =
        ⌊J + 0.5⌋ - 2400001 := by
      have e : (2400001 : ℚ) = 2400000.5 + 0.5 := by norm_num
      rw [e]; linarith
    have e2 : dayNumber (convertJulian J).year (convertJulian J).month (convertJulian J).day = ⌊J + 0.5⌋ - 2400001 := by
      have := e1
      exact_mod_cast this
    rw [e2]
    have e3 : J + 0.5 = ((dayNumber ⌊t⌋ 1 1 + 2400000 : ℤ) : ℚ) + (t - ⌊t⌋) * yearLen ⌊t⌋ := by
      rw [hJd]; push_cast; norm_num; ring
    rw [e3, Int.floor_intCast_add]
    ring
  · unfold julianMonth
    rw [hJ]
    simp only [Option.bind_eq_bind, Option.bind_some, Option.some.injEq, Prod.mk.injEq, true_and]
    unfold calendarToGrace
    have : (12 * (((convertJulian J).year : ℚ) - 2002)) = ((12 * ((convertJulian J).year - 2002) : ℤ) : ℚ) := by
      push_cast; ring
    rw [this, Int.floor_intCast]

end Verif.GeoRead
