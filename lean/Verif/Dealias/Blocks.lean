import Verif.Dealias.Archive

/-!
# Text of a daily AOD1B file (C86)
-/
namespace Verif.Dealias
open Verif.Names Verif.Time Verif.SLR Verif.GIA Verif.SpatialIO

/-! ## Specification -/

/-- the line begins with `DATA`, and after it come `SET` and the name of the product -/
def Headed (prod : Name) (line : Line) : Prop :=
  ∃ a b c, line = "DATA".toList ++ a ++ "SET".toList ++ b ++ prod ++ c

/-- the line has one time of the day `hh:mm:ss`: before it a blank and no colon followed by a digit, after it no colon and
no further digit of the seconds -/
def Clock (line : Line) (h : ℕ) : Prop :=
  ∃ u hh mm ss v, line = u ++ ' ' :: (hh ++ ':' :: (mm ++ ':' :: (ss ++ v))) ∧ IsDigits hh ∧ IsDigits mm ∧ IsDigits ss ∧
    digitsVal hh = h ∧ (∀ p q, u = p ++ ':' :: q → ∀ c ∈ q.head?, c.isDigit = false) ∧ ':' ∉ v ∧
    ∀ c ∈ v.head?, c.isDigit = false

/-- the line holds degree, order and two coefficients (and perhaps more numbers) -/
def CoefLine (line : Line) (k : Coef) : Prop :=
  ∃ d1 ds1 d2 ds2 tc ts aux, Num line (.int .none d1 ds1 none :: .int .none d2 ds2 none :: tc :: ts :: aux) ∧
    decimal (d1 :: ds1) = k.l ∧ decimal (d2 :: ds2) = k.m ∧ tc.val = k.c ∧ ts.val = k.s

/-- `DayText prod n rest bs lines`: the blocks `bs` of the product are found in the file in this order, each with a header
line and `n` lines of coefficients; between them are lines that are no headers of the product; after the last one comes
`rest` -/
inductive DayText (prod : Name) (n : ℕ) (rest : List Line) : List Block → List Line → Prop
  | done : DayText prod n rest [] rest
  | other {bs lines} (line : Line) : ¬ Headed prod line → DayText prod n rest bs lines →
      DayText prod n rest bs (line :: lines)
  | block {bs lines} (head : Line) (h : ℕ) (rows : List Coef) (body : List Line) : '\n' ∉ head → Headed prod head →
      Clock head h → body.length = n → List.Forall₂ CoefLine body rows → DayText prod n rest bs lines →
      DayText prod n rest (⟨h, rows⟩ :: bs) (head :: (body ++ lines))

/-! ## Proofs -/

theorem isHeader_iff (prod : Name) (line : Line) (hn : '\n' ∉ line) : isHeader prod line = true ↔ Headed prod line := by
  have hend : NoEnd (headerRe prod) := by
    unfold headerRe
    rw [noEnd_cat]
    intro e he
    simp only [List.mem_cons, List.not_mem_nil, or_false] at he
    rcases he with rfl | rfl | rfl | rfl | rfl
    · exact noEnd_lit _
    · trivial
    · exact noEnd_lit _
    · trivial
    · exact noEnd_lit _
  unfold isHeader
  rw [accepts_prefix _ hend]
  unfold headerRe Headed
  simp only [lang_cat_cons, lang_cat_nil, lang_lit]
  constructor
  · rintro ⟨u, r, hs, v1, u1, rfl, rfl, a, u2, rfl, ha, v3, u3, rfl, rfl, b, u4, rfl, hb, v5, u5, rfl, rfl, rfl⟩
    exact ⟨a, b, r, by rw [hs]; simp⟩
  · rintro ⟨a, b, c, h⟩
    have hany : ∀ u : Name, (∀ x ∈ u, x ∈ line) → ∀ x ∈ u, anyChar x = true := by
      intro u hu x hx
      apply noNewline_any
      rintro rfl
      exact hn (hu _ hx)
    refine ⟨"DATA".toList ++ (a ++ ("SET".toList ++ (b ++ (prod ++ [])))), c, by rw [h]; simp, _, _, rfl, rfl, a, _, rfl,
      hany a (fun x hx => by rw [h]; simp [hx]), _, _, rfl, rfl, b, _, rfl, hany b (fun x hx => by rw [h]; simp [hx]), _, _,
      rfl, rfl, rfl⟩

theorem not_header (prod : Name) (line : Line) (h : ¬ Headed prod line) : isHeader prod line = false := by
  by_contra hc
  have hc : isHeader prod line = true := by simpa using hc
  apply h
  have hend : NoEnd (headerRe prod) := by
    unfold headerRe
    rw [noEnd_cat]
    intro e he
    simp only [List.mem_cons, List.not_mem_nil, or_false] at he
    rcases he with rfl | rfl | rfl | rfl | rfl
    · exact noEnd_lit _
    · trivial
    · exact noEnd_lit _
    · trivial
    · exact noEnd_lit _
  unfold isHeader at hc
  rw [accepts_prefix _ hend] at hc
  unfold headerRe at hc
  simp only [lang_cat_cons, lang_cat_nil, lang_lit] at hc
  obtain ⟨u, r, hs, v1, u1, rfl, rfl, a, u2, rfl, ha, v3, u3, rfl, rfl, b, u4, rfl, hb, v5, u5, rfl, rfl, rfl⟩ := hc
  exact ⟨a, b, r, by rw [hs]; simp⟩

theorem noEnd_clock : NoEnd clockRe := by
  unfold clockRe
  rw [noEnd_cat]
  intro e he
  simp only [List.mem_cons, List.not_mem_nil, or_false] at he
  rcases he with rfl | rfl | rfl | rfl | rfl
  · exact noEnd_digits
  · exact noEnd_lit _
  · exact noEnd_digits
  · exact noEnd_lit _
  · exact noEnd_digits

/-- where a time of the day begins -/
theorem clock_at (s : Name) : runs clockRe s ≠ [] ↔
    ∃ a b c r, IsDigits a ∧ IsDigits b ∧ IsDigits c ∧ s = a ++ ':' :: (b ++ ':' :: (c ++ r)) := by
  have : runs clockRe s ≠ [] ↔ ∃ r c, (c, r) ∈ runs clockRe s := by
    cases h : runs clockRe s with
    | nil => simp
    | cons x l => simp only [ne_eq, reduceCtorEq, not_false_eq_true, true_iff]; exact ⟨x.2, x.1, by simp⟩
  rw [this]
  have h2 := fun r => runs_lang clockRe noEnd_clock s r
  simp only [h2]
  unfold clockRe
  have hl : ∀ u, Lang (.grp 1 digits) u ↔ Lang digits u := fun u => Iff.rfl
  simp only [lang_cat_cons, lang_cat_nil, lang_lit, hl, lang_digits]
  constructor
  · rintro ⟨r, u, rfl, a, u1, rfl, ha, v2, u2, rfl, rfl, b, u3, rfl, hb, v4, u4, rfl, rfl, c, u5, rfl, hc, rfl⟩
    exact ⟨a, b, c, r, ha, hb, hc, by simp⟩
  · rintro ⟨a, b, c, r, ha, hb, hc, rfl⟩
    exact ⟨r, a ++ (":".toList ++ (b ++ (":".toList ++ (c ++ [])))), by simp, a, _, rfl, ha, _, _, rfl, rfl, b, _, rfl, hb, _, _, rfl,
      rfl, c, _, rfl, hc, rfl⟩

theorem findallN_none (e : Re) (n : ℕ) (s : Name) (h : ∀ k, runs e (s.drop k) = []) : findallN n e s = [] := by
  induction n generalizing s with
  | zero => rfl
  | succ n ih =>
    have h0 := h 0
    rw [List.drop_zero] at h0
    rw [findallN, h0]
    simp only
    split_ifs
    · rfl
    · apply ih
      exact fun k => by rw [← List.drop_one, List.drop_drop]; exact h _

theorem hourOf_clock (line : Line) (h : ℕ) (hc : Clock line h) : hourOf line = some (h : ℤ) := by
  obtain ⟨u, hh, mm, ss, v, rfl, d1, d2, d3, hval, hu, hv, hv2⟩ := hc
  set tail := hh ++ ':' :: (mm ++ ':' :: (ss ++ v)) with htail
  have colonHead : ∀ (x : Name), ∀ c ∈ (':' :: x).head?, c.isDigit = false := by
    intro x c hc; simp at hc; subst hc; decide
  -- the match itself
  have hfirst : First clockRe tail [(1, hh)] v := by
    have e : ([(1, hh)] : List (ℕ × List Char)) = ((1, hh) :: []) ++ ([] ++ ([] ++ ([] ++ ([] ++ [])))) := by simp
    rw [e]
    exact first_cat (first_grp 1 (first_digits hh _ d1.1 d1.2 (colonHead _)))
      (first_cat (first_lit ":".toList (mm ++ ':' :: (ss ++ v))) (first_cat (first_digits mm _ d2.1 d2.2 (colonHead _))
      (first_cat (first_lit ":".toList (ss ++ v)) (first_cat (first_digits ss v d3.1 d3.2 hv2) (first_cat_nil _)))))
  -- nothing after it
  have hnone : ∀ n, findallN n clockRe v = [] := by
    intro n
    apply findallN_none
    intro k
    by_contra hne
    obtain ⟨a, b, c, r, -, -, -, hs⟩ := (clock_at _).1 hne
    apply hv
    apply List.mem_of_mem_drop (i := k)
    rw [hs]; simp
  -- nothing before it
  have hbefore : ∀ (w : Name), (∀ p q, w = p ++ ':' :: q → ∀ c ∈ q.head?, c.isDigit = false) →
      runs clockRe (w ++ ' ' :: tail) = [] := by
    intro w hw
    by_contra hne
    obtain ⟨a, b, c, r, ha, hb, hcc, hs⟩ := (clock_at _).1 hne
    -- a lies in w
    have hlt : a.length < w.length := by
      by_contra hge
      have hge : w.length ≤ a.length := by omega
      have hget : (w ++ ' ' :: tail)[w.length]? = some ' ' := by simp
      rw [hs] at hget
      rcases lt_or_eq_of_le hge with hlt | heq
      · rw [List.getElem?_append_left hlt] at hget
        have := ha.2 _ (List.mem_of_getElem? hget)
        revert this; decide
      · rw [heq, List.getElem?_append_right (le_refl _)] at hget
        simp at hget
    obtain ⟨q, hq⟩ : ∃ q, w = a ++ ':' :: q := by
      have hd : (w ++ ' ' :: tail).drop a.length = ':' :: (b ++ ':' :: (c ++ r)) := by rw [hs]; simp
      have ht : w.take a.length = a := by
        have := congrArg (List.take a.length) hs
        rw [List.take_append_of_le_length (by omega), List.take_left'] at this
        · exact this
        · rfl
      rw [List.drop_append_of_le_length (by omega)] at hd
      cases hw' : w.drop a.length with
      | nil =>
        have := congrArg List.length hw'
        simp at this
        omega
      | cons x q =>
        rw [hw', List.cons_append, List.cons.injEq] at hd
        refine ⟨q, ?_⟩
        rw [← List.take_append_drop a.length w, ht, hw', hd.1]
    have hhead := hw a q hq
    rw [hq] at hs
    have hs' : q ++ ' ' :: tail = b ++ ':' :: (c ++ r) := by
      simpa using hs
    obtain ⟨x, b', rfl⟩ : ∃ x b', b = x :: b' := by
      cases b with
      | nil => exact absurd rfl hb.1
      | cons x b' => exact ⟨x, b', rfl⟩
    have hx := hb.2 x (by simp)
    cases q with
    | nil =>
      simp at hs'
      rw [← hs'.1] at hx
      revert hx; decide
    | cons y q =>
      simp at hs'
      have := hhead y (by simp)
      rw [hs'.1, hx] at this
      simp at this
  have key : ∀ (w : Name) (n : ℕ), (∀ p q, w = p ++ ':' :: q → ∀ c ∈ q.head?, c.isDigit = false) → w.length + 2 ≤ n →
      findallN n clockRe (w ++ ' ' :: tail) = [[(1, hh)]] := by
    intro w
    induction w with
    | nil =>
      intro n hw hn
      obtain ⟨k, rfl⟩ : ∃ k, n = k + 2 := ⟨n - 2, by simp at hn; omega⟩
      rw [show k + 2 = (k + 1) + 1 from rfl, findallN, hbefore [] hw]
      simp only [List.nil_append, reduceCtorEq, if_false, List.tail_cons]
      obtain ⟨l, hl⟩ := (first_iff ..).1 hfirst
      rw [findallN, hl]
      simp only
      rw [if_pos (by rw [htail]; simp; omega), hnone]
    | cons x w ih =>
      intro n hw hn
      obtain ⟨k, rfl⟩ : ∃ k, n = k + 1 := ⟨n - 1, by omega⟩
      rw [findallN, hbefore (x :: w) hw]
      simp only [List.cons_append, reduceCtorEq, if_false, List.tail_cons]
      apply ih
      · intro p q hpq
        exact hw (x :: p) q (by rw [hpq]; rfl)
      · simp at hn; omega
  unfold hourOf findall
  rw [key u _ hu (by simp)]
  simp only
  have g : group [(1, hh)] 1 = hh := rfl
  rw [g, pyInt_isDigits hh d1, hval]

theorem dataRow_coef (line : Line) (k : Coef) (h : CoefLine line k) : dataRow line = some k := by
  obtain ⟨d1, ds1, d2, ds2, tc, ts, aux, hn, e1, e2, e3, e4⟩ := h
  unfold dataRow
  rw [rxAll_num line _ hn]
  simp only [List.map_cons]
  have i1 : pyInt (Tok.int .none d1 ds1 none).chars = some (k.l : ℤ) := by
    rw [pyInt_tok, e1]; simp [Sgn.val]
  have i2 : pyInt (Tok.int .none d2 ds2 none).chars = some (k.m : ℤ) := by
    rw [pyInt_tok, e2]; simp [Sgn.val]
  rw [i1, i2, pyFloat_tok, pyFloat_tok]
  simp only
  rw [if_pos ⟨by omega, by omega⟩, e3, e4]
  simp

theorem mapM_coef (body : List Line) (rows : List Coef) (h : List.Forall₂ CoefLine body rows) :
    body.mapM dataRow = some rows := by
  induction h with
  | nil => rfl
  | cons h1 _ ih => simp [List.mapM_cons, dataRow_coef _ _ h1, ih]

/-- what follows the blocks is read afterwards -/
theorem blocks_then (prod : Name) (n k : ℕ) (rest : List Line) (bs : List Block) (lines : List Line)
    (h : DayText prod n rest bs lines) (hp : bs = [] → nextHeader prod lines = nextHeader prod rest) :
    readBlocks prod n (bs.length + k) lines =
      match readBlocks prod n k rest with
      | .ok x => .ok (bs ++ x)
      | .raises => .raises
      | .hangs => .hangs := by
  induction h with
  | done => cases hr : readBlocks prod n k rest <;> simp [hr]
  | @other bs lines line hl ht ih =>
    have hn : nextHeader prod (line :: lines) = nextHeader prod lines := by
      rw [nextHeader, not_header prod line hl]; simp
    have ih := ih (fun e => by rw [← hn]; exact hp e)
    rw [← ih]
    cases h : bs.length + k with
    | zero => rfl
    | succ j => simp only [readBlocks, hn]
  | @block bs lines head h rows body hnl hh hc hlen hrows ht ih =>
    have hnh : ∀ (bs : List Block) (lines : List Line), DayText prod n rest bs lines → bs = [] →
        nextHeader prod lines = nextHeader prod rest := by
      intro bs lines hd
      induction hd with
      | done => intro _; rfl
      | other line hl ht ih => intro e; rw [nextHeader, not_header prod line hl]; simpa using ih e
      | block => intro e; simp at e
    have ih := ih (hnh _ _ ht)
    rw [List.length_cons, Nat.add_right_comm]
    simp only [readBlocks]
    rw [nextHeader, (isHeader_iff prod head hnl).2 hh]
    simp only [if_true]
    have hr : readRows n (body ++ lines) = some rows := by
      unfold readRows
      rw [if_neg (by rw [List.length_append]; omega), ← hlen, List.take_left', mapM_coef body rows hrows]
      rfl
    rw [hourOf_clock head h hc, hr]
    simp only
    rw [← hlen, List.drop_left', hlen, ih]
    · cases readBlocks prod n k rest <;> rfl
    · rfl

theorem dayText_header (prod : Name) (n : ℕ) (rest : List Line) (bs : List Block) (lines : List Line)
    (h : DayText prod n rest bs lines) : bs = [] → nextHeader prod lines = nextHeader prod rest := by
  induction h with
  | done => intro _; rfl
  | other line hl ht ih => intro e; rw [nextHeader, not_header prod line hl]; simpa using ih e
  | block => intro e; simp at e

/-- C86: the blocks of the product are read in the order of the file, whatever other products are in it -/
theorem blocks_read (prod : Name) (n : ℕ) (rest : List Line) (bs : List Block) (lines : List Line)
    (h : DayText prod n rest bs lines) : readBlocks prod n bs.length lines = .ok bs := by
  have := blocks_then prod n 0 rest bs lines h (dayText_header prod n rest bs lines h)
  simpa [readBlocks] using this

/-- C86 (deviation): if a daily file has fewer blocks of the product than expected, the program never ends -/
theorem blocks_hang (prod : Name) (n more : ℕ) (rest : List Line) (bs : List Block) (lines : List Line)
    (h : DayText prod n rest bs lines) (ht : ∀ line ∈ rest, ¬ Headed prod line) :
    readBlocks prod n (bs.length + (more + 1)) lines = .hangs := by
  rw [blocks_then prod n (more + 1) rest bs lines h (dayText_header prod n rest bs lines h)]
  have : nextHeader prod rest = none := by
    clear h
    induction rest with
    | nil => rfl
    | cons l t ih =>
      rw [nextHeader, not_header prod l (ht l (by simp))]
      simp only [Bool.false_eq_true, if_false]
      exact ih fun x hx => ht x (by simp [hx])
  simp [readBlocks, this]

end Verif.Dealias
