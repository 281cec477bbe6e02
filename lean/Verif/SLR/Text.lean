import Mathlib.Data.Rat.Defs
import Mathlib.Data.Nat.Digits.Defs
import Mathlib.Algebra.Field.Rat
import Mathlib.Algebra.Order.Ring.Rat
import Mathlib.Tactic.Ring
import Mathlib.Tactic.NormNum
import Mathlib.Tactic.FieldSimp
import Mathlib.Tactic.Positivity

/-!
# Numbers in text lines

The regular expression `[-+]?\d*\.\d*(?:[eE][-+]?\d+)?` with which the satellite laser ranging files are
read (for instance SLR/C20.py:190), Python's `float` and `int` on text, and `str.split`.  ASCII digits and
blanks only; `float` names such as `nan` and underscores between digits are not modelled (`none`).
-/
namespace Verif.SLR

/-! ## Model -/

/-- `[-+]?` -/
def optSign : List Char → List Char × List Char
  | c :: r => if c = '+' ∨ c = '-' then ([c], r) else ([], c :: r)
  | [] => ([], [])

/-- `(?:[eE][-+]?\d+)?` -/
def expo : List Char → List Char × List Char
  | c :: r =>
    if c = 'e' ∨ c = 'E' then
      let r1 := (optSign r).2
      let ds := r1.takeWhile Char.isDigit
      if ds = [] then ([], c :: r) else (c :: ((optSign r).1 ++ ds), r1.dropWhile Char.isDigit)
    else ([], c :: r)
  | [] => ([], [])

/-- the whole expression at the beginning of the text: the matched part and the rest.  Neither a shorter
sign nor fewer digits can help to match, so there is no backtracking -/
def numAt (cs : List Char) : Option (List Char × List Char) :=
  let r := (optSign cs).2
  match r.dropWhile Char.isDigit with
  | c :: r' =>
    if c = '.' then
      let e := expo (r'.dropWhile Char.isDigit)
      some ((optSign cs).1 ++ r.takeWhile Char.isDigit ++ '.' :: r'.takeWhile Char.isDigit ++ e.1, e.2)
    else none
  | [] => none

/-- `re.findall` with fuel -/
def findNums : ℕ → List Char → List (List Char)
  | 0, _ => []
  | _ + 1, [] => []
  | n + 1, c :: cs =>
    match numAt (c :: cs) with
    | some (a, r) => a :: findNums n r
    | none => findNums n cs

/-- `re.findall(r'[-+]?\d*\.\d*(?:[eE][-+]?\d+)?', line)` (SLR/C20.py:190, 244, 301, 356, SLR/C30.py:151, 214,
SLR/C50.py:130, SLR/CS2.py:253): every match uses up at least one character -/
def findNumbers (cs : List Char) : List (List Char) := findNums cs.length cs

/-- value of a digit -/
def digit (c : Char) : ℕ := c.toNat - '0'.toNat

/-- value of a string of digits -/
def digitsVal (ds : List Char) : ℕ := ds.foldl (fun a c => 10 * a + digit c) 0

/-- `-1` for a minus sign -/
def signVal (s : List Char) : ℤ := if s = ['-'] then -1 else 1

/-- `np.float64(text)`: `none` is the `ValueError` -/
def pyFloat (cs : List Char) : Option ℚ :=
  let s := (optSign cs).1
  let r := (optSign cs).2
  let ds := r.takeWhile Char.isDigit
  let r1 := r.dropWhile Char.isDigit
  let fs := if r1.head? = some '.' then r1.tail.takeWhile Char.isDigit else []
  let r2 := if r1.head? = some '.' then r1.tail.dropWhile Char.isDigit else r1
  if ds ++ fs = [] then none
  else
    match r2 with
    | [] => some (signVal s * digitsVal (ds ++ fs) * (10 : ℚ) ^ (-(fs.length : ℤ)))
    | c :: r3 =>
      let es := (optSign r3).1
      let ed := (optSign r3).2
      if (c = 'e' ∨ c = 'E') ∧ ed ≠ [] ∧ ed.all Char.isDigit then
        some (signVal s * digitsVal (ds ++ fs) * (10 : ℚ) ^ (signVal es * digitsVal ed - fs.length : ℤ))
      else none

/-- `np.int64(text)` for an integer literal -/
def pyInt (cs : List Char) : Option ℤ :=
  let ds := (optSign cs).2
  if ds ≠ [] ∧ ds.all Char.isDigit then some (signVal (optSign cs).1 * digitsVal ds) else none

/-- blanks -/
def isSpace (c : Char) : Bool := c = ' ' || c = '\t' || c = '\n' || c = '\r'

/-- `str.split()` with fuel -/
def splitN : ℕ → List Char → List (List Char)
  | 0, _ => []
  | n + 1, cs =>
    match cs.dropWhile isSpace with
    | [] => []
    | d => d.takeWhile (fun c => !isSpace c) :: splitN n (d.dropWhile (fun c => !isSpace c))

/-- `str.split()` -/
def split (cs : List Char) : List (List Char) := splitN (cs.length + 1) cs

/-! ## Specification -/

/-- a sign as written -/
inductive Sgn where
  | none | plus | minus
deriving DecidableEq

/-- the characters -/
def Sgn.chars : Sgn → List Char
  | .none => [] | .plus => ['+'] | .minus => ['-']

/-- its value -/
def Sgn.val : Sgn → ℤ
  | .minus => -1 | _ => 1

/-- the character of a digit -/
def dchar (d : Fin 10) : Char := Char.ofNat ('0'.toNat + d.val)

/-- a number with a decimal point as written in a file: sign, digits before and after the point (not both
empty), exponent (capital or small letter, sign, first digit and further digits) -/
structure Lit where
  sgn : Sgn
  ip : List (Fin 10)
  fp : List (Fin 10)
  ex : Option (Bool × Sgn × Fin 10 × List (Fin 10))
  digits : ip ++ fp ≠ []

/-- the number read as decimal digits, most significant first -/
def decimal (ds : List (Fin 10)) : ℕ := Nat.ofDigits 10 (ds.map Fin.val).reverse

/-- text of the exponent -/
def exChars : Option (Bool × Sgn × Fin 10 × List (Fin 10)) → List Char
  | none => []
  | some (cap, s, d, ds) => (if cap then 'E' else 'e') :: (s.chars ++ (d :: ds).map dchar)

/-- value of the exponent -/
def exVal : Option (Bool × Sgn × Fin 10 × List (Fin 10)) → ℤ
  | none => 0
  | some (_, s, d, ds) => s.val * decimal (d :: ds)

/-- text of a number -/
def Lit.chars (x : Lit) : List Char :=
  x.sgn.chars ++ x.ip.map dchar ++ '.' :: x.fp.map dchar ++ exChars x.ex

/-- its value: integer part plus fraction, times the power of ten -/
def Lit.val (x : Lit) : ℚ :=
  x.sgn.val * (decimal x.ip + decimal x.fp / (10 : ℚ) ^ x.fp.length) * (10 : ℚ) ^ exVal x.ex

/-- the end of a line or a blank -/
def Stop (cs : List Char) : Prop := cs = [] ∨ ∃ c r, cs = c :: r ∧ isSpace c = true

/-- `Row cs xs`: the line consists of numbers with a decimal point (`xs`, in order) and of words without
a point (flags, integers, `NaN`), separated by blanks -/
inductive Row : List Char → List Lit → Prop
  | nil : Row [] []
  | blank {cs xs} (c : Char) : isSpace c = true → Row cs xs → Row (c :: cs) xs
  | word {cs xs} (w : List Char) : (∀ c ∈ w, c ≠ '.' ∧ isSpace c = false) → Stop cs → Row cs xs → Row (w ++ cs) xs
  | num {cs xs} (x : Lit) : Stop cs → Row cs xs → Row (x.chars ++ cs) (x :: xs)

/-- `Words cs ws`: the line consists of the words `ws`, separated by blanks -/
inductive Words : List Char → List (List Char) → Prop
  | nil : Words [] []
  | blank {cs ws} (c : Char) : isSpace c = true → Words cs ws → Words (c :: cs) ws
  | word {cs ws} (w : List Char) : w ≠ [] → (∀ c ∈ w, isSpace c = false) → Stop cs → Words cs ws →
      Words (w ++ cs) (w :: ws)

/-- an integer as written -/
def intChars (s : Sgn) (d : Fin 10) (ds : List (Fin 10)) : List Char := s.chars ++ (d :: ds).map dchar

/-! ## Proofs -/

theorem dchar_isDigit (d : Fin 10) : (dchar d).isDigit = true := by
  revert d; decide

theorem dchar_digit (d : Fin 10) : digit (dchar d) = d.val := by
  revert d; decide

theorem dchar_ne (d : Fin 10) : dchar d ≠ '.' ∧ dchar d ≠ '+' ∧ dchar d ≠ '-' := by
  revert d; decide

theorem space_facts (c : Char) (h : isSpace c = true) :
    c.isDigit = false ∧ c ≠ '.' ∧ c ≠ '+' ∧ c ≠ '-' ∧ c ≠ 'e' ∧ c ≠ 'E' := by
  unfold isSpace at h
  simp only [Bool.or_eq_true, decide_eq_true_eq] at h
  rcases h with ((h | h) | h) | h <;> subst h <;> decide

theorem takeDigits (ds : List (Fin 10)) (r : List Char) (hr : ∀ c ∈ r.head?, c.isDigit = false) :
    (ds.map dchar ++ r).takeWhile Char.isDigit = ds.map dchar ∧
      (ds.map dchar ++ r).dropWhile Char.isDigit = r := by
  induction ds with
  | nil =>
    cases r with
    | nil => simp
    | cons c r => have := hr c (by simp); simp [this]
  | cons d t ih => simp [dchar_isDigit, ih]

theorem stop_digit (cs : List Char) (h : Stop cs) : ∀ c ∈ cs.head?, c.isDigit = false := by
  rintro c hc
  rcases h with rfl | ⟨d, r, rfl, hd⟩
  · simp at hc
  · simp at hc; subst hc; exact (space_facts d hd).1

theorem optSign_chars (s : Sgn) (r : List Char) (hr : ∀ c ∈ r.head?, c ≠ '+' ∧ c ≠ '-') :
    optSign (s.chars ++ r) = (s.chars, r) := by
  cases s with
  | none =>
    cases r with
    | nil => rfl
    | cons c r => have := hr c (by simp); simp [optSign, Sgn.chars, this]
  | plus => simp [optSign, Sgn.chars]
  | minus => simp [optSign, Sgn.chars]

theorem head_digits (ds : List (Fin 10)) (r : List Char) (hr : ∀ c ∈ r.head?, c ≠ '+' ∧ c ≠ '-') :
    ∀ c ∈ (ds.map dchar ++ r).head?, c ≠ '+' ∧ c ≠ '-' := by
  intro c hc
  cases ds with
  | nil => exact hr c (by simpa using hc)
  | cons d t => simp at hc; subst hc; exact (dchar_ne d).2

theorem expo_chars (ex : Option (Bool × Sgn × Fin 10 × List (Fin 10))) (cs : List Char) (h : Stop cs) :
    expo (exChars ex ++ cs) = (exChars ex, cs) := by
  cases ex with
  | none =>
    rcases h with rfl | ⟨d, r, rfl, hd⟩
    · rfl
    · have := space_facts d hd; simp [expo, exChars, this]
  | some e =>
    obtain ⟨cap, s, d, ds⟩ := e
    have hs := optSign_chars s ((d :: ds).map dchar ++ cs) (by
      intro c hc; simp at hc; subst hc; exact (dchar_ne d).2)
    have ht := takeDigits (d :: ds) cs (stop_digit cs h)
    have hcap : (if cap then 'E' else 'e') = 'e' ∨ (if cap then 'E' else 'e') = 'E' := by cases cap <;> simp
    show expo ((if cap then 'E' else 'e') :: (s.chars ++ (d :: ds).map dchar) ++ cs) = _
    rw [List.cons_append, List.append_assoc, expo, if_pos hcap]
    simp only [hs, ht.1, ht.2]
    rw [if_neg (by simp)]
    simp [exChars]

theorem exChars_digit (ex : Option (Bool × Sgn × Fin 10 × List (Fin 10))) (cs : List Char) (h : Stop cs) :
    ∀ c ∈ (exChars ex ++ cs).head?, c.isDigit = false := by
  cases ex with
  | none => exact stop_digit cs h
  | some e =>
    obtain ⟨cap, s, d, ds⟩ := e
    intro c hc
    simp [exChars] at hc; subst hc
    cases cap <;> decide

/-- a number is matched as a whole -/
theorem numAt_lit (x : Lit) (cs : List Char) (h : Stop cs) : numAt (x.chars ++ cs) = some (x.chars, cs) := by
  have h1 : optSign (x.chars ++ cs) = (x.sgn.chars, x.ip.map dchar ++ '.' :: (x.fp.map dchar ++ (exChars x.ex ++ cs))) := by
    rw [← optSign_chars x.sgn (x.ip.map dchar ++ '.' :: (x.fp.map dchar ++ (exChars x.ex ++ cs)))]
    · simp [Lit.chars]
    · apply head_digits; intro c hc; simp at hc; subst hc; decide
  have h2 := takeDigits x.ip ('.' :: (x.fp.map dchar ++ (exChars x.ex ++ cs))) (by
    intro c hc; simp at hc; subst hc; decide)
  have h3 := takeDigits x.fp (exChars x.ex ++ cs) (exChars_digit x.ex cs h)
  unfold numAt
  simp only [h1, h2.1, h2.2, h3.1, h3.2, if_true, expo_chars x.ex cs h]
  simp [Lit.chars]

/-- nothing is matched at the beginning of a word without a point, nor at a blank -/
theorem numAt_none (c : Char) (w cs : List Char) (hw : ∀ a ∈ c :: w, a ≠ '.') (h : Stop cs) :
    numAt (c :: w ++ cs) = none := by
  have key : ∀ v : List Char, (∀ a ∈ v, a ≠ '.') →
      (match (v ++ cs).dropWhile Char.isDigit with
        | d :: _ => d ≠ '.'
        | [] => True) := by
    intro v
    induction v with
    | nil =>
      intro _
      rcases h with rfl | ⟨d, r, rfl, hd⟩
      · simp
      · have := space_facts d hd; simp [this]
    | cons a t ih =>
      intro hv
      by_cases ha : a.isDigit = true
      · simpa [ha] using ih fun b hb => hv b (by simp [hb])
      · have := hv a (by simp); simp [ha, this]
  unfold numAt
  have hk : (match ((optSign (c :: w ++ cs)).2).dropWhile Char.isDigit with
        | d :: _ => d ≠ '.'
        | [] => True) := by
    by_cases hc : c = '+' ∨ c = '-'
    · have := key w fun a ha => hw a (by simp [ha])
      simpa [optSign, hc] using this
    · have := key (c :: w) hw
      simpa only [List.cons_append, optSign, if_neg hc] using this
  dsimp only
  cases he : ((optSign (c :: w ++ cs)).2).dropWhile Char.isDigit with
  | nil => rfl
  | cons d r =>
    rw [he] at hk
    simp only [if_neg hk]

theorem findNums_word (w cs : List Char) (hw : ∀ a ∈ w, a ≠ '.') (h : Stop cs) (n : ℕ) :
    findNums (w.length + n) (w ++ cs) = findNums n cs := by
  induction w with
  | nil => simp
  | cons c t ih =>
    rw [List.length_cons, show t.length + 1 + n = (t.length + n) + 1 from by omega, List.cons_append, findNums,
      ← List.cons_append, numAt_none c t cs hw h]
    exact ih fun a ha => hw a (by simp [ha])

theorem findNums_row (cs : List Char) (xs : List Lit) (h : Row cs xs) :
    ∀ n, cs.length ≤ n → findNums n cs = xs.map Lit.chars := by
  induction h with
  | nil => intro n _; cases n <;> rfl
  | @blank cs xs c hc _ ih =>
    intro n hn
    obtain ⟨k, rfl⟩ : ∃ k, n = k + 1 := ⟨n - 1, by simp at hn; omega⟩
    rw [findNums]
    have : numAt (c :: cs) = none := by
      have hf := space_facts c hc
      unfold numAt
      simp [optSign, hf]
    rw [this]
    exact ih k (by simpa using hn)
  | @word cs xs w hw hs _ ih =>
    intro n hn
    rw [List.length_append] at hn
    obtain ⟨k, rfl⟩ : ∃ k, n = w.length + k := ⟨n - w.length, by omega⟩
    rw [findNums_word w cs (fun a ha => (hw a ha).1) hs]
    exact ih k (by omega)
  | @num cs xs x hs _ ih =>
    intro n hn
    rw [List.length_append] at hn
    have hne : x.chars ≠ [] := by simp [Lit.chars]
    obtain ⟨c, t, hc⟩ := List.exists_cons_of_ne_nil hne
    have hl : x.chars.length = t.length + 1 := by rw [hc]; rfl
    obtain ⟨k, rfl⟩ : ∃ k, n = k + 1 := ⟨n - 1, by omega⟩
    have e := numAt_lit x cs hs
    rw [hc, List.cons_append] at e ⊢
    rw [findNums, e]
    dsimp only
    rw [ih k (by omega), List.map_cons, hc]

/-- the numbers with a decimal point on a line, in order, and nothing else -/
theorem findNumbers_row (cs : List Char) (xs : List Lit) (h : Row cs xs) :
    findNumbers cs = xs.map Lit.chars := findNums_row cs xs h _ le_rfl

theorem digitsVal_append (a b : List Char) : digitsVal (a ++ b) = 10 ^ b.length * digitsVal a + digitsVal b := by
  have key : ∀ (b : List Char) (n : ℕ),
      b.foldl (fun a c => 10 * a + digit c) n = 10 ^ b.length * n + b.foldl (fun a c => 10 * a + digit c) 0 := by
    intro b
    induction b with
    | nil => intro n; simp
    | cons c t ih =>
      intro n
      rw [List.foldl_cons, List.foldl_cons, ih, ih (10 * 0 + digit c), List.length_cons]
      ring
  unfold digitsVal
  rw [List.foldl_append, key]

theorem digitsVal_decimal (ds : List (Fin 10)) : digitsVal (ds.map dchar) = decimal ds := by
  induction ds with
  | nil => rfl
  | cons d t ih =>
    have h : digitsVal ((d :: t).map dchar) = 10 ^ t.length * d.val + digitsVal (t.map dchar) := by
      have := digitsVal_append [dchar d] (t.map dchar)
      simpa [digitsVal, dchar_digit] using this
    rw [h, ih]
    unfold decimal
    rw [List.map_cons, List.reverse_cons, Nat.ofDigits_append]
    simp
    ring

theorem signVal_chars (s : Sgn) : signVal s.chars = s.val := by cases s <;> rfl

/-- a number is read as its decimal value -/
theorem pyFloat_lit (x : Lit) : pyFloat x.chars = some x.val := by
  have h1 : optSign x.chars = (x.sgn.chars, x.ip.map dchar ++ '.' :: (x.fp.map dchar ++ exChars x.ex)) := by
    rw [← optSign_chars x.sgn (x.ip.map dchar ++ '.' :: (x.fp.map dchar ++ exChars x.ex))]
    · simp [Lit.chars]
    · apply head_digits; intro c hc; simp at hc; subst hc; decide
  have h2 := takeDigits x.ip ('.' :: (x.fp.map dchar ++ exChars x.ex)) (by
    intro c hc; simp at hc; subst hc; decide)
  have h3 := takeDigits x.fp (exChars x.ex) (by
    have := exChars_digit x.ex [] (Or.inl rfl); simpa using this)
  have hne : x.ip.map dchar ++ x.fp.map dchar ≠ [] := by
    have := x.digits
    intro h
    apply this
    rw [← List.map_append, List.map_eq_nil_iff] at h
    exact h
  have hv : (digitsVal (x.ip.map dchar ++ x.fp.map dchar) : ℚ) * (10 : ℚ) ^ (-(x.fp.length : ℤ)) =
      decimal x.ip + decimal x.fp / (10 : ℚ) ^ x.fp.length := by
    rw [digitsVal_append, digitsVal_decimal, digitsVal_decimal, List.length_map, zpow_neg, zpow_natCast]
    have : (10 : ℚ) ^ x.fp.length ≠ 0 := by positivity
    push_cast
    field_simp
  unfold pyFloat
  simp only [h1, h2.1, h2.2, List.head?_cons, if_true, List.tail_cons, h3.1, h3.2, if_neg hne, List.length_map]
  have hx : x.ex = none ∨ ∃ cap s d ds, x.ex = some (cap, s, d, ds) := by
    cases h : x.ex with
    | none => exact Or.inl rfl
    | some e => obtain ⟨cap, s, d, ds⟩ := e; exact Or.inr ⟨cap, s, d, ds, rfl⟩
  unfold Lit.val
  rcases hx with hx | ⟨cap, s, d, ds, hx⟩
  · rw [hx]
    simp only [exChars, exVal, signVal_chars, zpow_zero, mul_one]
    rw [mul_assoc, hv]
  · rw [hx]
    have hs : optSign (s.chars ++ (d :: ds).map dchar) = (s.chars, (d :: ds).map dchar) :=
      optSign_chars s _ (by intro c hc; simp at hc; subst hc; exact (dchar_ne d).2)
    have hcap : (if cap then 'E' else 'e') = 'e' ∨ (if cap then 'E' else 'e') = 'E' := by cases cap <;> simp
    have hall : ((d :: ds).map dchar).all Char.isDigit = true := by simp [dchar_isDigit]
    simp only [exChars, hs, hall]
    rw [if_pos ⟨hcap, by simp, trivial⟩]
    simp only [signVal_chars, exVal, digitsVal_decimal]
    congr 1
    rw [sub_eq_add_neg, zpow_add₀ (by norm_num : (10 : ℚ) ≠ 0), ← hv]
    ring

/-- an integer is read as its value -/
theorem pyInt_chars (s : Sgn) (d : Fin 10) (ds : List (Fin 10)) :
    pyInt (intChars s d ds) = some (s.val * decimal (d :: ds)) := by
  have hs : optSign (intChars s d ds) = (s.chars, (d :: ds).map dchar) :=
    optSign_chars s _ (by intro c hc; simp at hc; subst hc; exact (dchar_ne d).2)
  unfold pyInt
  simp only [hs, digitsVal_decimal, signVal_chars]
  rw [if_pos ⟨by simp, by simp [dchar_isDigit]⟩]

theorem splitN_words (cs : List Char) (ws : List (List Char)) (h : Words cs ws) :
    ∀ n, cs.length < n → splitN n cs = ws := by
  induction h with
  | nil => intro n hn; obtain ⟨k, rfl⟩ : ∃ k, n = k + 1 := ⟨n - 1, by simp at hn; omega⟩; rfl
  | @blank cs ws c hc _ ih =>
    intro n hn
    rw [List.length_cons] at hn
    have := ih n (by omega)
    obtain ⟨k, rfl⟩ : ∃ k, n = k + 1 := ⟨n - 1, by omega⟩
    rw [splitN] at this ⊢
    rw [List.dropWhile_cons_of_pos hc]
    exact this
  | @word cs ws w hne hw hs _ ih =>
    intro n hn
    rw [List.length_append] at hn
    obtain ⟨c, t, rfl⟩ := List.exists_cons_of_ne_nil hne
    obtain ⟨k, rfl⟩ : ∃ k, n = k + 1 := ⟨n - 1, by omega⟩
    rw [List.length_cons] at hn
    have h1 : (c :: t ++ cs).takeWhile (fun c => !isSpace c) = c :: t ∧
        (c :: t ++ cs).dropWhile (fun c => !isSpace c) = cs := by
      generalize c :: t = v at hw
      induction v with
      | nil =>
        rcases hs with rfl | ⟨d, r, rfl, hd⟩
        · simp
        · simp [hd]
      | cons a v ihv =>
        have ha := hw a (by simp)
        have := ihv fun b hb => hw b (by simp [hb])
        simp [ha, this]
    rw [splitN, List.cons_append, List.dropWhile_cons_of_neg (by simp [hw c (by simp)])]
    simp only
    rw [← List.cons_append, h1.1, h1.2, ih k (by omega)]

/-- the words of a line in order -/
theorem split_words (cs : List Char) (ws : List (List Char)) (h : Words cs ws) : split cs = ws :=
  splitN_words cs ws h _ (by omega)

end Verif.SLR
