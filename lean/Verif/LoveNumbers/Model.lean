import Mathlib.Data.Rat.Defs
import Mathlib.Algebra.Order.Field.Rat
import Mathlib.Algebra.Order.Field.Basic

/-!
# Model of `read_love_numbers.py`

Numbers are exact rationals.  A line of the file is the list of numbers the regular expression finds in it
(`rx.findall(line.replace('D','E'))`, read_love_numbers.py:178); reading the file, the regular
expression itself and the output formats are not modelled.
-/
namespace Verif.LoveNumbers

/-- one number found in a line: `inf` or a decimal number -/
inductive Tok where
  | inf
  | num (q : ℚ)
  deriving DecidableEq

/-- `_default_max_degree` (read_love_numbers.py:98-99) -/
def defaultMaxDegree : ℕ := 100000

/-- the columns of the three kinds of Love number, as in `for n in ('hl','kl','ll')` -/
structure Triple where
  hl : ℚ
  kl : ℚ
  ll : ℚ
  deriving DecidableEq

/-- `love_numbers[COLUMNS.index(name)]`: `none` for `ValueError` or `IndexError` -/
def column (columns : List String) (row : List Tok) (name : String) : Option Tok :=
  if name ∈ columns then row[columns.idxOf name]? else none

/-- `int(degree)` of a degree that is not `inf`, or the default (read_love_numbers.py:181); a token
that is not a natural number is an exception here (Python would take a negative one) -/
def degreeOf : Tok → Option ℕ
  | .inf => some defaultMaxDegree
  | .num q => if q.den = 1 ∧ 0 ≤ q.num then some q.num.toNat else none

/-- `np.float64(...)` of a finite number (read_love_numbers.py:189); an infinite Love number is not
modelled -/
def value : Tok → Option ℚ
  | .inf => none
  | .num q => some q

/-- degree and values of one line (read_love_numbers.py:178-189).  Values of lines beyond the truncation
degree are not looked at by the code; here they must also be readable. -/
def parseRow (columns : List String) (row : List Tok) : Option (ℕ × Triple) :=
  match (column columns row "l").bind degreeOf, (column columns row "hl").bind value,
      (column columns row "kl").bind value, (column columns row "ll").bind value with
  | some l, some h, some k, some s => some (l, ⟨h, k, s⟩)
  | _, _, _, _ => none

/-- the three arrays of `LMAX+1` entries -/
structure Love where
  hl : ℕ → ℚ
  kl : ℕ → ℚ
  ll : ℕ → ℚ

def Love.map (f : (ℕ → ℚ) → ℕ → ℚ) (a : Love) : Love := ⟨f a.hl, f a.kl, f a.ll⟩

/-- reading state: arrays and the degrees still to be interpolated (read_love_numbers.py:170-173) -/
structure ReadState where
  love : Love
  flag : ℕ → Bool

def init : ReadState := ⟨⟨fun _ => 0, fun _ => 0, fun _ => 0⟩, fun _ => true⟩

/-- one line (read_love_numbers.py:183-191) -/
def readStep (lmax : ℕ) (s : ReadState) (r : ℕ × Triple) : ReadState :=
  if r.1 ≤ lmax then
    ⟨⟨Function.update s.love.hl r.1 r.2.hl, Function.update s.love.kl r.1 r.2.kl,
      Function.update s.love.ll r.1 r.2.ll⟩, Function.update s.flag r.1 false⟩
  else s

/-- `np.interp` at a degree that is not among the known degrees: the line through the neighbouring known
degrees, the nearest known value outside their range (read_love_numbers.py:201-202) -/
def npInterp (known : List ℕ) (v : ℕ → ℚ) (x : ℕ) : ℚ :=
  match (known.filter fun d => d < x).getLast?, (known.filter fun d => x < d).head? with
  | some a, some b => v a + (v b - v a) / ((b : ℚ) - a) * ((x : ℚ) - a)
  | some a, none => v a
  | none, some b => v b
  | none, none => 0

/-- the interpolation of the flagged degrees (read_love_numbers.py:198-202) -/
def interpolate (lmax : ℕ) (flag : ℕ → Bool) (v : ℕ → ℚ) : ℕ → ℚ :=
  let known := (List.range (lmax + 1)).filter fun d => !flag d
  fun d => if d ≤ lmax ∧ flag d then npInterp known v d else v d

/-- Python's index `i - k` of an array of `n` entries: negative indices count from the end -/
def pyIdx (n i k : ℕ) : ℕ := if k ≤ i then i - k else n + i - k

/-- the extrapolation loop (read_love_numbers.py:207-210) -/
def extrapolate (l lmax : ℕ) (v : ℕ → ℚ) : ℕ → ℚ :=
  (List.range' l (lmax + 1 - l)).foldl
    (fun v lint => Function.update v lint (2 * v (pyIdx (lmax + 1) lint 1) - v (pyIdx (lmax + 1) lint 2))) v

/-- the isomorphic parameter (read_love_numbers.py:214-230, and 516-532): `none` for an unknown frame -/
def alpha (reference : String) (h1 l1 : ℚ) : Option ℚ :=
  if reference.toUpper = "CF" then some ((h1 + 2 * l1) / 3)
  else if reference.toUpper = "CL" then some l1
  else if reference.toUpper = "CH" then some h1
  else if reference.toUpper = "CM" then some 1
  else if reference.toUpper = "CE" then some 0
  else none

/-- applying it to degree 1 (read_love_numbers.py:232-233) -/
def shift (a : ℚ) (v : ℕ → ℚ) : ℕ → ℚ := Function.update v 1 (v 1 - a)

/-- `read_love_numbers` after `LMAX` has been resolved (read_love_numbers.py:164-236); `none` for an
exception.  The result has `LMAX+1` entries. -/
def readLove (lmax header : ℕ) (columns : List String) (reference : String) (lines : List (List Tok)) :
    Option Love :=
  match (lines.drop header).mapM (parseRow columns) with
  | none => none
  | some rows =>
    let s := rows.foldl (readStep lmax) init
    if lmax = 0 then some s.love
    else
      match rows.getLast? with
      | none => none
      | some (l, _) =>
        if (List.range (lmax + 1)).any s.flag ∧ (List.range (lmax + 1)).all s.flag then none
        else
          let a := Love.map (interpolate lmax s.flag) s.love
          let b := Love.map (extrapolate l lmax) a
          match alpha reference (b.hl 1) (b.ll 1) with
          | none => none
          | some α => some (Love.map (shift α) b)

/-- the truncation degree when `LMAX` is `None`: the degree of the last line
(read_love_numbers.py:157-161) -/
def resolveLmax (LMAX : Option ℕ) (columns : List String) (lines : List (List Tok)) : Option ℕ :=
  match lines.getLast? with
  | none => none
  | some r =>
    match column columns r "l", LMAX with
    | none, _ => none
    | some _, some n => some n
    | some t, none => degreeOf t

/-- `read_love_numbers` (read_love_numbers.py:102-236): the truncation degree and the arrays -/
def readLoveNumbers (LMAX : Option ℕ) (header : ℕ) (columns : List String) (reference : String)
    (lines : List (List Tok)) : Option (ℕ × Love) :=
  match resolveLmax LMAX columns lines with
  | none => none
  | some n => (readLove n header columns reference lines).map fun a => (n, a)

/-- `love_numbers.transform` (read_love_numbers.py:497-539) for arrays of at least two entries: the
arrays and the reference attribute -/
def transform (reference : String) (a : Love) : Option (Love × String) :=
  (alpha reference (a.hl 1) (a.ll 1)).map fun α => (Love.map (shift α) a, reference)

end Verif.LoveNumbers
