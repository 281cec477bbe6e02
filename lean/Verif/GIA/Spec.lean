import Verif.GIA.Text
import Mathlib.Data.List.Range
import Mathlib.Algebra.BigOperators.Group.Finset.Basic
import Mathlib.Data.Finset.Range

/-!
# Specification of the GIA file formats

What coefficients a file of each format states, without reference to the reader.
-/
namespace Verif.GIA
open Verif.SLR

/-- a degree, an order and the two coefficients -/
structure Entry where
  l : ℕ
  m : ℕ
  c : ℚ
  s : ℚ

/-- the line states an entry: degree and order as integers, then the coefficients, then possibly more numbers, with
exponents written by E or D -/
def States (line : List Char) (e : Entry) : Prop :=
  ∃ s d ds s' d' ds' tc ts rest,
    Num (dToE line) (Tok.int s d ds none :: Tok.int s' d' ds' none :: tc :: ts :: rest) ∧
    (e.l : ℤ) = s.val * decimal (d :: ds) ∧ (e.m : ℤ) = s'.val * decimal (d' :: ds') ∧ e.c = tc.val ∧ e.s = ts.val

/-- a table: lines with entries, and lines without any number -/
inductive Table : List (List Char) → List Entry → Prop
  | nil : Table [] []
  | text {ls es} (line : List Char) : Num (dToE line) [] → Table ls es → Table (line :: ls) es
  | entry {ls es} (line : List Char) (e : Entry) : States line e → Table ls es → Table (line :: ls) (e :: es)

/-- cosine coefficient a list of entries gives a degree and order: the last one, zero if there is none -/
def lastC (es : List Entry) (l m : ℕ) : ℚ := ((es.filter fun e => e.l = l ∧ e.m = m).getLast?.map Entry.c).getD 0
/-- sine coefficient -/
def lastS (es : List Entry) (l m : ℕ) : ℚ := ((es.filter fun e => e.l = l ∧ e.m = m).getLast?.map Entry.s).getD 0

/-- ICE-6G: line of an order of a degree.  Each degree has a line for every two orders -/
def iceLine (l m : ℕ) : ℕ := (∑ k ∈ Finset.range l, (k / 2 + 1)) + m / 2

/-- ICE-6G: column of the cosine coefficient.  The first line of a degree begins with the degree -/
def iceCol (m : ℕ) : ℕ := if m = 0 then 1 else if m = 1 then 3 else if m % 2 = 0 then 0 else 2

/-- an ICE-6G file states coefficients up to degree `N` in units of 1e-11; an empty line states zeros -/
def StatesIce (ls : List (List Char)) (N : ℕ) (C S : ℕ → ℕ → ℚ) : Prop :=
  ∀ l ≤ N, ∀ m ≤ l, ∃ line ts, ls[iceLine l m]? = some line ∧ Num line ts ∧
    ((ts = [] ∧ C l m = 0 ∧ S l m = 0) ∨
     ∃ tc tS, ts[iceCol m]? = some tc ∧ ts[iceCol m + 1]? = some tS ∧ C l m = tc.val * 1e-11 ∧ S l m = tS.val * 1e-11)

/-- Wu (2010): position of the cosine coefficient in the column, degrees from one, order zero has no sine -/
def wuC (l m : ℕ) : ℕ := l ^ 2 - 1 + (2 * m - 1)
/-- position of the sine coefficient -/
def wuS (l m : ℕ) : ℕ := l ^ 2 - 1 + 2 * m

/-- Caron: cosine coefficient of the list of degree, order (negative for sines) and value: the last one -/
def lastRow (rows : List (ℤ × ℤ × ℚ)) (l m : ℤ) : ℚ :=
  ((rows.filter fun r => r.1 = l ∧ r.2.1 = m).getLast?.map fun r => r.2.2).getD 0

end Verif.GIA
