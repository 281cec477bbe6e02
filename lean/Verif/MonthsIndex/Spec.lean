import Verif.SLR.Text
import Verif.Dates.Model

/-!
# What the index of months should show

Written without the program: which datasets are listed, what a date file says, where a column of the index is.
-/
namespace Verif.MonthsIndex.Spec
open Verif.SLR

/-- a word that is an integer literal of value `z` -/
def IsInt (w : List Char) (z : ℤ) : Prop := ∃ s d ds, w = intChars s d ds ∧ z = s.val * decimal (d :: ds)

/-- the dates of a month of data: month number, first year and day, last year and day -/
structure Dated where
  mon : ℤ
  y1 : ℤ
  d1 : ℤ
  y2 : ℤ
  d2 : ℤ
deriving DecidableEq

/-- the line of a date file: mid-date, month number, year and day of the start, year and day of the end, total days -/
def Says (line : List Char) (r : Dated) : Prop :=
  ∃ (t : Lit) (m a b c d n : List Char) (total : ℤ), Words line [t.chars, m, a, b, c, d, n] ∧
    IsInt m r.mon ∧ IsInt a r.y1 ∧ IsInt b r.d1 ∧ IsInt c r.y2 ∧ IsInt d r.d2 ∧ IsInt n total

/-- a date file: a header and one line for each of the months -/
def DateFile (file : List (List Char)) (rows : List Dated) : Prop :=
  ∃ header body, file = header :: body ∧ List.Forall₂ Says body rows

/-- the last three digits -/
def d3 (n : ℕ) : List Char := [dchar (Fin.ofNat 10 (n / 100)), dchar (Fin.ofNat 10 (n / 10)), dchar (Fin.ofNat 10 n)]

/-- the last four digits -/
def d4 (n : ℕ) : List Char := dchar (Fin.ofNat 10 (n / 1000)) :: d3 n

/-- a date range as shown in the index, e.g. `2002_102--2002_120` -/
def range (r : Dated) : List Char :=
  d4 r.y1.toNat ++ ['_'] ++ d3 r.d1.toNat ++ ['-', '-'] ++ d4 r.y2.toNat ++ ['_'] ++ d3 r.d2.toNat

/-- years of four and days of at most three digits -/
def Ordinary (r : Dated) : Prop :=
  1000 ≤ r.y1 ∧ r.y1 < 10000 ∧ 0 ≤ r.d1 ∧ r.d1 < 1000 ∧ 1000 ≤ r.y2 ∧ r.y2 < 10000 ∧ 0 ≤ r.d2 ∧ r.d2 < 1000

/-- the text `s` with blanks on both sides -/
def Blanked (t s : List Char) : Prop := ∃ a b : ℕ, t = List.replicate a ' ' ++ s ++ List.replicate b ' '

/-- column `k` of a line of the index: twenty characters -/
def column (line : List Char) (k : ℕ) : List Char := (line.drop (12 + 21 * k)).take 20

/-- column `k` of the header: twenty-one characters, one to the right -/
def headColumn (line : List Char) (k : ℕ) : List Char := (line.drop (13 + 21 * k)).take 21

/-- the label of a month: its number, name and year, e.g. `004 Apr2002` -/
def Label (t : List Char) (m : ℤ) : Prop :=
  ∃ (y : ℤ) (k : ℕ) (name : String), m = 12 * (y - 2002) + k ∧ 1 ≤ k ∧
    ["Jan", "Feb", "Mar", "Apr", "May", "Jun", "Jul", "Aug", "Sep", "Oct", "Nov", "Dec"][k - 1]? = some name ∧
    t = d3 m.toNat ++ [' '] ++ name.toList ++ d4 y.toNat

/-- a dataset of the index: a center, a release asked for, and a date file that exists -/
def Listed (disk : List Char → List Char → Option (List (List Char))) (drel : List (List Char)) (p r : List Char) : Prop :=
  p ∈ ["CSR".toList, "GFZ".toList, "GSFC".toList, "JPL".toList] ∧ r ∈ drel ∧ (disk p r).isSome

/-- the name of a dataset -/
def name (p r : List Char) : List Char := p ++ ['_'] ++ r

/-- no month from April 2002 on twice, and not the only line of its file -/
def Fits (rows : List Dated) (m : ℤ) : Prop :=
  (rows.filter fun d => d.mon = m).length ≤ 1 ∧ (rows.length = 1 → ∀ d ∈ rows, d.mon ≠ m)

/-- the line of a month: label, and in the column of every dataset the dates of its line of the month, or that there is
none -/
def LineOf (disk : List Char → List Char → Option (List (List Char))) (drel : List (List Char))
    (rows : List Char → List Char → List Dated) (names : List (List Char)) (line : List Char) (m : ℤ) : Prop :=
  Label (line.take 11) m ∧ line.length = 11 + 21 * names.length ∧
    ∀ (k : ℕ) (p r : List Char), Listed disk drel p r → names[k]? = some (name p r) →
      (∀ d ∈ rows p r, d.mon = m → Blanked (column line k) (range d)) ∧
      ((∀ d ∈ rows p r, d.mon ≠ m) → Blanked (column line k) "** missing **".toList)

/-- the names of the datasets, in order, and the header with the names above the columns -/
def HeadOf (disk : List Char → List Char → Option (List (List Char))) (drel : List (List Char))
    (names : List (List Char)) (header : List Char) : Prop :=
  names.Pairwise (· < ·) ∧ (∀ n, n ∈ names ↔ ∃ p r, Listed disk drel p r ∧ n = name p r) ∧
    header.take 13 = "   MONTH     ".toList ∧
    ∀ (k : ℕ) (n : List Char), names[k]? = some n → Blanked (headColumn header k) n

end Verif.MonthsIndex.Spec
