import Verif.LoveText.Model

/-!
# What a table of Love numbers says (specification for C90)
-/
namespace Verif.LoveText
open Verif.SLR Verif.LoveNumbers

/-- an entry of a line: a number or `inf` -/
inductive Entry
  | num (t : GIA.Tok)
  | inf

/-- text of the entry with an exponent in `E` or `e` -/
def Entry.chars : Entry → List Char
  | .num t => t.chars
  | .inf => ['i', 'n', 'f']

/-- a number is written with the exponent letter `E`, `e` or Fortran's `D` -/
def Written (t : GIA.Tok) (w : List Char) : Prop :=
  w = t.chars ∨ w = t.chars.map fun c => if c = 'E' then 'D' else c

/-- `Line cs es`: the line consists of the entries `es`, separated by blanks -/
inductive Line : List Char → List Entry → Prop
  | nil : Line [] []
  | blank {cs es} (c : Char) : isSpace c = true → Line cs es → Line (c :: cs) es
  | num {cs es} (t : GIA.Tok) (w : List Char) : Written t w → Stop cs → Line cs es → Line (w ++ cs) (.num t :: es)
  | inf {cs es} : Stop cs → Line cs es → Line ('i' :: 'n' :: 'f' :: cs) (.inf :: es)

/-- the entry gives the degree `d`: an integer without exponent, or `inf` for degree 100000 -/
def IsDegree (e : Entry) (d : ℕ) : Prop :=
  (∃ s a as, e = .num (.int s a as none) ∧ s.val * (decimal (a :: as) : ℤ) = d) ∨ (e = .inf ∧ d = 100000)

/-- the line gives `t` for degree `d`, with the columns in the order `columns` -/
def Says (columns : List String) (line : List Char) (d : ℕ) (t : Triple) : Prop :=
  ∃ (es : List Entry) (e : Entry) (h k l : GIA.Tok), Line line es ∧
    "l" ∈ columns ∧ "hl" ∈ columns ∧ "kl" ∈ columns ∧ "ll" ∈ columns ∧
    es[columns.idxOf "l"]? = some e ∧ IsDegree e d ∧
    es[columns.idxOf "hl"]? = some (.num h) ∧ es[columns.idxOf "kl"]? = some (.num k) ∧
    es[columns.idxOf "ll"]? = some (.num l) ∧ t = ⟨h.val, k.val, l.val⟩

/-- the text of a file with these lines: each is ended by a newline, the last one possibly not -/
def IsText (text : List Char) (lines : List (List Char)) : Prop :=
  (∀ x ∈ lines, ∀ c ∈ x, isBreak c = false) ∧
    (text = (lines.map (· ++ ['\n'])).flatten ∨
      ∃ init last, lines = init ++ [last] ∧ last ≠ [] ∧ text = (init.map (· ++ ['\n'])).flatten ++ last)

/-- the file is a table of `rows`: header lines of any kind, then one line for each degree, in increasing order.  The
degree is in the first column -/
structure IsTable (columns : List String) (header : ℕ) (text : List Char) (rows : List (ℕ × Triple)) : Prop where
  text : ∃ lines, IsText text lines ∧ List.Forall₂ (fun line r => Says columns line r.1 r.2) (lines.drop header) rows
  first : columns.head? = some "l"
  increasing : (rows.map Prod.fst).Pairwise (· < ·)

end Verif.LoveText
