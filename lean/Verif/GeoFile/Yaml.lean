import Verif.GeoRead.Props2

/-!
# The header of geocenter files, as a YAML document

Model of what `yaml.load(text, Loader=yaml.BaseLoader)` (gravity_toolkit/geocenter.py:479-480) does with documents made of
block mappings and block sequences whose scalars are plain and on one line, which is what
scripts/calc_degree_one.py:1137-1346 writes.  `none`: the scanner or the parser raises, or the document is outside this
subset (quoted scalars, flow collections, scalars over several lines, a sequence inside a sequence).  A blank is a space.
-/
namespace Verif.GeoFile

/-- a line of the file -/
abbrev Line := List Char

/-- a comment starts with `#` at the beginning of the line or behind a blank; `b` says that this is the place -/
def uncomment : Bool → Line → Line
  | _, [] => []
  | b, c :: cs => if b && c == '#' then [] else c :: uncomment (c == ' ') cs

/-- blanks at the left removed -/
def lstrip (l : Line) : Line := l.dropWhile (· == ' ')

/-- blanks at the right removed -/
def rstrip (l : Line) : Line := (l.reverse.dropWhile (· == ' ')).reverse

/-- the text before and after the first colon that has a blank or the end of the line behind it -/
def splitKey : Line → Option (Line × Line)
  | [] => none
  | c :: cs =>
    if c == ':' && (match cs with | [] => true | d :: _ => d == ' ') then some ([], cs)
    else (splitKey cs).map fun p => (c :: p.1, p.2)

/-- characters that cannot begin a plain scalar (`check_plain` of the scanner) -/
def indicators : List Char := "-?:,[]{}#&*!|>'\"%@`".toList

/-- may the text be a plain scalar (`check_plain`): the first character is no indicator, or it is one of `-?:` and the next
one is no blank -/
def plainStart : Line → Bool
  | [] => true
  | c :: cs => !indicators.contains c ||
      ((c == '-' || c == '?' || c == ':') && (match cs with | [] => false | d :: _ => d != ' '))

/-- one scalar, or one key with its value.  The key may have at most 1024 characters, and a second colon with a blank is
refused ("mapping values are not allowed here") -/
def parseText (t : Line) : Option (Option Line × Line) :=
  match splitKey t with
  | none => if plainStart t then some (none, rstrip t) else none
  | some (k, v) =>
    if plainStart t && k != [] && decide (k.length ≤ 1024) && (splitKey v).isNone && plainStart (lstrip v) then
      some (some (rstrip k), rstrip (lstrip v))
    else none

/-- a line with contents: its indentation, whether it is an item of a sequence, its key and its value (empty when there
is none) -/
structure Node where
  indent : ℕ
  seq : Bool
  key : Option Line
  value : Line
deriving DecidableEq

/-- a line; `some none`: nothing but blanks and a comment -/
def parseLine (l : Line) : Option (Option Node) :=
  let t := uncomment true l
  let i := t.length - (lstrip t).length
  match lstrip t with
  | [] => some none
  | '-' :: ' ' :: r => (parseText (lstrip r)).map fun p => some ⟨i, true, p.1, p.2⟩
  | body => (parseText body).bind fun p => p.1.map fun k => some ⟨i, false, some k, p.2⟩

/-- what matters for the nesting: indentation, item of a sequence, a block may follow -/
def Node.shape (n : Node) : ℕ × Bool × Bool := (n.indent, n.seq, !n.seq && n.value.isEmpty)

/-- the indentations are consistent: a block that is indented more than its parent follows a key without value, and
otherwise the line belongs to a block that is open, of the same kind -/
def nested : List (ℕ × Bool) → Bool → List (ℕ × Bool × Bool) → Bool
  | _, _, [] => true
  | st, op, n :: ns =>
    let st' := if op && (match st with | [] => true | p :: _ => decide (p.1 < n.1)) then (n.1, n.2.1) :: st
      else st.dropWhile fun p => decide (n.1 < p.1)
    match st' with
    | [] => false
    | p :: _ => p.1 == n.1 && p.2 == n.2.1 && nested st' n.2.2 ns

/-- the document -/
def yaml (ls : List Line) : Option (List Node) :=
  (ls.mapM parseLine).bind fun ns =>
    let ns := ns.filterMap id
    if nested [] true (ns.map Node.shape) then some ns else none

/-- `block[key]` for a value that is a block (the first of equal keys: the headers have none in these blocks) -/
def under (key : Line) (ns : List Node) : Option (List Node) :=
  match ns with
  | [] => none
  | n :: _ =>
    match ns.dropWhile fun m => !(m.indent == n.indent && m.key == some key && !m.seq) with
    | [] => none
    | m :: rest => if m.value.isEmpty then some (rest.takeWhile fun m => decide (n.indent < m.indent)) else none

/-- `block[key]` for a value that is a scalar -/
def scalarAt (key : Line) (ns : List Node) : Option Line :=
  match ns with
  | [] => none
  | n :: _ => ((ns.find? fun m => m.indent == n.indent && m.key == some key && !m.seq).map Node.value).filter fun v => !v.isEmpty

/-- names and comments of `header['variables']` (gravity_toolkit/geocenter.py:486-494) -/
def variablesOf (ls : List Line) : Option (List (String × List Char)) := do
  let doc ← yaml ls
  let header ← under "header".toList doc
  let vars ← under "variables".toList header
  match vars with
  | [] => none
  | n :: _ =>
    (vars.filter fun m => m.indent == n.indent).mapM fun m => do
      let k ← m.key
      let block ← under k vars
      let c ← scalarAt "comment".toList block
      some (String.ofList k, c)

end Verif.GeoFile
