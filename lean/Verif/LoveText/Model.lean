import Verif.LoveNumbers.Model
import Verif.GIA.Text

/-!
# Model of the text level of `read_love_numbers.py`, of `load_love_numbers` and of the `love_numbers` class

Numbers are exact rationals.  The numerical core (interpolation, extrapolation, frames) is `Verif.LoveNumbers.Model`; here are
the lines and numbers of the file, the choice of the file, the output formats and the class.  Negative degrees (which
Python would count from the end of the arrays) and infinite Love numbers are treated as exceptions.
-/
namespace Verif.LoveText
open Verif.SLR Verif.LoveNumbers

/-! ## Text -/

/-- the expression `[-+]?(?:(?:\d*\.\d+)|(?:\d+\.?)|(?:inf))(?:[Ee][+-]?\d+)?` at the beginning of the text: matched part and
rest (read_love_numbers.py:153) -/
def rxAt (cs : List Char) : Option (List Char × List Char) :=
  match GIA.rxAt cs with
  | some x => some x
  | none =>
    if (optSign cs).2.take 3 = ['i', 'n', 'f'] then
      some ((optSign cs).1 ++ ['i', 'n', 'f'] ++ (expo ((optSign cs).2.drop 3)).1, (expo ((optSign cs).2.drop 3)).2)
    else none

/-- `rx.findall` with fuel -/
def findallN : ℕ → List Char → List (List Char)
  | 0, _ => []
  | _ + 1, [] => []
  | n + 1, c :: cs =>
    match rxAt (c :: cs) with
    | some (a, r) => a :: findallN n r
    | none => findallN n cs

/-- `rx.findall(line)` -/
def findall (cs : List Char) : List (List Char) := findallN cs.length cs

/-- line boundaries of `str.splitlines` -/
def isBreak (c : Char) : Bool :=
  c = '\n' || c = '\r' || c = '\x0b' || c = '\x0c' || c = '\x1c' || c = '\x1d' || c = '\x1e' || c = '\u0085' ||
    c = '\u2028' || c = '\u2029'

/-- `str.splitlines()` (read_love_numbers.py:293, 296): `cur` is the unfinished line -/
def splitlinesAux (cur : List Char) : List Char → List (List Char)
  | [] => if cur = [] then [] else [cur]
  | '\r' :: '\n' :: cs => cur :: splitlinesAux [] cs
  | c :: cs => if isBreak c = true then cur :: splitlinesAux [] cs else splitlinesAux (cur ++ [c]) cs

/-- `str.splitlines()` -/
def splitlines (cs : List Char) : List (List Char) := splitlinesAux [] cs

/-- `found[COLUMNS.index(name)]`: `none` for `ValueError` or `IndexError` -/
def column (columns : List String) (found : List (List Char)) (name : String) : Option (List Char) :=
  if name ∈ columns then found[columns.idxOf name]? else none

/-- `_default_max_degree if (degree == 'inf') else int(degree)` (read_love_numbers.py:158-161, 181) -/
def degree (t : List Char) : Option ℕ :=
  if t = ['i', 'n', 'f'] then some defaultMaxDegree
  else (pyInt t).bind fun i => if 0 ≤ i then some i.toNat else none

/-- the three values of a line (read_love_numbers.py:188-189) -/
def values (columns : List String) (found : List (List Char)) : Option Triple :=
  match (column columns found "hl").bind pyFloat, (column columns found "kl").bind pyFloat,
      (column columns found "ll").bind pyFloat with
  | some h, some k, some l => some ⟨h, k, l⟩
  | _, _, _ => none

/-- one line: the values are only looked at for degrees within the truncation (read_love_numbers.py:175-191).  The second
component is the variable `l` -/
def readLine (lmax : ℕ) (columns : List String) (s : ReadState × Option ℕ) (line : List Char) :
    Option (ReadState × Option ℕ) :=
  let found := findall (GIA.dToE line)
  match (column columns found "l").bind degree with
  | none => none
  | some l =>
    if l ≤ lmax then (values columns found).map fun t => (readStep lmax s.1 (l, t), some l)
    else some (s.1, some l)

/-- the loop over the lines -/
def readLines (lmax : ℕ) (columns : List String) : ReadState × Option ℕ → List (List Char) → Option (ReadState × Option ℕ)
  | s, [] => some s
  | s, line :: rest =>
    match readLine lmax columns s line with
    | none => none
    | some s => readLines lmax columns s rest

/-- what follows the loop (read_love_numbers.py:194-236); the variable `l` is not defined if there was no line; `np.interp`
without any known degree raises `ValueError` -/
def finish (lmax : ℕ) (reference : String) (s : ReadState × Option ℕ) : Option Love :=
  if lmax = 0 then some s.1.love
  else
    match s.2 with
    | none => none
    | some l =>
      if (List.range (lmax + 1)).any s.1.flag ∧ (List.range (lmax + 1)).all s.1.flag then none
      else
        let b := Love.map (extrapolate l lmax) (Love.map (interpolate lmax s.1.flag) s.1.love)
        (alpha reference (b.hl 1) (b.ll 1)).map fun α => Love.map (shift α) b

/-- the truncation degree (read_love_numbers.py:157-161): the last line is searched without replacing `D` -/
def lmaxOf (LMAX : Option ℕ) (columns : List String) (lines : List (List Char)) : Option ℕ :=
  match lines.getLast? with
  | none => none
  | some line =>
    match column columns (findall line) "l", LMAX with
    | none, _ => none
    | some _, some n => some n
    | some t, none => degree t

/-- `read_love_numbers` for the text of a file (read_love_numbers.py:102-236): truncation degree and arrays -/
def readText (LMAX : Option ℕ) (header : ℕ) (columns : List String) (reference : String) (text : List Char) :
    Option (ℕ × Love) :=
  match lmaxOf LMAX columns (splitlines text) with
  | none => none
  | some n =>
    match readLines n columns (init, none) ((splitlines text).drop header) with
    | none => none
    | some s => (finish n reference s).map fun a => (n, a)

/-! ## Output formats and the class -/

/-- `np` array of the degrees `0..n` -/
def arr (n : ℕ) (v : ℕ → ℚ) : List ℚ := (List.range (n + 1)).map v

/-- a `love_numbers` object (read_love_numbers.py:406-450) -/
structure Obj where
  hl : List ℚ
  kl : List ℚ
  ll : List ℚ
  lmax : Option ℤ
  l : Option (List ℕ)
  reference : Option String
  model : Option String
  citation : Option String
  filename : Option String
deriving DecidableEq

/-- `love_numbers(lmax=...)` (read_love_numbers.py:436-450) -/
def Obj.new (lmax : Option ℤ) : Obj :=
  ⟨[], [], [], lmax, lmax.map fun n => List.range (n + 1).toNat, none, none, none, none⟩

/-- dictionary of Love numbers; the key `'l'` is only present in dictionaries of `read_love_numbers` -/
structure Dict where
  l : Option (List ℕ)
  hl : List ℚ
  kl : List ℚ
  ll : List ℚ
deriving DecidableEq

/-- `from_dict` (read_love_numbers.py:452-468), for a dictionary with the three keys -/
def Obj.fromDict (o : Obj) (d : Dict) : Obj :=
  { o with
    hl := d.hl, kl := d.kl, ll := d.ll, lmax := some ((d.hl.length : ℤ) - 1),
    l := some (List.range ((d.hl.length : ℤ) - 1 + 1).toNat) }

/-- `to_dict` (read_love_numbers.py:470-483) -/
def Obj.toDict (o : Obj) : Dict := ⟨none, o.hl, o.kl, o.ll⟩

/-- `to_tuple` (read_love_numbers.py:485-495) -/
def Obj.toTuple (o : Obj) : List ℚ × List ℚ × List ℚ := (o.hl, o.kl, o.ll)

/-- `__iter__` (read_love_numbers.py:563-568): what `*LOVE` passes on -/
def Obj.iter (o : Obj) : List (List ℚ) := [o.hl, o.kl, o.ll]

/-- `__len__` (read_love_numbers.py:558-561) -/
def Obj.len (o : Obj) : Option ℕ := o.l.map List.length

/-- what `read_love_numbers` returns -/
inductive Out
  | dict (d : Dict)
  | tuple (hl kl ll : List ℚ)
  | zip (t : List (ℚ × ℚ × ℚ))
  | cls (o : Obj)
  | none
deriving DecidableEq

/-- `zip(a, b, c)` -/
def zip3 : List ℚ → List ℚ → List ℚ → List (ℚ × ℚ × ℚ)
  | a :: as, b :: bs, c :: cs => (a, b, c) :: zip3 as bs cs
  | _, _, _ => []

/-- `love_number_formatter` (read_love_numbers.py:239-272) -/
def formatter (d : Dict) (FORMAT : String) : Out :=
  if FORMAT = "dict" then .dict d
  else if FORMAT = "tuple" then .tuple d.hl d.kl d.ll
  else if FORMAT = "zip" then .zip (zip3 d.hl d.kl d.ll)
  else if FORMAT = "class" then .cls ((Obj.new none).fromDict d)
  else .none

/-- dictionary of the arrays read -/
def dictOf (n : ℕ) (a : Love) : Dict := ⟨some (List.range (n + 1)), arr n a.hl, arr n a.kl, arr n a.ll⟩

/-- `read_love_numbers` (read_love_numbers.py:102-236) -/
def readLoveNumbers (LMAX : Option ℕ) (header : ℕ) (columns : List String) (reference FORMAT : String) (text : List Char) :
    Option Out :=
  match readText LMAX header columns reference text with
  | none => none
  | some (n, a) => some (formatter (dictOf n a) FORMAT)

/-! ## load_love_numbers -/

/-- a table of the package -/
structure Table where
  file : String
  model : String
  citation : String
  header : ℕ
  columns : List String
deriving DecidableEq

/-- the choice of the table (read_love_numbers.py:339-386); `none` for the `ValueError` -/
def table : ℕ → Option Table
  | 0 => some ⟨"love_numbers", "PREM", "Han and Wahr (1995)", 2, ["l", "hl", "kl", "ll"]⟩
  | 1 => some ⟨"Load_Love2_CE.dat", "PREM", "Gegout et al. (2010)", 3, ["l", "hl", "ll", "kl"]⟩
  | 2 => some ⟨"PREM-LLNs-truncated.dat", "PREM", "Wang et al. (2012)", 1, ["l", "hl", "ll", "kl", "nl", "nk"]⟩
  | 3 => some ⟨"PREMhard-LLNs-truncated.dat", "PREMhard", "Wang et al. (2012)", 1, ["l", "hl", "ll", "kl", "nl", "nk"]⟩
  | 4 => some ⟨"PREMsoft-LLNs-truncated.dat", "PREMsoft", "Wang et al. (2012)", 1, ["l", "hl", "ll", "kl", "nl", "nk"]⟩
  | _ => none

/-- attributes of the class (read_love_numbers.py:398-402) -/
def setAttributes (t : Table) (reference : String) : Out → Out
  | .cls o => .cls { o with
      filename := some t.file, reference := some reference, model := some t.model, citation := some t.citation }
  | x => x

/-- `load_love_numbers` (read_love_numbers.py:301-404); `data` are the files of the package -/
def load (data : String → List Char) (LMAX LOVE_NUMBERS : ℕ) (REFERENCE FORMAT : String) : Option Out :=
  match table LOVE_NUMBERS with
  | none => none
  | some t =>
    match readLoveNumbers (some LMAX) t.header t.columns REFERENCE FORMAT (data t.file) with
    | none => none
    | some out => if FORMAT = "class" then some (setAttributes t REFERENCE out) else some out

/-! ## Shared arrays -/

/-- arrays in memory -/
abbrev Heap := ℕ → List ℚ

/-- addresses of the three arrays of an object, of a dictionary or of a tuple -/
structure Refs where
  h : ℕ
  k : ℕ
  l : ℕ
deriving DecidableEq

/-- `from_dict`, `to_dict`, `to_tuple` and `__iter__` hand on the arrays themselves (read_love_numbers.py:462-495,
563-568) -/
def handOn (r : Refs) : Refs := r

/-- `array[1] -= alpha` -/
def subAt1 (α : ℚ) (a : List ℚ) : List ℚ := a.modify 1 fun x => x - α

/-- `transform` (read_love_numbers.py:497-541): the arrays change in place, one after the other; `none` for an unknown frame
or arrays without degree 1 -/
def transformHeap (m : Heap) (r : Refs) (reference : String) : Option Heap :=
  match (m r.h)[1]?, (m r.k)[1]?, (m r.l)[1]? with
  | some h1, some _, some l1 =>
    (alpha reference h1 l1).map fun α =>
      let m1 := Function.update m r.h (subAt1 α (m r.h))
      let m2 := Function.update m1 r.k (subAt1 α (m1 r.k))
      Function.update m2 r.l (subAt1 α (m2 r.l))
  | _, _, _ => none

end Verif.LoveText
