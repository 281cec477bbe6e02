import Verif.HarmIO.Format
import Verif.Harmonics.Model

/-!
# Model of harmonics.to_ascii and harmonics.from_ascii at the level of characters

Arithmetic is exact; a coefficient is a number or NaN (`none`).  Opening and decompressing the file is not modelled: the
file is its list of lines.
-/
namespace Verif.HarmIO
open Verif.SLR Verif.GIA Verif.SpatialIO
open Verif.Time (calendarToGrace adjustMonths)
open Verif (lmPairs)

inductive Err where
  | typeError | indexError | valueError | unbound
deriving DecidableEq

/-- a `harmonics` object of one date (harmonics.py:145-163); `time = none` stands for a missing time or an array, which
cannot be formatted -/
structure Field where
  lmax : ℕ
  mmax : ℕ
  clm : ℕ → ℕ → Option ℚ
  slm : ℕ → ℕ → Option ℚ
  time : Option ℚ
  month : Option ℤ

/-- one line of the file (harmonics.py:769-777) -/
def writeLine (o : Field) (date : Bool) (p : ℕ × ℕ) : Except Err (List Char) :=
  let nums := [fmtD 5 p.1, fmtD 5 p.2, fmtEV 21 12 (o.clm p.1 p.2), fmtEV 21 12 (o.slm p.1 p.2)]
  match date, o.time with
  | false, _ => .ok (joinFields nums)
  | true, some t => .ok (joinFields (nums ++ [fmtF 10 4 t]))
  | true, none => .error .typeError

/-- `to_ascii`: the lines of the file, order by order (harmonics.py:750-779) -/
def toAscii (o : Field) (date : Bool) : Except Err (List (List Char)) :=
  (lmPairs o.lmax o.mmax).mapM (writeLine o date)

/-- `l1,m1,clm1,slm1,*aux = rx.findall(line)` (harmonics.py:266, 285).  `[EeD]` finds exactly what `[Ee]` finds after
replacing `D` by `E`, so the replacement comes first here; a degree, an order or a date with the exponent letter `D`
would be refused by the code but not here -/
def unpack (line : List Char) : Except Err (List Char × List Char × List Char × List Char × List (List Char)) :=
  match rxAll (dToE line) with
  | l :: m :: c :: s :: aux => .ok (l, m, c, s, aux)
  | _ => .error .valueError

/-- a text that has to be a number -/
def orValue {α : Type} : Option α → Except Err α
  | some x => .ok x
  | none => .error .valueError

/-- degree and order of a line (harmonics.py:268, 287) -/
def degreeOrder (line : List Char) : Except Err (ℤ × ℤ) := do
  let w ← unpack line
  let l ← orValue (pyInt w.1)
  let m ← orValue (pyInt w.2.1)
  return (l, m)

/-- `self.lmax = l1 if (l1 > self.lmax) else self.lmax`, from zero (harmonics.py:262-270) -/
def maxOf (ls : List ℤ) : ℕ := ls.foldl (fun acc l => if l > (acc : ℤ) then l.toNat else acc) 0

/-- `self.clm[ll,mm] = ...; self.slm[ll,mm] = ...` for a line (harmonics.py:284-290) -/
def putLine (nl nm : ℕ) (a : (ℕ → ℕ → Option ℚ) × (ℕ → ℕ → Option ℚ)) (line : List Char) :
    Except Err ((ℕ → ℕ → Option ℚ) × (ℕ → ℕ → Option ℚ)) := do
  let w ← unpack line
  let l ← orValue (pyInt w.1)
  let m ← orValue (pyInt w.2.1)
  let c ← orValue (pyFloat w.2.2.1)
  let i ← index nl l
  let j ← index nm m
  let s ← orValue (pyFloat w.2.2.2.1)
  return (setCell a.1 i j (some c), setCell a.2 i j (some s))
where
  /-- index of an array: negative values count from the end -/
  index (n : ℕ) (k : ℤ) : Except Err ℕ :=
    match pyIndex n k with
    | some i => .ok i
    | none => .error .indexError

/-- the date in the last line (harmonics.py:276-280): the first number behind the coefficients -/
def lastDate (date : Bool) (file : List (List Char)) : Except Err (Option ℚ) :=
  if date then
    match file.getLast? with
    | none => .error .unbound
    | some line => do
      let w ← unpack line
      match w.2.2.2.2 with
      | t :: _ => do
        let x ← orValue (pyFloat t)
        return some x
      | [] => .error .indexError
  else .ok none

/-- `from_ascii` (harmonics.py:215-292) on the lines of the file.  The month follows from the date -/
def fromAscii (date : Bool) (file : List (List Char)) : Except Err Field := do
  let lm ← file.mapM degreeOrder
  let lmax := maxOf (lm.map Prod.fst)
  let mmax := maxOf (lm.map Prod.snd)
  let t ← lastDate date file
  let cs ← file.foldlM (putLine (lmax + 1) (mmax + 1)) (fun _ _ => some 0, fun _ _ => some 0)
  return { lmax := lmax, mmax := mmax, clm := cs.1, slm := cs.2, time := t
           month := t.map fun t => (adjustMonths [calendarToGrace t]).headD 0 }

end Verif.HarmIO
