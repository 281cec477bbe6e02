import Verif.GIA.Text

/-!
# Model of read_GIA_model.py

Coefficients are exact rationals.  `none` as result stands for any raised exception.  The reformatted file types
(ascii, netCDF4, HDF5: read_GIA_model.py:560-586) are `harmonics.from_ascii`/`from_file` and `truncate`, which are
modelled in Verif/Harmonics; they, the long reference strings and the permissions of the output are not modelled here.
-/
namespace Verif.GIA
open Verif.SLR (pyFloat pyInt)

abbrev Line := List Char

/-- type of the model (read_GIA_model.py:151-152); `other` is any string that is not a known type, or None -/
inductive Kind where
  | ij05 | w12a | sm09 | ice6g | ice6gD | wu10 | aw13ice6g | aw13ij05 | caron | other
  deriving DecidableEq, Repr

/-- a file: its name, its lines, and what `np.loadtxt` gets from it with one column after one header line (Wu10) and
with three columns after four header lines (Caron); `none` if loadtxt fails -/
structure File where
  name : List Char
  lines : List Line := []
  column : Option (List ℚ) := none
  triples : Option (List (ℤ × ℤ × ℚ)) := none

/-- degree of truncation of the model (read_GIA_model.py:216-337) -/
def defaultDegree : Kind → ℕ
  | .ij05 => 120
  | .ice6g => 60
  | .w12a => 120
  | .sm09 => 120
  | .wu10 => 60
  | .caron => 89
  | .ice6gD => 256
  | .aw13ice6g => 100
  | .aw13ij05 => 256
  | .other => 60

/-- `LMAX = 120 if not kwargs['LMAX'] else kwargs['LMAX']` (read_GIA_model.py:231): 0 also selects the default -/
def degree (k : Kind) (LMAX : Option ℕ) : ℕ :=
  match LMAX with
  | none => defaultDegree k
  | some 0 => defaultDegree k
  | some (n + 1) => n + 1

/-- short citation (read_GIA_model.py:219-330) -/
def citation : Kind → Option String
  | .ij05 => some "Ivins_et_al._(2013)"
  | .ice6g => some "Peltier_et_al._(2015)"
  | .w12a => some "Whitehouse_et_al._(2012)"
  | .sm09 => some "Simpson_et_al._(2009)"
  | .wu10 => some "Wu_et_al._(2010)"
  | .caron => some "Caron_et_al._(2018)"
  | .ice6gD => some "Peltier_et_al._(2018)"
  | .aw13ice6g => some "A_et_al._(2013)"
  | .aw13ij05 => some "A_et_al._(2013)"
  | .other => none

/-- scale factor for geodesy normalization (read_GIA_model.py:359-371) -/
def scaleOf : Kind → ℚ
  | .ij05 => 1e-11
  | .ice6g => 1e-11
  | _ => 1

/-- the two coefficient tables -/
structure Tab where
  c : ℕ → ℕ → ℚ
  s : ℕ → ℕ → ℚ

/-- `np.zeros((LMAX+1,LMAX+1))` twice (read_GIA_model.py:375-376) -/
def zeroTab : Tab := ⟨fun _ _ => 0, fun _ _ => 0⟩

def putC (t : Tab) (l m : ℕ) (v : ℚ) : Tab := { t with c := fun a b => if a = l ∧ b = m then v else t.c a b }
def putS (t : Tab) (l m : ℕ) (v : ℚ) : Tab := { t with s := fun a b => if a = l ∧ b = m then v else t.s a b }

/-- index of an axis of length LMAX+1: negative ones count from the end, others outside raise IndexError -/
def idx (L : ℕ) (i : ℤ) : Option ℕ :=
  if 0 ≤ i then (if i ≤ L then some i.toNat else none)
  else if -((L : ℤ) + 1) ≤ i then some (i + (L + 1)).toNat else none

/-- one line of a coefficient table (read_GIA_model.py:403-416, 516-529, 533-546) -/
def coefLine (L : ℕ) (scale : ℚ) (t : Tab) (line : Line) : Option Tab :=
  let w := rxAll (dToE line)
  if w = [] then some t
  else do
    let l1 ← w[0]?.bind pyInt
    let m1 ← w[1]?.bind pyInt
    if l1 ≤ (L : ℤ) ∧ m1 ≤ (L : ℤ) then do
      let l ← idx L l1
      let m ← idx L m1
      let c ← w[2]?.bind pyFloat
      let s ← w[3]?.bind pyFloat
      some (putS (putC t l m (c * scale)) l m (s * scale))
    else some t

/-- IJ05-R2, W12a, SM09 and AW13 files (read_GIA_model.py:389-416): every line of the file -/
def readTable (L : ℕ) (scale : ℚ) (t : Tab) (ls : List Line) : Option Tab := ls.foldlM (coefLine L scale) t

/-- first column of an order in an ICE-6G line (read_GIA_model.py:433-447) -/
def iceColumn (m : ℕ) : ℕ := (if m % 2 = 0 then 0 else 2) + (if m = 0 ∨ m = 1 then 1 else 0)

/-- state of the ICE-6G loop: the counter, the current line, the tables -/
structure IceState where
  ii : ℕ
  line : List (List Char)
  tab : Tab

/-- the counter and the numbers of the line for an order: a new line for even orders (read_GIA_model.py:432-439) -/
def iceNext (ls : List Line) (st : IceState) (m : ℕ) : Option (ℕ × List (List Char)) :=
  if m % 2 = 0 then (ls[st.ii]?).map (fun x => (st.ii + 1, rxAll x)) else some (st.ii, st.line)

/-- one order of one degree (read_GIA_model.py:431-452) -/
def iceStep (scale : ℚ) (ls : List Line) (l : ℕ) (st : IceState) (m : ℕ) : Option IceState := do
  let p ← iceNext ls st m
  if p.2.length > 0 then do
    let c ← p.2[0 + iceColumn m]?.bind pyFloat
    let s ← p.2[1 + iceColumn m]?.bind pyFloat
    some ⟨p.1, p.2, putS (putC st.tab l m (c * scale)) l m (s * scale)⟩
  else some ⟨p.1, p.2, st.tab⟩

/-- ICE-6G VM5 files (read_GIA_model.py:418-452) -/
def readICE6G (L : ℕ) (scale : ℚ) (ls : List Line) : Option Tab :=
  ((List.range (L + 1)).foldlM (fun st l => (List.range (l + 1)).foldlM (iceStep scale ls l) st)
    ⟨0, [], zeroTab⟩).map IceState.tab

/-- one order of one degree of Wu (2010) (read_GIA_model.py:475-485), with the counter -/
def wuStep (data : List ℚ) (l : ℕ) (st : ℕ × Tab) (m : ℕ) : Option (ℕ × Tab) := do
  let c ← data[st.1]?
  let t := putC st.2 l m (c / 6.371e9)
  if m ≠ 0 then do
    let s ← data[st.1 + 1]?
    some (st.1 + 2, putS t l m (s / 6.371e9))
  else some (st.1 + 1, t)

/-- Wu (2010) (read_GIA_model.py:454-485): degrees from one -/
def readWu (L : ℕ) (data : List ℚ) : Option Tab :=
  ((List.range L).foldlM (fun st i => (List.range (i + 1 + 1)).foldlM (wuStep data (i + 1)) st) (0, zeroTab)).map
    Prod.snd

/-- one row of Caron et al. (2018) (read_GIA_model.py:504-509) -/
def caronStep (L : ℕ) (t : Tab) (r : ℤ × ℤ × ℚ) : Option Tab :=
  if 0 ≤ r.2.1 ∧ r.1 ≤ (L : ℤ) ∧ r.2.1 ≤ (L : ℤ) then do
    let l ← idx L r.1
    let m ← idx L r.2.1
    some (putC t l m r.2.2)
  else if r.2.1 < 0 ∧ r.1 ≤ (L : ℤ) ∧ r.2.1 ≤ (L : ℤ) then do
    let l ← idx L r.1
    let m ← idx L (-r.2.1)
    some (putS t l m r.2.2)
  else some t

/-- Caron et al. (2018) (read_GIA_model.py:487-509) -/
def readCaron (L : ℕ) (rows : List (ℤ × ℤ × ℚ)) : Option Tab := rows.foldlM (caronStep L) zeroTab

/-- header of the first part of ICE-6G_D (read_GIA_model.py:521) -/
def head1 : Line := "GRACE Approximation for degrees 0 to 2".toList
/-- header of the second part (read_GIA_model.py:522) -/
def head2 : Line := "GRACE Approximation/Absolute Sea-level Values for degrees > 2".toList

/-- `header, = [(i+1) for i,l in enumerate(gia_data) if re.match(h,l)]` (read_GIA_model.py:524-525): the line after the
only one beginning with the header -/
def afterHeader (h : Line) (ls : List Line) : Option ℕ :=
  match (List.range ls.length).filter (fun i => h.isPrefixOf (ls.getD i [])) with
  | [i] => some (i + 1)
  | _ => none

/-- ICE-6G_D files (read_GIA_model.py:511-558): six lines after the first header, then all lines after the second -/
def readD (L : ℕ) (scale : ℚ) (ls : List Line) : Option Tab := do
  let h ← afterHeader head1 ls
  let s ← afterHeader head2 ls
  if h + ((2 ^ 2 + 3 * 2) / 2 + 1) ≤ ls.length then do
    let t ← readTable L scale zeroTab ((ls.drop h).take ((2 ^ 2 + 3 * 2) / 2 + 1))
    readTable L scale t (ls.drop s)
  else none

/-! ## Titles from the file name -/

/-- part of a file pattern: a character of a class; one of several literal texts, possibly captured; a captured run of
characters of a class, longest or shortest first; the end of the text -/
inductive Item where
  | ch (p : Char → Bool)
  | alts (ts : List (List Char)) (capture : Bool)
  | run (p : Char → Bool) (greedy : Bool) (min : ℕ)
  | eos

/-- `re.match` of a sequence of parts with backtracking: the captured groups and the remaining text -/
def matchItems : List Item → List Char → Option (List (List Char) × List Char)
  | [], r => some ([], r)
  | .ch _ :: _, [] => none
  | .ch p :: is, c :: r => if p c then matchItems is r else none
  | .alts ts capture :: is, r => ts.findSome? fun a =>
      if a.isPrefixOf r then
        (matchItems is (r.drop a.length)).map fun q => (if capture then a :: q.1 else q.1, q.2)
      else none
  | .run p greedy min :: is, r =>
      let ns := (List.range ((r.takeWhile p).length + 1)).filter (min ≤ ·)
      (if greedy then ns.reverse else ns).findSome? fun n =>
        (matchItems is (r.drop n)).map fun q => (r.take n :: q.1, q.2)
  | .eos :: is, r => if r = [] ∨ r = ['\n'] then matchItems is r else none

/-- `re.findall` for a pattern that does not match the empty text -/
def findN : ℕ → List Item → List Char → List (List (List Char))
  | 0, _, _ => []
  | n + 1, is, r =>
    match matchItems is r with
    | some (g, r') => g :: findN n is r'
    | none => match r with
      | [] => []
      | _ :: t => findN n is t

def findall (is : List Item) (r : List Char) : List (List (List Char)) := findN (r.length + 1) is r

/-- literal text -/
def lit (s : String) : List Item := s.toList.map fun c => .ch (· == c)
/-- `.` -/
def anyCh (c : Char) : Bool := c != '\n'

/-- file patterns (read_GIA_model.py:229-335) -/
def pattern : Kind → List Item
  | .ij05 => lit "Stokes" ++ [.ch anyCh] ++ lit "R2_" ++ [.run anyCh false 0] ++ lit "_L120"
  | .ice6g => lit "Stokes_G_Rot_60_I6_A_" ++ [.run anyCh true 0]
  | .w12a => lit "grate_" ++ [.alts [['B'], ['L'], ['U']] true, .ch anyCh] ++ lit "clm"
  | .sm09 => lit "grate_" ++ [.run Char.isDigit true 1] ++ lit "p" ++ [.alts (["0","1","2","3","4","5","6","7","8","9"].map
      String.toList) true, .run Char.isDigit true 1, .ch anyCh] ++ lit "clm"
  | .ice6gD => [.alts ["ICE-6G_".toList, []] true, .run anyCh false 0, .alts [['_'], []] false] ++ lit "Stokes_trend" ++
      [.alts [['_'], []] false, .run anyCh false 0] ++ lit ".txt" ++ [.eos]
  | .aw13ice6g => lit "stokes." ++ [.alts ["ice6g".toList] true, .ch (fun c => c == '.' || c == '_'),
      .run anyCh false 0, .alts [".txt".toList, []] true, .eos]
  | .aw13ij05 => lit "stokes." ++ [.alts ["R2".toList] true] ++ lit "_" ++
      [.run anyCh false 0, .alts ["_ANT".toList, []] true, .eos]
  | _ => []

/-- name of the earth model in the W12a title (read_GIA_model.py:267) -/
def w12aName : List Char → Option (List Char)
  | ['B'] => some "Best".toList
  | ['L'] => some "Lower".toList
  | ['U'] => some "Upper".toList
  | _ => none

/-- title of the model (read_GIA_model.py:588-637) -/
def title (k : Kind) (name : List Char) : Option (List Char) :=
  let f := findall (pattern k) name
  match k with
  | .ij05 => match f with
    | [[p]] => some ("IJ05_R2_".toList ++ p)
    | _ => none
  | .ice6g => match f with
    | [[p]] => some ("ICE6G_".toList ++ p)
    | _ => none
  | .w12a => match f.getLast? with
    | some [p] => (w12aName p).map ("W12a_".toList ++ ·)
    | _ => none
  | .sm09 => match f.getLast? with
    | some [a, b, c] => some ("SM09_Huy2_".toList ++ a ++ "_.".toList ++ b ++ "_".toList ++ c)
    | _ => none
  | .wu10 => some "Wu_2010".toList
  | .caron => some "Caron_expt".toList
  | .ice6gD => match f.getLast? with
    | some [_, a, b] => some ("ICE6G-D_".toList ++ a ++ b)
    | _ => none
  | .aw13ice6g => match f.getLast? with
    | some [a, b, _] => some ("AW13_".toList ++ a ++ "_".toList ++ b)
    | _ => none
  | .aw13ij05 => match f.getLast? with
    | some [a, b, _] => some ("AW13_IJ05_".toList ++ a ++ "_".toList ++ b)
    | _ => none
  | .other => none

/-! ## The reader -/

/-- what is returned: the tables, the numbers of degrees and orders, the title, the citation -/
structure Out where
  tab : Tab
  nl : ℕ
  nm : ℕ
  title : Option (List Char)
  citation : Option String

/-- the coefficients of the type (read_GIA_model.py:388-558) -/
def coefficients (k : Kind) (L : ℕ) (f : File) : Option Tab :=
  match k with
  | .ice6g => readICE6G L (scaleOf k) f.lines
  | .wu10 => f.column.bind (readWu L)
  | .caron => f.triples.bind (readCaron L)
  | .ice6gD => readD L (scaleOf k) f.lines
  | .other => some zeroTab
  | _ => readTable L (scaleOf k) zeroTab f.lines

/-- number of orders kept: `[:,:MMAX+1]` (read_GIA_model.py:655-661) -/
def orders (L : ℕ) (MMAX : Option ℕ) : ℕ := match MMAX with
  | none => L + 1
  | some m => min (m + 1) (L + 1)

/-- `read_GIA_model` (read_GIA_model.py:154-664); `file` is `none` if there is no such file -/
def readGIA (k : Kind) (file : Option File) (LMAX MMAX : Option ℕ := none) : Option Out :=
  let L := degree k LMAX
  if k = .other then some ⟨zeroTab, L + 1, orders L MMAX, none, none⟩
  else do
    let f ← file
    let t ← coefficients k L f
    let n ← title k f.name
    some ⟨t, L + 1, orders L MMAX, some n, citation k⟩

/-- name of the output file (read_GIA_model.py:645-646) -/
def outName (title : List Char) (L : ℕ) (suffix : String) : List Char :=
  "stokes_".toList ++ title ++ "_L".toList ++ (toString L).toList ++ ".".toList ++ suffix.toList

/-- `gia.from_GIA` (read_GIA_model.py:685-741): `file` is `none` for the
empty file name; degree of the object, the keywords `mmax` and `MMAX`; the maximal degree
and order of the object with the result.  With `MMAX` the value of `mmax` is copied, and a copy of None is an array of it
for which `MMAX+1` fails -/
def fromGIA (k : Kind) (file : Option File) (lmax mmax MMAX : Option ℕ) : Option (Out × ℕ × ℕ) :=
  if MMAX.isSome ∧ mmax = none then none
  else (readGIA k file lmax mmax).map fun o => (o, o.nl - 1, o.nm - 1)

end Verif.GIA
