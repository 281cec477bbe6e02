import Verif.Common.Loop
import Mathlib.Algebra.Field.Rat
import Mathlib.Algebra.Order.Field.Rat
import Mathlib.Data.Rat.Cast.Defs
import Mathlib.Data.List.Dedup

/-!
# Model of the Level-2 readers and of `grace_input_months`

Coefficient values live in a field `K` (exact arithmetic); dates are rationals.
Files are modelled after splitting into parsed lines; regular expressions, file names,
attributes and headers are not modelled.
-/
namespace Verif.Input

/-- Python exceptions -/
inductive Err
  | ioError (months : List ℤ) | indexError | valueError | nameError
deriving DecidableEq

variable {K : Type} [Field K]

/-! ## `read_GRACE_harmonics` -/

/-- A parsed line of a Level-2 file: a data line (`GRCOF2`/`gfc`), a drift line (`GRDOTA`) or a
header line. -/
inductive FileLine (K : Type)
  | coef (l m : ℕ) (c s ec es : K)
  | drift (l m : ℕ) (c s : K)
  | other

/-- the arrays filled by the reader -/
structure L2 (K : Type) where
  clm : ℕ × ℕ → K
  slm : ℕ × ℕ → K
  eclm : ℕ × ℕ → K
  eslm : ℕ × ℕ → K
  driftC : ℕ × ℕ → K
  driftS : ℕ × ℕ → K

/-- initial arrays: zeros, with `clm[0,0] = 1` (read_GRACE_harmonics.py:184-194) -/
def l2Init : L2 K :=
  { clm := Function.update (fun _ => 0) (0, 0) 1, slm := fun _ => 0, eclm := fun _ => 0,
    eslm := fun _ => 0, driftC := fun _ => 0, driftS := fun _ => 0 }

/-- body of the loop over the lines (read_GRACE_harmonics.py:215-237). `rl04` is
`(DREL == 4) and (DSET == 'GSM')`; otherwise the drift arrays do not exist (`NameError`). -/
def l2Step (rl04 : Bool) (LMAX MMAX : ℕ) (st : L2 K) : FileLine K → Except Err (L2 K)
  | .other => .ok st
  | .coef l m c s ec es =>
    if l ≤ LMAX ∧ m ≤ MMAX then
      .ok { st with clm := Function.update st.clm (l, m) c
                    slm := Function.update st.slm (l, m) s
                    eclm := Function.update st.eclm (l, m) ec
                    eslm := Function.update st.eslm (l, m) es }
    else .ok st
  | .drift l m c s =>
    if rl04 then
      if l ≤ LMAX ∧ m ≤ MMAX then
        .ok { st with driftC := Function.update st.driftC (l, m) c
                      driftS := Function.update st.driftS (l, m) s }
      else .error .indexError
    else .error .nameError

/-- the loop over all lines -/
def l2Lines (rl04 : Bool) (LMAX MMAX : ℕ) (st : L2 K) : List (FileLine K) → Except Err (L2 K)
  | [] => .ok st
  | x :: xs => match l2Step rl04 LMAX MMAX st x with
    | .ok st' => l2Lines rl04 LMAX MMAX st' xs
    | .error e => .error e

/-- processing centers distinguished by the pole tide correction
(read_GRACE_harmonics.py:254, 277) -/
inductive Center
  | csrJpl | gfz | other
deriving DecidableEq

/-- `m1`, `m2`: IERS mean pole (read_GRACE_harmonics.py:256-267) -/
def meanPole (time : ℚ) : ℚ × ℚ :=
  let dt := time - 2000
  let a : List ℚ := if time < 2010 then [0.055974, 1.8243e-3, 1.8413e-4, 7.024e-6]
    else [0.023513, 7.6141e-3, 0, 0]
  let b : List ℚ := if time < 2010 then [-0.346346, -1.7896e-3, 1.0729e-4, 0.908e-6]
    else [-0.358891, 0.6287e-3, 0, 0]
  ([1, 2, 3].foldl (fun m x => m + a.getD x 0 * dt ^ x) (a.getD 0 0),
   [1, 2, 3].foldl (fun m x => m + b.getD x 0 * dt ^ x) (b.getD 0 0))

/-- `C21_PT`, `S21_PT` (read_GRACE_harmonics.py:268-281); other centers have no correction -/
def poleTide (ctr : Center) (time : ℚ) : Option (ℚ × ℚ) :=
  let dt := time - 2000
  match ctr with
  | .csrJpl =>
    let m := meanPole time
    some (-1.551e-9 * (m.1 - 0.62e-3 * dt) - 0.012e-9 * (m.2 + 3.48e-3 * dt),
      0.021e-9 * (m.1 - 0.62e-3 * dt) - 1.505e-9 * (m.2 + 3.48e-3 * dt))
  | .gfz => some (-1.551e-9 * (-0.62e-3 * dt) - 0.012e-9 * (3.48e-3 * dt),
      0.021e-9 * (-0.62e-3 * dt) - 1.505e-9 * (3.48e-3 * dt))
  | .other => none

/-- RL04 drift (read_GRACE_harmonics.py:243-247) -/
def applyDrift (rl04 : Bool) (time : ℚ) (st : L2 K) : L2 K :=
  if rl04 then
    { st with clm := fun p => st.clm p + ((time - 2003.3 : ℚ) : K) * st.driftC p
              slm := fun p => st.slm p + ((time - 2003.3 : ℚ) : K) * st.driftS p }
  else st

/-- pole tide correction (read_GRACE_harmonics.py:250-284); `clm[2,1]` does not exist for small
truncations -/
def applyPoleTide (on gsm : Bool) (ctr : Center) (time : ℚ) (LMAX MMAX : ℕ) (st : L2 K) :
    Except Err (L2 K) :=
  if on && gsm then
    match poleTide ctr time with
    | none => .ok st
    | some (c, s) =>
      if 2 ≤ LMAX ∧ 1 ≤ MMAX then
        .ok { st with clm := Function.update st.clm (2, 1) (st.clm (2, 1) - (c : K))
                      slm := Function.update st.slm (2, 1) (st.slm (2, 1) - (s : K)) }
      else .error .indexError
  else .ok st

/-- `read_GRACE_harmonics` (read_GRACE_harmonics.py:79-289); `rl4` is `DREL == 4`. -/
def readGrace (rl4 gsm poleTideOn : Bool) (ctr : Center) (time : ℚ) (LMAX MMAX : ℕ)
    (lines : List (FileLine K)) : Except Err (L2 K) :=
  match l2Lines (rl4 && gsm) LMAX MMAX l2Init lines with
  | .error e => .error e
  | .ok st => applyPoleTide poleTideOn gsm ctr time LMAX MMAX (applyDrift (rl4 && gsm) time st)

/-! ## `read_ecmwf_corrections` -/

/-- one of the three correction files after the loop over its lines
(grace_input_months.py:876-893) -/
def ecmwfFile (LMAX MMAX : ℕ) (lines : List (FileLine K)) : (ℕ × ℕ → K) × (ℕ × ℕ → K) :=
  lines.foldl (fun st x => match x with
    | .coef l m c s _ _ => if l ≤ LMAX ∧ m ≤ MMAX then
        (Function.update st.1 (l, m) c, Function.update st.2 (l, m) s) else st
    | _ => st) (fun _ => 0, fun _ => 0)

/-- names of the files -/
inductive Corr
  | GAE | GAF | GAG
deriving DecidableEq

/-- the chain of conditions on the month (grace_input_months.py:903-911) -/
def corrOf (g : ℤ) : Option Corr :=
  if g ≥ 50 ∧ g ≤ 97 then some .GAE
  else if g ≥ 98 ∧ g ≤ 161 then some .GAF
  else if g > 161 then some .GAG
  else none

/-- `read_ecmwf_corrections` (grace_input_months.py:834-914). The output has `LMAX+1` orders, the
fields `MMAX+1`: assigning `[:,:,i]` broadcasts if `MMAX` is 0 and fails otherwise unless
`MMAX = LMAX`. Results are per date. -/
def readEcmwf (LMAX MMAX : ℕ) (files : Corr → List (FileLine K)) (months : List ℤ) :
    Except Err (List ((ℕ × ℕ → K) × (ℕ × ℕ → K))) :=
  if (∃ g ∈ months, (corrOf g).isSome) ∧ MMAX ≠ LMAX ∧ MMAX ≠ 0 then .error .valueError
  else .ok (months.map fun g => match corrOf g with
    | none => (fun _ => 0, fun _ => 0)
    | some k =>
      let f := ecmwfFile LMAX MMAX (files k)
      if MMAX = LMAX then f else (fun p => f.1 (p.1, 0), fun p => f.2 (p.1, 0)))

/-! ## low-degree replacement in `grace_input_months` -/

/-- The time series of fields: entry `i` belongs to `months[i]`. -/
structure Fields (K : Type) where
  clm : ℕ → ℕ → ℕ → K
  slm : ℕ → ℕ → ℕ → K
  eclm : ℕ → ℕ → ℕ → K
  eslm : ℕ → ℕ → ℕ → K

/-- a record of a replacement series: month, coefficients, errors -/
structure Rec (K : Type) where
  month : ℤ
  c : K
  s : K
  ec : K
  es : K

/-- write one entry of an array -/
def put (a : ℕ → ℕ → ℕ → K) (l m i : ℕ) (v : K) : ℕ → ℕ → ℕ → K :=
  fun l' m' i' => if l' = l ∧ m' = m ∧ i' = i then v else a l' m' i'

/-- Body of a replacement loop (e.g. grace_input_months.py:682-687, 697-704, 731-736): for month
`g` at index `i`. `k, = np.nonzero(month == g)` are all records of the month; assigning an array
of one element to a scalar entry works, of several is a `ValueError`. `late` is the extra
condition `grace_month > 176`; for zonal coefficients (`sine = false`) only `clm`, `eclm` are
written. -/
def replaceStep (LMAX MMAX l m : ℕ) (sine late : Bool) (series : List (Rec K)) (f : Fields K)
    (i : ℕ) (g : ℤ) : Except Err (Fields K) :=
  let ks := series.filter fun r => r.month = g
  if ks.length ≠ 0 ∧ (late = true → g > 176) then
    match ks with
    | [r] =>
      if l ≤ LMAX ∧ m ≤ MMAX then
        if sine then .ok ⟨put f.clm l m i r.c, put f.slm l m i r.s,
          put f.eclm l m i r.ec, put f.eslm l m i r.es⟩
        else .ok ⟨put f.clm l m i r.c, f.slm, put f.eclm l m i r.ec, f.eslm⟩
      else .error .indexError
    | _ => .error .valueError
  else .ok f

/-- `for i,grace_month in enumerate(months)` -/
def enumLoop (body : Fields K → ℕ → ℤ → Except Err (Fields K)) (f : Fields K) (i : ℕ) :
    List ℤ → Except Err (Fields K)
  | [] => .ok f
  | g :: gs => match body f i g with
    | .ok f' => enumLoop body f' (i + 1) gs
    | .error e => .error e

/-- A replacement stage: check that the needed months are available
(`months_test = sorted(set(needed) - set(series))`), then loop
(grace_input_months.py:675-687 for C20, `late = false`; 690-766 for the others, `late = true`).
The months are those of `inputMonths`, hence sorted without repetitions, so the filtered list is
the sorted set. -/
def replaceStage (LMAX MMAX l m : ℕ) (sine late : Bool) (series : List (Rec K)) (months : List ℤ)
    (f : Fields K) : Except Err (Fields K) :=
  let needed := if late then months.filter (· > 176) else months
  let missing := needed.filter fun g => g ∉ series.map Rec.month
  if missing ≠ [] then .error (.ioError missing)
  else enumLoop (replaceStep LMAX MMAX l m sine late series) f 0 months

/-- a record of a geocenter series -/
structure GeoRec (K : Type) where
  month : ℤ
  c10 : K
  c11 : K
  s11 : K

/-- body of the degree one loop (grace_input_months.py:792-804); `model` are the regressed
coefficients of date `i` if `MODEL_DEG1` is set -/
def deg1Step (LMAX MMAX : ℕ) (model : Option (ℕ → K × K × K)) (series : List (GeoRec K))
    (f : Fields K) (i : ℕ) (g : ℤ) : Except Err (Fields K) :=
  let ks := series.filter fun r => r.month = g
  let write (c10 c11 s11 : K) : Except Err (Fields K) :=
    if 1 ≤ LMAX ∧ 1 ≤ MMAX then
      .ok { f with clm := put (put f.clm 1 0 i c10) 1 1 i c11, slm := put f.slm 1 1 i s11 }
    else .error .indexError
  match ks, model with
  | [], some md => write (md i).1 (md i).2.1 (md i).2.2
  | [r], _ => write r.c10 r.c11 r.s11
  | _, _ => .error .valueError

/-- degree one stage (grace_input_months.py:774-804) -/
def deg1Stage (LMAX MMAX : ℕ) (model : Option (ℕ → K × K × K)) (series : List (GeoRec K))
    (months : List ℤ) (f : Fields K) : Except Err (Fields K) :=
  let missing := months.filter fun g => g ∉ series.map GeoRec.month
  if model.isNone ∧ missing ≠ [] then .error (.ioError missing)
  else enumLoop (deg1Step LMAX MMAX model series) f 0 months

/-- kind of data product -/
inductive DSet
  | GSM | GAC | GAA | other
deriving DecidableEq

/-- the atmospheric correction loops (grace_input_months.py:807-823): all `m ≤ l`, all dates -/
def atmStage (LMAX MMAX : ℕ) (ds : DSet) (corr : List ((ℕ × ℕ → K) × (ℕ × ℕ → K)))
    (f : Fields K) : Fields K :=
  let c (i : ℕ) : (ℕ × ℕ → K) × (ℕ × ℕ → K) := corr.getD i (fun _ => 0, fun _ => 0)
  let upd (op : K → K → K) : Fields K :=
    { f with
      clm := fun l m => updateLoop (lmPairs LMAX MMAX)
        (fun p v => fun i => op (v i) ((c i).1 p)) (fun p => f.clm p.1 p.2) (l, m)
      slm := fun l m => updateLoop (lmPairs LMAX MMAX)
        (fun p v => fun i => op (v i) ((c i).2 p)) (fun p => f.slm p.1 p.2) (l, m) }
  match ds with
  | .GSM => upd (· - ·)
  | .GAC => upd (· + ·)
  | .GAA => upd (· + ·)
  | .other => f

/-- The replacement series selected by the arguments (`none`: no replacement). -/
structure Opts (K : Type) where
  c20 : Option (List (Rec K)) := none
  cs21 : Option (List (Rec K)) := none
  cs22 : Option (List (Rec K)) := none
  c30 : Option (List (Rec K)) := none
  c40 : Option (List (Rec K)) := none
  c50 : Option (List (Rec K)) := none
  deg1 : Option (List (GeoRec K)) := none
  model : Option (ℕ → K × K × K) := none
  atm : Option (Corr → List (FileLine K)) := none

/-- run a stage if its series is given -/
def optStage {A : Type} (o : Option A) (stage : A → Fields K → Except Err (Fields K))
    (r : Except Err (Fields K)) : Except Err (Fields K) :=
  match r with
  | .error e => .error e
  | .ok f => match o with
    | none => .ok f
    | some a => stage a f

/-- The stages of `grace_input_months` after reading the files, in their order
(grace_input_months.py:674-823). -/
def replaceAll (LMAX MMAX : ℕ) (ds : DSet) (o : Opts K) (months : List ℤ) (f : Fields K) :
    Except Err (Fields K) :=
  let r := optStage o.c20 (fun s => replaceStage LMAX MMAX 2 0 false false s months) (.ok f)
  let r := optStage o.cs21 (fun s => replaceStage LMAX MMAX 2 1 true true s months) r
  let r := optStage o.cs22 (fun s => replaceStage LMAX MMAX 2 2 true true s months) r
  let r := optStage o.c30 (fun s => replaceStage LMAX MMAX 3 0 false true s months) r
  let r := optStage o.c40 (fun s => replaceStage LMAX MMAX 4 0 false true s months) r
  let r := optStage o.c50 (fun s => replaceStage LMAX MMAX 5 0 false true s months) r
  let r := optStage o.deg1 (fun s => deg1Stage LMAX MMAX o.model s months) r
  optStage o.atm (fun files f => match readEcmwf LMAX MMAX files months with
    | .error e => .error e
    | .ok corr => .ok (atmStage LMAX MMAX ds corr f)) r

end Verif.Input
