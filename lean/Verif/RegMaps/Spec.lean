import Verif.RegMaps.Model

/-!
# What the maps of a regression should be

Functions of time and the labels of the files, independent of the program.
-/
namespace Verif.RegMaps

/-- tides whose aliases may be fitted -/
inductive Tide
  | Q1 | O1 | P1 | S1 | K1 | J1 | M2 | S2 | K2
deriving DecidableEq

/-- alias period in days (Ray and Luthcke 2006) -/
def Tide.days : Tide → ℚ
  | .Q1 => 9.1 | .O1 => 13.6 | .P1 => 171.2 | .S1 => 322.1 | .K1 => 2725.4 | .J1 => 27.8 | .M2 => 13.5 | .S2 => 161 | .K2 => 1362.7

/-- name of a tide -/
def Tide.name : Tide → List Char
  | .Q1 => ['Q', '1'] | .O1 => ['O', '1'] | .P1 => ['P', '1'] | .S1 => ['S', '1'] | .K1 => ['K', '1'] | .J1 => ['J', '1']
  | .M2 => ['M', '2'] | .S2 => ['S', '2'] | .K2 => ['K', '2']

/-- all tides -/
def Tide.all : List Tide := [.Q1, .O1, .P1, .S1, .K1, .J1, .M2, .S2, .K2]

/-- a wave: a cycle given by its period in years, or the alias of a tide, during GRACE or during the follow-on mission -/
inductive Wave
  | cycle (c : ℚ)
  | alias (t : Tide) (followOn : Bool)
deriving DecidableEq

/-- period in years -/
noncomputable def Wave.period : Wave → ℝ
  | .cycle c => (c : ℝ)
  | .alias t _ => (t.days : ℝ) / 365.25

open scoped Classical in
/-- GRACE is before 2018, the follow-on mission from 2018 on -/
noncomputable def Wave.during : Wave → ℝ → Prop
  | .cycle _, _ => True
  | .alias _ false, t => t < 2018
  | .alias _ true, t => 2018 ≤ t

/-- a function of time in the fit -/
inductive Comp
  | power (o : ℕ)
  | sine (w : Wave)
  | cosine (w : Wave)
deriving DecidableEq

open scoped Classical in
/-- its value at time `t`; powers count from the mean date -/
noncomputable def Comp.value (tbar : ℝ) : Comp → ℝ → ℝ
  | .power o, t => (t - tbar) ^ o
  | .sine w, t => if w.during t then Real.sin (2 * Real.pi * t / w.period) else 0
  | .cosine w, t => if w.during t then Real.cos (2 * Real.pi * t / w.period) else 0

/-- label of a wave in file names; only half a year, a year and tides have labels -/
def Wave.label : Wave → List Char
  | .cycle c => if c = 1 / 2 then "SEMI".toList else "ANN".toList
  | .alias t false => t.name ++ "GRC".toList
  | .alias t true => t.name ++ "GFO".toList

/-- label of a function of time in file names -/
def Comp.label : Comp → List Char
  | .power o => 'x' :: num 0 o
  | .sine (.cycle c) => if c = 1 / 2 then "SS".toList else "AS".toList
  | .cosine (.cycle c) => if c = 1 / 2 then "SC".toList else "AC".toList
  | .sine (.alias t false) => t.name ++ "SGRC".toList
  | .cosine (.alias t false) => t.name ++ "CGRC".toList
  | .sine (.alias t true) => t.name ++ "SGFO".toList
  | .cosine (.alias t true) => t.name ++ "CGFO".toList

/-- the tides a cycle is close to -/
def near (c : ℚ) : List Tide := Tide.all.filter fun t => |c - t.days / 365.25| ≤ 1 / 10 ^ 8 + 1 / 10 ^ 5 * |t.days / 365.25|

/-- half a year or a year -/
def Season (c : ℚ) : Prop := c = 1 / 2 ∨ c = 1

/-- close to the alias of a tide -/
def Tidal (c : ℚ) : Prop := near c ≠ []

/-- the aliases of a cycle: one wave for each mission -/
def aliases (c : ℚ) : List Wave := (near c).flatMap fun t => [.alias t false, .alias t true]

/-- waves with a label, in the order in which the cycles are given -/
def labelled (cycles : List ℚ) : List Wave :=
  cycles.flatMap fun c => if c = 1 / 2 ∨ c = 1 then [.cycle c] else aliases c

/-- waves in the order of the fit: all cycles that are not tidal, then the tides -/
def fitted (cycles : List ℚ) : List Wave :=
  (cycles.filter fun c => near c = []).map .cycle ++ cycles.flatMap aliases

/-- powers, then sine and cosine of each wave -/
def comps (ORDER : ℕ) (ws : List Wave) : List Comp :=
  (List.range (ORDER + 1)).map .power ++ ws.flatMap fun w => [.sine w, .cosine w]

/-- the function of time with the given coefficients -/
noncomputable def curve (tbar : ℝ) (cs : List Comp) (v : ℕ → ℝ) (t : ℝ) : ℝ :=
  ∑ k ∈ Finset.range cs.length, v k * (cs.getD k (.power 0)).value tbar t

/-- sum of squares of the differences at a cell -/
noncomputable def misfit (xs : List InMap) (a b : ℕ) (f : ℝ → ℝ) : ℝ :=
  (xs.map fun x => (x.data a b - f x.time) ^ 2).sum

/-- mean date -/
noncomputable def meanDate (xs : List InMap) : ℝ := (xs.map fun x => x.time).sum / xs.length

/-- `v` are the coefficients of least squares among all functions of a family, and the only ones; `K` coefficients matter -/
structure Best (xs : List InMap) (a b K : ℕ) (family : (ℕ → ℝ) → ℝ → ℝ) (v : ℕ → ℝ) : Prop where
  least : ∀ u, misfit xs a b (family v) ≤ misfit xs a b (family u)
  unique : ∀ u, misfit xs a b (family u) ≤ misfit xs a b (family v) → ∀ k < K, u k = v k

/-- the maps of the months of a job are on the disk, in the order of months -/
def Stored (disk : List Char → Option InMap) (j : Job) (suffix : List Char) (xs : List InMap) : Prop :=
  (months j).map (fun m => disk (inName j suffix m)) = xs.map some

/-- value of a cell of the file with a number -/
noncomputable def mapAt (files : List Out) (k a b : ℕ) : ℝ := match files[k]? with | some f => f.data a b | none => 0

/-- error of a cell of the file with a number -/
noncomputable def errorAt (files : List Out) (k a b : ℕ) : ℝ :=
  match files[k]? with | some f => (match f.error with | some e => e a b | none => 0) | none => 0

/-- no combination of the functions vanishes at all dates -/
def Independent (xs : List InMap) (cs : List Comp) : Prop :=
  ∀ v : ℕ → ℝ, (∀ x ∈ xs, curve (meanDate xs) cs v x.time = 0) → ∀ k < cs.length, v k = 0

/-- two lines that meet at a date, and waves: slope `v 1` before and `v 2` after, `v 0` is the value of the first line at year 0 -/
noncomputable def bent (tb : ℝ) (ws : List Wave) (v : ℕ → ℝ) (t : ℝ) : ℝ :=
  (if t ≤ tb then v 0 + v 1 * t else v 0 + v 1 * tb + v 2 * (t - tb)) +
    ∑ k ∈ Finset.range (2 * ws.length),
      v (3 + k) * ((ws.flatMap fun w => [Comp.sine w, .cosine w]).getD k (.power 0)).value 0 t

/-- `G` is the inverse of the normal matrix of `K` functions at the dates -/
def NormalInverse (xs : List InMap) (K : ℕ) (f : ℕ → ℝ → ℝ) (G : ℕ → ℕ → ℝ) : Prop :=
  ∀ i < K, ∀ k < K, ∑ m ∈ Finset.range K, G i m * (xs.map fun x => f m x.time * f k x.time).sum = if i = k then 1 else 0

/-- sum of squares of the deviations from the mean at a cell -/
noncomputable def spread (xs : List InMap) (a b : ℕ) : ℝ :=
  misfit xs a b fun _ => (xs.map fun x => x.data a b).sum / xs.length

/-- logarithm of the largest likelihood of `n` normal deviations with sum of squares `S` -/
noncomputable def logLik (n : ℕ) (S : ℝ) : ℝ := -(n / 2) * (Real.log (2 * Real.pi * (S / n)) + 1)

/-- measures of a fit with `K` coefficients and sum of squares `S`; `q` is the quantile of the confidence interval and `G` the
inverse of the normal matrix.  At least as many maps as coefficients and one more -/
structure Measures (xs : List InMap) (a b K : ℕ) (S q : ℝ) (G : ℕ → ℕ → ℝ) (c : Cell) : Prop where
  sse : c.SSE = S
  r2adj : c.R2Adj = 1 - (S / ((xs.length : ℝ) - K)) / (spread xs a b / ((xs.length : ℝ) - 1))
  aic : 0 < S → c.AIC = 2 * (K + 1) - 2 * logLik xs.length S
  bic : 0 < S → c.BIC = Real.log xs.length * (K + 1) - 2 * logLik xs.length S
  error : ∀ k < K, c.error k = q * Real.sqrt (S / ((xs.length : ℝ) - K) * G k k)

/-- seasonal cycles first, then only tides or only cycles without a label -/
def WellOrdered (cycles : List ℚ) : Prop :=
  ∃ S R, cycles = S ++ R ∧ (∀ c ∈ S, Season c) ∧ ((∀ c ∈ R, Tidal c) ∨ ∀ c ∈ R, ¬ Season c ∧ ¬ Tidal c)

end Verif.RegMaps
