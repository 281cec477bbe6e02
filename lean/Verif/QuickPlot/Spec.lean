import Verif.QuickPlot.Model
import Verif.Summary.Spec

/-!
# What a plot of a mascon series should be
-/
namespace Verif.QuickPlot
open Verif.RegMaps

/-- the lines between points that are drawn: from each point to the next one in the list, if both are numbers -/
def segments {P : Type} (c : List (Option P)) : List (P × P) :=
  (c.zip c.tail).filterMap fun x => match x with
    | (some p, some q) => some (p, q)
    | _ => none

/-- the points that are drawn -/
def points {P : Type} (c : List (Option P)) : List P := c.filterMap id

/-- consecutive members of a list -/
def neighbours {P : Type} (l : List P) : List (P × P) := l.zip l.tail

/-- months increase from line to line -/
def Increasing (ls : List Line) : Prop := ls.Pairwise fun a b => a.month < b.month

/-- the months from July 2017 to May 2018, between the two missions, are 187 to 197: one of them lies between two lines -/
def AcrossGap (a b : Line) : Prop := ∃ m, a.month < m ∧ m < b.month ∧ 187 ≤ m ∧ m ≤ 197

instance (a b : Line) : Decidable (AcrossGap a b) :=
  decidable_of_iff (max (a.month + 1) 187 ≤ 197 ∧ max (a.month + 1) 187 < b.month) <| by
    unfold AcrossGap
    constructor
    · rintro ⟨h1, h2⟩
      exact ⟨max (a.month + 1) 187, by omega, by omega, by omega, by omega⟩
    · rintro ⟨m, h1, h2, h3, h4⟩
      constructor <;> omega

/-- the waves of the fits: half a year, a year and the alias of S2, separately for the two missions -/
def waves : List Wave := [.cycle (1 / 2), .cycle 1, .alias .S2 false, .alias .S2 true]

end Verif.QuickPlot
