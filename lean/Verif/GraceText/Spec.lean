import Verif.GraceText.Model
import Verif.LoveText.Spec

/-!
# Level-2 files (specification for C91)
-/
namespace Verif.GraceText
open Verif.SLR Verif.Names Verif.Input
open Verif.GIA (Tok)

/-- the name of a Level-2 file: `{product}-2_{start}-{end}_{mission}_{center}_{kind}_{release}{more}{suffix}` -/
structure L2Name where
  head : Head
  mission : Name
  center : Name
  kind : Name
  release : Name
  more : Name
  suffix : Name

/-- its text -/
def L2Name.text (n : L2Name) : Name :=
  n.head.text ++ (n.mission ++ ['_'] ++ n.center ++ ['_'] ++ n.kind ++ ['_'] ++ n.release ++ n.more ++ n.suffix)

/-- the parts are in order: no hyphen in the product, no underscore within mission and kind, the release a number, the rest
without a point and not beginning with a digit -/
structure L2Name.Ok (n : L2Name) : Prop where
  head : n.head.Ok
  pfx : '-' ∉ n.head.pfx
  mission : '_' ∉ n.mission
  center : n.center ∈ Centers
  kind : '_' ∉ n.kind
  release : n.release ≠ [] ∧ ∀ c ∈ n.release, c.isDigit = true
  more : '.' ∉ n.more ∧ ∀ c ∈ n.more.head?, c.isDigit = false
  suffix : n.suffix ∈ ["", ".gz", ".gfc", ".txt"].map String.toList
  line : '\n' ∉ n.text

/-- the products of the Level-2 files -/
def Products : List Name := ["GSM", "GAA", "GAB", "GAC", "GAD"].map String.toList

/-- the mascon solutions of JPL and the DDK filtered solutions -/
def L2Name.Special (n : L2Name) : Prop :=
  n.center = "JPLMSC".toList ∨ "kfilter_DDK".toList <+: n.head.pfx

/-- the product of the file: the beginning of its name, GSM for the special solutions -/
def L2Name.IsProduct (n : L2Name) (dset : Name) : Prop :=
  (n.Special ∧ dset = "GSM".toList) ∨ (¬ n.Special ∧ dset ∈ Products ∧ n.head.pfx = dset)

/-- the marker of the data lines: `gfc` for the DDK filtered solutions, the combined solutions and files ending with
`.gfc` (but not for JPL's mascon solutions), otherwise `GRCOF2` -/
def L2Name.IsMarker (n : L2Name) (flag : Name) : Prop :=
  (n.center ≠ "JPLMSC".toList ∧ ("kfilter_DDK".toList <+: n.head.pfx ∨ n.center = "COSTG".toList ∨
    n.suffix = ".gfc".toList) ∧ flag = "gfc".toList) ∨
  (¬ (n.center ≠ "JPLMSC".toList ∧ ("kfilter_DDK".toList <+: n.head.pfx ∨ n.center = "COSTG".toList ∨
    n.suffix = ".gfc".toList)) ∧ flag = "GRCOF2".toList)

/-- the center, as far as the pole tide is concerned -/
def L2Name.IsCenter (n : L2Name) (c : Center) : Prop :=
  (n.center ∈ ["UTCSR", "JPLEM", "JPLMSC"].map String.toList ∧ c = .csrJpl) ∨
  (n.center ∈ ["EIGEN", "GFZOP"].map String.toList ∧ c = .gfz) ∨
  (n.center ∈ ["GRGS", "COSTG"].map String.toList ∧ c = .other)

/-- the dates in the name -/
def L2Name.dates (n : L2Name) : Dates.FileDates :=
  ⟨digitsVal n.head.sy, digitsVal n.head.sd, digitsVal n.head.ey, digitsVal n.head.ed⟩

/-- the word is the number `k` -/
def IsNat (w : List Char) (k : ℕ) : Prop := ∃ s d ds, w = intChars s d ds ∧ s.val * (decimal (d :: ds) : ℤ) = k

/-- what a line says -/
inductive Says (flag : Name) : List Char → FileLine ℚ → Prop
  /-- it begins with the marker; degree, order, two coefficients and their errors follow, and perhaps more words -/
  | coef (line key wl wm : List Char) (l m : ℕ) (c s ec es : Tok) (more : List (List Char)) : flag <+: line →
      Words line (key :: wl :: wm :: c.chars :: s.chars :: ec.chars :: es.chars :: more) → IsNat wl l → IsNat wm m →
      Says flag line (.coef l m c.val s.val ec.val es.val)
  /-- it begins with `GRDOTA`; degree, order and two rates follow -/
  | drift (line key wl wm : List Char) (l m : ℕ) (c s : Tok) (more : List (List Char)) : "GRDOTA".toList <+: line →
      Words line (key :: wl :: wm :: c.chars :: s.chars :: more) → IsNat wl l → IsNat wm m →
      Says flag line (.drift l m c.val s.val)
  /-- it is a line of the header -/
  | other (line : List Char) : ¬ flag <+: line → ¬ "GRDOTA".toList <+: line → Says flag line .other

/-- the lines of the header -/
def headLines (flag : Name) (lines : List (List Char)) : List (List Char) :=
  lines.filter fun x => decide (¬ flag <+: x ∧ ¬ "GRDOTA".toList <+: x)

end Verif.GraceText
