import Mathlib.Data.Rat.Floor
import Mathlib.Tactic.Linarith
import Mathlib.Tactic.SplitIfs
/-!
# Model of the colour maps of `tools.py` (`custom_colormap`, `from_cpt`, the widget `colormap`)

Exact arithmetic.  `colorsys` of the Python library is modelled.  matplotlib is not: a colour map is the list of its nodes.
`from_cpt` starts at the results of the regular expressions of a line.  Texts are ASCII.
-/
namespace Verif.Colours

/-- exceptions -/
inductive Err
  | value         -- ValueError
  | zeroDivision  -- ZeroDivisionError
  | unbound       -- UnboundLocalError
  | type          -- TypeError
  deriving DecidableEq, Repr

/-- red, green, blue (or hue, saturation, value) -/
abbrev Triple := ℚ × ℚ × ℚ

/-- `int(x)` drops the digits after the point -/
def trunc (x : ℚ) : ℤ := if 0 ≤ x then ⌊x⌋ else ⌈x⌉

/-- `colorsys.hsv_to_rgb` -/
def hsvToRgb (h s v : ℚ) : Triple :=
  if s = 0 then (v, v, v)
  else
    let i := trunc (h * 6)
    let f := h * 6 - (i : ℚ)
    let p := v * (1 - s)
    let q := v * (1 - s * f)
    let t := v * (1 - s * (1 - f))
    let i := i % 6
    if i = 0 then (v, t, p)
    else if i = 1 then (q, v, p)
    else if i = 2 then (p, v, t)
    else if i = 3 then (p, q, v)
    else if i = 4 then (t, p, v)
    else (v, p, q)

/-- `colorsys.rgb_to_hsv` -/
def rgbToHsv (r g b : ℚ) : Triple :=
  let maxc := max (max r g) b
  let minc := min (min r g) b
  let rangec := maxc - minc
  if minc = maxc then (0, 0, maxc)
  else
    let s := rangec / maxc
    let rc := (maxc - r) / rangec
    let gc := (maxc - g) / rangec
    let bc := (maxc - b) / rangec
    let h := if r = maxc then bc - gc else if g = maxc then 2 + rc - bc else 4 + gc - rc
    (Int.fract (h / 6), s, maxc)

/-- `np.linspace(a, b, n)[i]` -/
def linspace (a b : ℚ) (n i : ℕ) : ℚ := if n = 1 then a else a + (b - a) * (i : ℚ) / ((n : ℚ) - 1)

/-- `np.clip(x, 0, 1)` -/
def clip (x : ℚ) : ℚ := min (max x 0) 1

/-- `str.capitalize` -/
def capitalize (s : List Char) : List Char :=
  match s with
  | [] => []
  | c :: cs => c.toUpper :: cs.map Char.toLower

/-- colours of `Joughin` (tools.py:1052-1060) -/
def joughin (n : ℕ) : List Triple := (List.range n).map fun i : ℕ => hsvToRgb (linspace (1 / 10) 1 n i) 1 1

/-- colours of `Seroussi` (tools.py:1061-1084) -/
def seroussi (n : ℕ) : List Triple :=
  let rgb := (List.range n).map fun i : ℕ => hsvToRgb (linspace 0 1 n i) 1 1
  let rgb := (rgb.reverse.take (⌊(7 / 10 : ℚ) * (n : ℚ)⌋).toNat).drop 1
  let hsv := rgb.map fun c => rgbToHsv c.1 c.2.1 c.2.2
  let hsv := hsv.map fun c => (c.1, clip (1 / 10 + c.1), c.2.2)
  hsv.map fun c => hsvToRgb c.1 c.2.1 c.2.2

/-- colours of `Rignot` (tools.py:1085-1093) -/
def rignot (n : ℕ) : List Triple :=
  (List.range n).map fun i : ℕ => hsvToRgb (linspace 0 1 n i) (clip (1 / 10 + linspace 0 1 n i)) 1

/-- nodes with their locations (tools.py:1098-1105); with one colour the first location is `0.0/0.0` -/
def nodes (cs : List Triple) : Except Err (List (ℚ × Triple)) :=
  if cs.length = 1 then .error .zeroDivision
  else .ok (cs.zipIdx.map fun p => ((p.2 : ℚ) / ((cs.length : ℚ) - 1), p.1))

/-- `custom_colormap(N, map_name)` (tools.py:1032-1114): the nodes of the map -/
def custom (n : ℤ) (name : List Char) : Except Err (List (ℚ × Triple)) :=
  let name := capitalize name
  if name = "Joughin".toList then (if n < 0 then .error .value else nodes (joughin n.toNat))
  else if name = "Seroussi".toList then (if n < 0 then .error .value else nodes (seroussi n.toNat))
  else if name = "Rignot".toList then (if n < 0 then .error .value else nodes (rignot n.toNat))
  else .error .value

/-! ## Colour palette tables -/

/-- a line of a table after the regular expressions (tools.py:951-967): the text of the colour model, the letter and the numbers of
a line that starts with B, F or N in either case, a comment, the numbers of any other line -/
inductive Line
  | model (name : List Char)
  | flag (c : Char) (xs : List ℚ)
  | comment
  | other (xs : List ℚ)

/-- state of the loop (tools.py:942-972) -/
structure State where
  model : List Char := "RGB".toList
  flags : List (Char × List ℚ) := []
  entries : List (ℚ × Triple) := []
  last : Option (ℚ × Triple) := none

/-- one line (tools.py:950-972); the eight numbers are unpacked (`ValueError` for another number) -/
def step (s : State) : Line → Except Err State
  | .model name => .ok { s with model := name }
  | .flag c xs => .ok { s with flags := s.flags ++ [(c, xs)] }
  | .comment => .ok s
  | .other [x1, r1, g1, b1, x2, r2, g2, b2] =>
    .ok { s with entries := s.entries ++ [(x1, r1, g1, b1)], last := some (x2, r2, g2, b2) }
  | .other _ => .error .value

/-- the value of a key of the dictionary `flags`: that of the last line with the letter -/
def flagOf (fs : List (Char × List ℚ)) (c : Char) : Option (List ℚ) := ((fs.filter fun p => p.1 = c).getLast?).map Prod.snd

/-- colour of a table in red, green and blue (tools.py:984-996, 1012-1018) -/
def convert (model : List Char) (c : Triple) : Triple :=
  if model = "HSV".toList then hsvToRgb (c.1 / 360) c.2.1 c.2.2
  else if model = "RGB".toList then (c.1 / 255, c.2.1 / 255, c.2.2 / 255)
  else c

/-- colour of a flag (tools.py:1008-1020): three numbers are unpacked -/
def extreme (model : List Char) (fs : List (Char × List ℚ)) (c : Char) : Except Err (Option Triple) :=
  match flagOf fs c with
  | none => .ok none
  | some [r, g, b] => .ok (some (convert model (r, g, b)))
  | some _ => .error .value

/-- a colour map: nodes with locations (`none`: `None`) and the colours below, above and for missing values -/
structure Cmap where
  nodes : List (Option ℚ × Triple)
  under : Option Triple
  over : Option Triple
  bad : Option Triple
  deriving DecidableEq

/-- `from_cpt(filename, use_extremes)` (tools.py:917-1030) -/
def fromCpt (useExtremes : Bool) (ls : List Line) : Except Err Cmap :=
  match ls.foldlM step {} with
  | .error e => .error e
  | .ok s =>
    match s.last with
    | none => .error .unbound
    | some e =>
      let all := s.entries ++ [e]
      let x0 := (all.headD e).1
      let known := s.model = "HSV".toList ∨ s.model = "RGB".toList
      if known ∧ e.1 - x0 = 0 then .error .zeroDivision
      else
        match extreme s.model s.flags 'B', extreme s.model s.flags 'F', extreme s.model s.flags 'N' with
        | .ok u, .ok o, .ok n =>
          let ns := all.map fun p => (if known then some ((p.1 - x0) / (e.1 - x0)) else none, convert s.model p.2)
          .ok (if useExtremes then ⟨ns, u, o, n⟩ else ⟨ns, none, none, none⟩)
        | _, _, _ => .error .value

/-! ## The widget -/

/-- the step of the colour bar when the widget is made (tools.py:827) -/
def firstStep (vmin vmax steps : ℤ) : Except Err ℤ := if steps = 0 then .error .zeroDivision else .ok ((vmax - vmin) / steps)

/-- `colormap.levels` (tools.py:904-908) for steps of the slider (from zero) -/
def levels (cmin cmax step : ℤ) : Except Err (List ℤ) :=
  if step = 0 then .error .value
  else .ok ((List.range (((cmax + step - cmin) + step - 1) / step).toNat).map fun k : ℕ => cmin + step * (k : ℤ))

/-- `colormap.value`: the name of the map (tools.py:884-895) -/
def mapName (name : List Char) (reverse : Bool) : List Char := name ++ (if reverse then "_r".toList else [])

/-- the names in the menu (tools.py:840-873): those of the program that matplotlib has; sorting is not modelled -/
def options (available listed : List String) : List String := listed.filter fun x => x ∈ available

end Verif.Colours
