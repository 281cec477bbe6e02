import Verif.Colours.Model
/-!
# Specification of colours

The colour wheel: red, yellow, green, cyan, blue, magenta at equal distances and red again; colours between two of these are mixed
linearly.  Saturation `s` and value `v` of a component `x` of the wheel give `v·(1 − s + s·x)`.
-/
namespace Verif.Colours

/-- the corners of the wheel -/
def wheel : ℕ → Triple
  | 0 => (1, 0, 0)
  | 1 => (1, 1, 0)
  | 2 => (0, 1, 0)
  | 3 => (0, 1, 1)
  | 4 => (0, 0, 1)
  | 5 => (1, 0, 1)
  | _ => (1, 0, 0)

/-- a mixture of two colours -/
def mix (f : ℚ) (a b : Triple) : Triple :=
  ((1 - f) * a.1 + f * b.1, (1 - f) * a.2.1 + f * b.2.1, (1 - f) * a.2.2 + f * b.2.2)

/-- saturation and value -/
def shade (s v : ℚ) (a : Triple) : Triple := (v * (1 - s + s * a.1), v * (1 - s + s * a.2.1), v * (1 - s + s * a.2.2))

/-- `c` is the colour of hue `h` (turns around the wheel), saturation `s` and value `v` -/
def IsHsv (h s v : ℚ) (c : Triple) : Prop :=
  ∃ (n : ℕ) (k : ℕ) (f : ℚ), k < 6 ∧ 0 ≤ f ∧ f ≤ 1 ∧ 6 * h = 6 * (n : ℚ) + (k : ℚ) + f ∧ c = shade s v (mix f (wheel k) (wheel (k + 1)))

/-- all components between 0 and 1 -/
def InUnit (c : Triple) : Prop := (0 ≤ c.1 ∧ c.1 ≤ 1) ∧ (0 ≤ c.2.1 ∧ c.2.1 ≤ 1) ∧ (0 ≤ c.2.2 ∧ c.2.2 ≤ 1)

end Verif.Colours
