import Verif.GIA.Text
import Verif.Time.Model
import Verif.Tools.Props

/-!
# Numbers written with a fixed number of decimals

Python's `{0:10.4f}`: the number is rounded to four decimals (a tie goes to the even digit) and padded on the left with
blanks to at least ten characters.  Negative zero is not modelled; a negative number that rounds to zero keeps its sign.
-/
namespace Verif.SpatialIO
open Verif.SLR Verif.GIA
open Verif.Time (npRound)

/-! ## Model -/

/-- the last `p` decimal digits of `n`, most significant first -/
def lastDigits : ℕ → ℕ → List (Fin 10)
  | 0, _ => []
  | p + 1, n => lastDigits p (n / 10) ++ [Fin.ofNat 10 n]

/-- number of decimal digits of `n`, at least one (with fuel) -/
def digitCount : ℕ → ℕ → ℕ
  | 0, _ => 1
  | f + 1, n => if n < 10 then 1 else digitCount f (n / 10) + 1

/-- a natural number in decimal digits -/
def natDigits (n : ℕ) : List (Fin 10) := lastDigits (digitCount n n) n

/-- the number in units of the last decimal, without its sign -/
def scaled (p : ℕ) (x : ℚ) : ℕ := (npRound (|x| * 10 ^ p)).toNat

/-- blanks on the left up to the width -/
def pad (w : ℕ) (s : List Char) : List Char := List.replicate (w - s.length) ' ' ++ s

/-- `'{0:w.pf}'.format(x)` for a finite number -/
def fmtF (w p : ℕ) (x : ℚ) : List Char :=
  pad w ((if x < 0 then ['-'] else []) ++ (natDigits (scaled p x / 10 ^ p)).map dchar ++
    '.' :: (lastDigits p (scaled p x)).map dchar)

/-- `'{0:w.pf}'.format(x)` for a number or NaN -/
def fmtV (w p : ℕ) : Option ℚ → List Char
  | some x => fmtF w p x
  | none => pad w ['n', 'a', 'n']

/-! ## Specification -/

/-- `r` is `x` rounded to `p` decimals: a multiple of the last unit, at most half a unit away -/
def Rounded (p : ℕ) (x r : ℚ) : Prop := (∃ k : ℤ, r = k / 10 ^ p) ∧ |r - x| ≤ 1 / 2 / 10 ^ p

/-- the number has at most `p` decimals -/
def Dec (p : ℕ) (x : ℚ) : Prop := ∃ k : ℤ, x = k / 10 ^ p

/-! ## Proofs -/

theorem decimal_snoc (ds : List (Fin 10)) (d : Fin 10) : decimal (ds ++ [d]) = 10 * decimal ds + d.val := by
  unfold decimal
  rw [List.map_append, List.reverse_append, List.map_singleton, List.reverse_singleton, List.singleton_append,
    Nat.ofDigits_cons]
  push_cast; ring

theorem decimal_lastDigits (p n : ℕ) : decimal (lastDigits p n) = n % 10 ^ p := by
  induction p generalizing n with
  | zero => simp [lastDigits, decimal, Nat.mod_one]
  | succ p ih =>
    rw [lastDigits, decimal_snoc, ih]
    have h : (Fin.ofNat 10 n).val = n % 10 := rfl
    rw [h, Nat.pow_succ, Nat.mul_comm (10 ^ p) 10, Nat.mod_mul]
    omega

theorem length_lastDigits (p n : ℕ) : (lastDigits p n).length = p := by
  induction p generalizing n with
  | zero => rfl
  | succ p ih => rw [lastDigits, List.length_append, ih]; rfl

theorem digitCount_spec (f n : ℕ) (h : n ≤ f) : n < 10 ^ digitCount f n ∧ 0 < digitCount f n := by
  induction f generalizing n with
  | zero => simp [digitCount]; omega
  | succ f ih =>
    rw [digitCount]
    split
    · simp; omega
    · have := (ih (n / 10) (by omega)).1
      refine ⟨?_, by omega⟩
      rw [Nat.pow_succ]
      omega

theorem decimal_natDigits (n : ℕ) : decimal (natDigits n) = n := by
  unfold natDigits
  rw [decimal_lastDigits, Nat.mod_eq_of_lt (digitCount_spec n n le_rfl).1]

theorem natDigits_ne (n : ℕ) : natDigits n ≠ [] := by
  intro h
  have := length_lastDigits (digitCount n n) n
  have h2 := (digitCount_spec n n le_rfl).2
  unfold natDigits at h
  rw [h] at this
  simp at this; omega

/-- the number as a literal -/
def litOf (p : ℕ) (x : ℚ) : Lit where
  sgn := if x < 0 then .minus else .none
  ip := natDigits (scaled p x / 10 ^ p)
  fp := lastDigits p (scaled p x)
  ex := none
  digits := by simp [natDigits_ne]

/-- value of the printed number -/
def roundTo (p : ℕ) (x : ℚ) : ℚ := (litOf p x).val

theorem fmtF_eq (w p : ℕ) (x : ℚ) :
    ∃ k : ℕ, fmtF w p x = List.replicate k ' ' ++ (litOf p x).chars := by
  refine ⟨w - ((if x < 0 then ['-'] else []) ++ (natDigits (scaled p x / 10 ^ p)).map dchar ++
    '.' :: (lastDigits p (scaled p x)).map dchar).length, ?_⟩
  unfold fmtF pad Lit.chars litOf
  by_cases h : x < 0 <;> simp [h, Sgn.chars, exChars]

theorem roundTo_eq (p : ℕ) (x : ℚ) :
    roundTo p x = (if x < 0 then -1 else 1) * ((npRound (|x| * 10 ^ p) : ℤ) : ℚ) / 10 ^ p := by
  have hp : (10 : ℚ) ^ p ≠ 0 := by positivity
  have hn : 0 ≤ npRound (|x| * 10 ^ p) := by
    have h0 : 0 ≤ |x| * 10 ^ p := by positivity
    have hf := Int.floor_nonneg.2 h0
    unfold npRound
    split_ifs <;> omega
  have hs : ((scaled p x : ℕ) : ℚ) = ((npRound (|x| * 10 ^ p) : ℤ) : ℚ) := by
    unfold scaled
    have := Int.toNat_of_nonneg hn
    exact_mod_cast this
  unfold roundTo Lit.val litOf
  dsimp only
  rw [length_lastDigits, decimal_natDigits, decimal_lastDigits, exVal, zpow_zero, mul_one, ← hs]
  have hd : ((scaled p x / 10 ^ p : ℕ) : ℚ) + ((scaled p x % 10 ^ p : ℕ) : ℚ) / 10 ^ p = (scaled p x : ℚ) / 10 ^ p := by
    have : ((10 ^ p * (scaled p x / 10 ^ p) + scaled p x % 10 ^ p : ℕ) : ℚ) = (scaled p x : ℚ) := by
      rw [Nat.div_add_mod]
    push_cast at this
    field_simp
    linarith
  rw [hd, mul_div_assoc]
  by_cases h : x < 0 <;> simp [h, Sgn.val]

/-- the printed number is the number rounded to `p` decimals -/
theorem roundTo_rounded (p : ℕ) (x : ℚ) : Rounded p x (roundTo p x) := by
  have hp : (0 : ℚ) < 10 ^ p := by positivity
  rw [roundTo_eq]
  constructor
  · exact ⟨(if x < 0 then -1 else 1) * npRound (|x| * 10 ^ p), by push_cast; split <;> simp⟩
  · have h := Verif.Tools.npRound_near (|x| * 10 ^ p)
    have e : (if x < 0 then (-1 : ℚ) else 1) * ((npRound (|x| * 10 ^ p) : ℤ) : ℚ) / 10 ^ p - x =
        (if x < 0 then (-1 : ℚ) else 1) * (((npRound (|x| * 10 ^ p) : ℤ) : ℚ) - |x| * 10 ^ p) / 10 ^ p := by
      split
      · rw [abs_of_neg (by assumption)]; field_simp; ring
      · rw [abs_of_nonneg (by linarith)]; field_simp
    rw [e, abs_div, abs_mul, abs_of_pos hp]
    have h1 : |if x < 0 then (-1 : ℚ) else 1| = 1 := by split <;> simp
    rw [h1, one_mul]
    exact (div_le_div_iff_of_pos_right hp).2 h

/-- a number with at most `p` decimals is printed exactly -/
theorem roundTo_dec (p : ℕ) (x : ℚ) (h : Dec p x) : roundTo p x = x := by
  obtain ⟨k, rfl⟩ := h
  have hp : (10 : ℚ) ^ p ≠ 0 := by positivity
  have hp' : (0 : ℚ) < 10 ^ p := by positivity
  rw [roundTo_eq, abs_div, abs_of_pos hp', div_mul_cancel₀ _ hp]
  have : |(k : ℚ)| = ((|k| : ℤ) : ℚ) := by simp
  rw [this, Verif.Tools.npRound_int]
  by_cases h : (k : ℚ) / 10 ^ p < 0
  · rw [if_pos h]
    have hk : k < 0 := by
      rw [div_lt_iff₀ hp', zero_mul] at h
      exact_mod_cast h
    rw [abs_of_neg hk]; push_cast; ring
  · rw [if_neg h]
    have hk : 0 ≤ k := by
      rw [div_lt_iff₀ hp', zero_mul] at h
      exact_mod_cast not_lt.1 h
    rw [abs_of_nonneg hk]; ring

theorem num_blanks (k : ℕ) (cs : List Char) (ts : List Tok) (h : Num cs ts) :
    Num (List.replicate k ' ' ++ cs) ts := by
  induction k with
  | zero => exact h
  | succ k ih => rw [List.replicate_succ, List.cons_append]; exact Num.blank ' ' rfl ih

/-- blanks and a printed number in front of a line -/
theorem num_fmtF (w p : ℕ) (x : ℚ) (cs : List Char) (ts : List Tok) (hs : Stop cs) (h : Num cs ts) :
    Num (fmtF w p x ++ cs) (.dec (litOf p x) :: ts) := by
  obtain ⟨k, hk⟩ := fmtF_eq w p x
  rw [hk, List.append_assoc]
  exact num_blanks k _ _ (Num.num (.dec (litOf p x)) hs h)

/-- NaN in front of a line is not a number of the line -/
theorem num_nan (w p : ℕ) (cs : List Char) (ts : List Tok) (hs : Stop cs) (h : Num cs ts) :
    Num (fmtV w p none ++ cs) ts := by
  unfold fmtV pad
  rw [List.append_assoc]
  refine num_blanks _ _ _ (Num.word _ ?_ hs h)
  intro c hc
  simp at hc
  rcases hc with rfl | rfl | rfl <;> decide

example : fmtF 10 4 (-(31.25 : ℚ) / 1000) = "   -0.0312".toList ∧ fmtF 10 4 12.34567 = "   12.3457".toList := by
  decide +kernel

example : Rounded 4 (12.34567 : ℚ) 12.3457 := ⟨⟨123457, by norm_num⟩, by norm_num [abs_le]⟩

end Verif.SpatialIO
