import Verif.SpatialIO.Lines
import Mathlib.Data.Int.Log
import Mathlib.Algebra.Order.Floor.Ring
import Mathlib.Data.Rat.Floor

/-!
# Numbers written with an exponent, and integers

Python's `{2:+21.12e}`: one digit, a point, twelve decimals and the exponent with at least two digits; the number is
rounded to thirteen significant digits (a tie goes to the even digit) and padded on the left with blanks.  Negative zero
is not modelled.
-/
namespace Verif.HarmIO
open Verif.SLR Verif.GIA Verif.SpatialIO
open Verif.Time (npRound)

/-! ## Model -/

/-- position of the first significant digit: `10^e ≤ |x| < 10^(e+1)` -/
def expOf (x : ℚ) : ℤ := Int.log 10 |x|

/-- the digits of the number up to `p` places behind the first one, rounded -/
def mant (p : ℕ) (x : ℚ) : ℕ := (npRound (|x| * (10 : ℚ) ^ ((p : ℤ) - expOf x))).toNat

/-- digits and exponent that are printed: rounding up to the next power of ten changes the exponent -/
def sciParts (p : ℕ) (x : ℚ) : ℕ × ℤ :=
  if x = 0 then (0, 0)
  else if mant p x = 10 ^ (p + 1) then (10 ^ p, expOf x + 1)
  else (mant p x, expOf x)

/-- the digits of the exponent, at least two -/
def expDigits (n : ℕ) : Fin 10 × List (Fin 10) :=
  if n < 10 then (0, [Fin.ofNat 10 n])
  else
    match natDigits n with
    | d :: ds => (d, ds)
    | [] => (0, [])

/-- `'{0:+w.pe}'.format(x)` for a finite number -/
def fmtE (w p : ℕ) (x : ℚ) : List Char :=
  let m := (sciParts p x).1
  let e := (sciParts p x).2
  let d := expDigits e.natAbs
  pad w ((if x < 0 then '-' else '+') :: (natDigits (m / 10 ^ p)).map dchar ++ '.' :: (lastDigits p m).map dchar ++
    'e' :: (if e < 0 then '-' else '+') :: (d.1 :: d.2).map dchar)

/-- `'{0:+w.pe}'.format(x)` for a number or NaN -/
def fmtEV (w p : ℕ) : Option ℚ → List Char
  | some x => fmtE w p x
  | none => pad w ['+', 'n', 'a', 'n']

/-- `'{0:wd}'.format(n)` -/
def fmtD (w n : ℕ) : List Char := pad w ((natDigits n).map dchar)

/-! ## Specification -/

/-- `r` is `x` rounded to `p + 1` significant digits: a multiple of the unit `p` places behind the first digit of `x`, and
at most half a unit away; zero stays zero -/
def RoundedSig (p : ℕ) (x r : ℚ) : Prop :=
  (x = 0 → r = 0) ∧
    ∀ e : ℤ, (10 : ℚ) ^ e ≤ |x| → |x| < (10 : ℚ) ^ (e + 1) →
      (∃ k : ℤ, r = k * (10 : ℚ) ^ (e - p)) ∧ |r - x| ≤ 1 / 2 * (10 : ℚ) ^ (e - p)

/-- the number has at most `p + 1` significant digits -/
def Sig (p : ℕ) (x : ℚ) : Prop := ∃ k j : ℤ, |k| < 10 ^ (p + 1) ∧ x = k * (10 : ℚ) ^ j

/-! ## Proofs -/

theorem expOf_spec (x : ℚ) (h : x ≠ 0) : (10 : ℚ) ^ expOf x ≤ |x| ∧ |x| < (10 : ℚ) ^ (expOf x + 1) := by
  have hp := abs_pos.2 h
  constructor
  · exact_mod_cast Int.zpow_log_le_self (b := 10) (by norm_num) hp
  · exact_mod_cast Int.lt_zpow_succ_log_self (b := 10) (by norm_num) |x|

theorem expOf_unique (x : ℚ) (e : ℤ) (h1 : (10 : ℚ) ^ e ≤ |x|) (h2 : |x| < (10 : ℚ) ^ (e + 1)) : expOf x = e := by
  have hp : 0 < |x| := lt_of_lt_of_le (by positivity) h1
  have k1 := (Int.zpow_le_iff_le_log (b := 10) (by norm_num) hp).1 (by exact_mod_cast h1)
  have k2 := (Int.lt_zpow_iff_log_lt (b := 10) (by norm_num) hp).1 (by exact_mod_cast h2)
  unfold expOf
  omega

theorem npRound_nonneg (x : ℚ) (h : 0 ≤ x) : 0 ≤ npRound x := by
  have := Verif.Tools.npRound_near x
  rw [abs_le] at this
  by_contra hc
  have : ((npRound x : ℤ) : ℚ) ≤ -1 := by exact_mod_cast (by omega : npRound x ≤ -1)
  linarith

theorem npRound_le (x : ℚ) (n : ℤ) (h : x ≤ n) : npRound x ≤ n := by
  have := Verif.Tools.npRound_near x
  rw [abs_le] at this
  by_contra hc
  have : ((n + 1 : ℤ) : ℚ) ≤ ((npRound x : ℤ) : ℚ) := by exact_mod_cast (by omega : n + 1 ≤ npRound x)
  push_cast at this
  linarith

theorem le_npRound (x : ℚ) (n : ℤ) (h : (n : ℚ) ≤ x) : n ≤ npRound x := by
  have := Verif.Tools.npRound_near x
  rw [abs_le] at this
  by_contra hc
  have : ((npRound x : ℤ) : ℚ) ≤ ((n - 1 : ℤ) : ℚ) := by exact_mod_cast (by omega : npRound x ≤ n - 1)
  push_cast at this
  linarith

theorem mant_cast (p : ℕ) (x : ℚ) : ((mant p x : ℕ) : ℚ) = ((npRound (|x| * (10 : ℚ) ^ ((p : ℤ) - expOf x)) : ℤ) : ℚ) := by
  have := Int.toNat_of_nonneg (npRound_nonneg (|x| * (10 : ℚ) ^ ((p : ℤ) - expOf x)) (by positivity))
  unfold mant
  exact_mod_cast this

theorem mant_range (p : ℕ) (x : ℚ) (h : x ≠ 0) : 10 ^ p ≤ mant p x ∧ mant p x ≤ 10 ^ (p + 1) := by
  obtain ⟨h1, h2⟩ := expOf_spec x h
  have hz : (0 : ℚ) < (10 : ℚ) ^ ((p : ℤ) - expOf x) := by positivity
  have k1 : ((10 ^ p : ℕ) : ℚ) ≤ |x| * (10 : ℚ) ^ ((p : ℤ) - expOf x) := by
    have := mul_le_mul_of_nonneg_right h1 hz.le
    rw [← zpow_add₀ (by norm_num)] at this
    rw [show expOf x + ((p : ℤ) - expOf x) = (p : ℤ) by ring, zpow_natCast] at this
    push_cast
    exact this
  have k2 : |x| * (10 : ℚ) ^ ((p : ℤ) - expOf x) ≤ ((10 ^ (p + 1) : ℕ) : ℚ) := by
    have := mul_le_mul_of_nonneg_right h2.le hz.le
    rw [← zpow_add₀ (by norm_num)] at this
    rw [show expOf x + 1 + ((p : ℤ) - expOf x) = ((p + 1 : ℕ) : ℤ) by push_cast; ring, zpow_natCast] at this
    push_cast
    exact this
  have r1 := le_npRound _ ((10 ^ p : ℕ) : ℤ) (by exact_mod_cast k1)
  have r2 := npRound_le _ ((10 ^ (p + 1) : ℕ) : ℤ) (by exact_mod_cast k2)
  unfold mant
  omega

theorem sciParts_val (p : ℕ) (x : ℚ) (h : x ≠ 0) :
    ((sciParts p x).1 : ℚ) * (10 : ℚ) ^ ((sciParts p x).2 - p) = (mant p x : ℚ) * (10 : ℚ) ^ (expOf x - p) := by
  unfold sciParts
  rw [if_neg h]
  split
  · rename_i hm
    rw [hm]
    push_cast
    rw [pow_succ, show expOf x + 1 - (p : ℤ) = (expOf x - p) + 1 by ring, zpow_add_one₀ (by norm_num)]
    ring
  · rfl

theorem sciParts_lt (p : ℕ) (x : ℚ) : (sciParts p x).1 < 10 ^ (p + 1) := by
  unfold sciParts
  split
  · positivity
  · rename_i h
    split
    · exact Nat.pow_lt_pow_right (by norm_num) (by omega)
    · have := (mant_range p x h).2
      simp only
      omega

theorem decimal_expDigits (n : ℕ) : decimal ((expDigits n).1 :: (expDigits n).2) = n := by
  unfold expDigits
  split
  · rename_i h
    have : (Fin.ofNat 10 n).val = n := Nat.mod_eq_of_lt h
    simp [decimal, Nat.ofDigits, h]
  · have h := decimal_natDigits n
    split
    · rename_i d ds hd
      rw [hd] at h
      exact h
    · rename_i hd
      exact absurd hd (natDigits_ne n)

/-- the number as a literal -/
def litE (p : ℕ) (x : ℚ) : Lit where
  sgn := if x < 0 then .minus else .plus
  ip := natDigits ((sciParts p x).1 / 10 ^ p)
  fp := lastDigits p (sciParts p x).1
  ex := some (false, if (sciParts p x).2 < 0 then .minus else .plus, (expDigits (sciParts p x).2.natAbs).1,
    (expDigits (sciParts p x).2.natAbs).2)
  digits := by simp [natDigits_ne]

/-- value of the printed number -/
def roundSig (p : ℕ) (x : ℚ) : ℚ := (litE p x).val

theorem fmtE_eq (w p : ℕ) (x : ℚ) : ∃ k : ℕ, fmtE w p x = List.replicate k ' ' ++ (litE p x).chars := by
  unfold fmtE pad
  refine ⟨_, congrArg _ ?_⟩
  unfold Lit.chars litE
  by_cases h : x < 0 <;> by_cases h' : (sciParts p x).2 < 0 <;> simp [h, h', Sgn.chars, exChars]

theorem roundSig_eq (p : ℕ) (x : ℚ) :
    roundSig p x = (if x < 0 then -1 else 1) * (((sciParts p x).1 : ℚ) * (10 : ℚ) ^ ((sciParts p x).2 - p)) := by
  have hp : (10 : ℚ) ^ p ≠ 0 := by positivity
  unfold roundSig Lit.val litE
  dsimp only
  have he : exVal (some (false, if (sciParts p x).2 < 0 then Sgn.minus else .plus, (expDigits (sciParts p x).2.natAbs).1,
      (expDigits (sciParts p x).2.natAbs).2)) = (sciParts p x).2 := by
    unfold exVal
    simp only [decimal_expDigits]
    by_cases h : (sciParts p x).2 < 0
    · simp only [h, if_true, Sgn.val]; omega
    · simp only [h, if_false, Sgn.val]; omega
  rw [he, length_lastDigits, decimal_natDigits, decimal_lastDigits]
  have hd : (((sciParts p x).1 / 10 ^ p : ℕ) : ℚ) + (((sciParts p x).1 % 10 ^ p : ℕ) : ℚ) / 10 ^ p =
      ((sciParts p x).1 : ℚ) / 10 ^ p := by
    have : ((10 ^ p * ((sciParts p x).1 / 10 ^ p) + (sciParts p x).1 % 10 ^ p : ℕ) : ℚ) = ((sciParts p x).1 : ℚ) := by
      rw [Nat.div_add_mod]
    push_cast at this
    field_simp
    linarith
  rw [hd, zpow_sub₀ (by norm_num), zpow_natCast]
  by_cases h : x < 0 <;> simp [h, Sgn.val] <;> ring

theorem roundSig_mant (p : ℕ) (x : ℚ) (h : x ≠ 0) :
    roundSig p x = (if x < 0 then -1 else 1) * ((mant p x : ℚ) * (10 : ℚ) ^ (expOf x - p)) := by
  rw [roundSig_eq, sciParts_val p x h]

theorem roundSig_zero (p : ℕ) : roundSig p 0 = 0 := by
  rw [roundSig_eq]
  simp [sciParts]

/-- the printed number is the number rounded to `p + 1` significant digits -/
theorem roundSig_rounded (p : ℕ) (x : ℚ) : RoundedSig p x (roundSig p x) := by
  refine ⟨fun h => by rw [h, roundSig_zero], ?_⟩
  intro e h1 h2
  have hx : x ≠ 0 := by
    intro h
    rw [h, abs_zero] at h1
    have : (0 : ℚ) < (10 : ℚ) ^ e := by positivity
    linarith
  have he := expOf_unique x e h1 h2
  have hu : (0 : ℚ) < (10 : ℚ) ^ (e - p) := by positivity
  rw [roundSig_mant p x hx, he]
  constructor
  · refine ⟨(if x < 0 then -1 else 1) * (mant p x : ℤ), ?_⟩
    push_cast
    split <;> ring
  · have hn := Verif.Tools.npRound_near (|x| * (10 : ℚ) ^ ((p : ℤ) - e))
    have hm := mant_cast p x
    rw [he] at hm
    rw [← hm] at hn
    have hinv : (10 : ℚ) ^ ((p : ℤ) - e) * (10 : ℚ) ^ (e - p) = 1 := by
      rw [← zpow_add₀ (by norm_num)]; simp
    have key : (if x < 0 then (-1 : ℚ) else 1) * ((mant p x : ℚ) * (10 : ℚ) ^ (e - p)) - x =
        (if x < 0 then (-1 : ℚ) else 1) * (((mant p x : ℚ) - |x| * (10 : ℚ) ^ ((p : ℤ) - e)) * (10 : ℚ) ^ (e - p)) := by
      have : |x| * (10 : ℚ) ^ ((p : ℤ) - e) * (10 : ℚ) ^ (e - p) = |x| := by rw [mul_assoc, hinv, mul_one]
      rw [sub_mul, this]
      split
      · rw [abs_of_neg (by assumption)]; ring
      · rw [abs_of_nonneg (by linarith)]; ring
    rw [key, abs_mul, abs_mul, abs_of_pos hu]
    have h1 : |if x < 0 then (-1 : ℚ) else 1| = 1 := by split <;> simp
    rw [h1, one_mul]
    exact mul_le_mul_of_nonneg_right hn hu.le

/-- a number with at most `p + 1` significant digits is printed exactly -/
theorem roundSig_sig (p : ℕ) (x : ℚ) (h : Sig p x) : roundSig p x = x := by
  by_cases hx : x = 0
  · rw [hx, roundSig_zero]
  obtain ⟨k, j, hk, hxk⟩ := h
  obtain ⟨h1, h2⟩ := expOf_spec x hx
  have hj : (0 : ℚ) < (10 : ℚ) ^ j := by positivity
  have habs : |x| = ((|k| : ℤ) : ℚ) * (10 : ℚ) ^ j := by
    rw [hxk, abs_mul, abs_of_pos hj]; simp
  have hlt : |x| < (10 : ℚ) ^ ((p : ℤ) + 1 + j) := by
    rw [habs, zpow_add₀ (by norm_num)]
    apply mul_lt_mul_of_pos_right _ hj
    have : ((|k| : ℤ) : ℚ) < ((10 ^ (p + 1) : ℤ) : ℚ) := by exact_mod_cast hk
    rw [show ((p : ℤ) + 1) = ((p + 1 : ℕ) : ℤ) by push_cast; ring, zpow_natCast]
    push_cast at this ⊢
    exact this
  have hle : expOf x < (p : ℤ) + 1 + j := by
    have := lt_of_le_of_lt h1 hlt
    exact (zpow_lt_zpow_iff_right₀ (by norm_num : (1 : ℚ) < 10)).1 this
  obtain ⟨n, hn⟩ : ∃ n : ℕ, (n : ℤ) = j + p - expOf x := ⟨(j + p - expOf x).toNat, by omega⟩
  have hint : |x| * (10 : ℚ) ^ ((p : ℤ) - expOf x) = ((|k| * 10 ^ n : ℤ) : ℚ) := by
    rw [habs, mul_assoc, ← zpow_add₀ (by norm_num), show j + ((p : ℤ) - expOf x) = (n : ℤ) by omega, zpow_natCast]
    push_cast
    ring
  have hinv : (10 : ℚ) ^ ((p : ℤ) - expOf x) * (10 : ℚ) ^ (expOf x - p) = 1 := by
    rw [← zpow_add₀ (by norm_num)]; simp
  rw [roundSig_mant p x hx, mant_cast, hint, Verif.Tools.npRound_int, ← hint, mul_assoc, hinv, mul_one]
  split
  · rw [abs_of_neg (by assumption)]; ring
  · rw [abs_of_nonneg (by linarith)]; ring

theorem roundSig_is_sig (p : ℕ) (x : ℚ) : Sig p (roundSig p x) := by
  have := sciParts_lt p x
  refine ⟨(if x < 0 then -1 else 1) * ((sciParts p x).1 : ℤ), (sciParts p x).2 - p, ?_, ?_⟩
  · rw [abs_mul]
    have h1 : |if x < 0 then (-1 : ℤ) else 1| = 1 := by split <;> simp
    rw [h1, one_mul, abs_of_nonneg (by omega)]
    exact_mod_cast this
  · rw [roundSig_eq]
    push_cast
    split <;> ring

theorem sciParts_ge (p : ℕ) (x : ℚ) (h : x ≠ 0) : 10 ^ p ≤ (sciParts p x).1 := by
  unfold sciParts
  rw [if_neg h]
  split
  · exact le_rfl
  · exact (mant_range p x h).1

theorem roundSig_sign (p : ℕ) (x : ℚ) : (roundSig p x < 0 ↔ x < 0) ∧ (roundSig p x = 0 ↔ x = 0) := by
  by_cases hx : x = 0
  · rw [hx, roundSig_zero]; simp
  · have hg := sciParts_ge p x hx
    have hm : (0 : ℚ) < ((sciParts p x).1 : ℚ) := by
      have : 0 < (sciParts p x).1 := lt_of_lt_of_le (by positivity) hg
      exact_mod_cast this
    have hz : (0 : ℚ) < (10 : ℚ) ^ ((sciParts p x).2 - p) := by positivity
    have hmul := mul_pos hm hz
    rw [roundSig_eq]
    by_cases h : x < 0
    · rw [if_pos h]
      refine ⟨⟨fun _ => h, fun _ => by linarith⟩, ⟨fun h' => ?_, fun h' => absurd h' hx⟩⟩
      linarith
    · rw [if_neg h]
      refine ⟨⟨fun h' => by linarith, fun h' => absurd h' h⟩, ⟨fun h' => ?_, fun h' => absurd h' hx⟩⟩
      linarith

/-- printing the printed number again gives the same text -/
theorem fmtE_stable (w p : ℕ) (x : ℚ) : fmtE w p (roundSig p x) = fmtE w p x := by
  have hs : sciParts p (roundSig p x) = sciParts p x := by
    by_cases hx : x = 0
    · rw [hx, roundSig_zero]
    · have hy : roundSig p x ≠ 0 := fun h => hx ((roundSig_sign p x).2.1 h)
      have hg := sciParts_ge p x hx
      have hl := sciParts_lt p x
      generalize hq : sciParts p x = q at hg hl
      obtain ⟨m, e⟩ := q
      simp only at hg hl
      have habs : |roundSig p x| = (m : ℚ) * (10 : ℚ) ^ (e - p) := by
        rw [roundSig_eq, hq, abs_mul, abs_of_nonneg (a := (m : ℚ) * (10 : ℚ) ^ (e - p)) (by positivity)]
        have h1 : |if x < 0 then (-1 : ℚ) else 1| = 1 := by split <;> simp
        rw [h1, one_mul]
      have hu : (0 : ℚ) < (10 : ℚ) ^ (e - p) := by positivity
      have he : expOf (roundSig p x) = e := by
        apply expOf_unique
        · rw [habs]
          have : ((10 ^ p : ℕ) : ℚ) ≤ (m : ℚ) := by exact_mod_cast hg
          have h2 := mul_le_mul_of_nonneg_right this hu.le
          have h3 : ((10 ^ p : ℕ) : ℚ) * (10 : ℚ) ^ (e - p) = (10 : ℚ) ^ e := by
            push_cast
            rw [← zpow_natCast, ← zpow_add₀ (by norm_num)]
            congr 1; ring
          rw [h3] at h2
          exact h2
        · rw [habs]
          have : (m : ℚ) < ((10 ^ (p + 1) : ℕ) : ℚ) := by exact_mod_cast hl
          have h2 := mul_lt_mul_of_pos_right this hu
          have h3 : ((10 ^ (p + 1) : ℕ) : ℚ) * (10 : ℚ) ^ (e - p) = (10 : ℚ) ^ (e + 1) := by
            push_cast
            rw [← zpow_natCast, ← zpow_add₀ (by norm_num)]
            congr 1; push_cast; ring
          rw [h3] at h2
          exact h2
      have hm : mant p (roundSig p x) = m := by
        unfold mant
        rw [he, habs, mul_assoc, ← zpow_add₀ (by norm_num), show e - (p : ℤ) + ((p : ℤ) - e) = 0 by ring, zpow_zero,
          mul_one]
        have := Verif.Tools.npRound_int (m : ℤ)
        push_cast at this
        rw [this]
        simp
      unfold sciParts
      rw [if_neg hy, hm, he, if_neg (by omega)]
  have hsg : (roundSig p x < 0) = (x < 0) := propext (roundSig_sign p x).1
  unfold fmtE
  simp only [hs, hsg]

/-- blanks and a printed number in front of a line -/
theorem num_fmtE (w p : ℕ) (x : ℚ) (cs : List Char) (ts : List Tok) (hs : Stop cs) (h : Num cs ts) :
    Num (fmtE w p x ++ cs) (.dec (litE p x) :: ts) := by
  obtain ⟨k, hk⟩ := fmtE_eq w p x
  rw [hk, List.append_assoc]
  exact num_blanks k _ _ (Num.num (.dec (litE p x)) hs h)

/-- NaN in front of a line is not a number of the line -/
theorem num_nanE (w p : ℕ) (cs : List Char) (ts : List Tok) (hs : Stop cs) (h : Num cs ts) :
    Num (fmtEV w p none ++ cs) ts := by
  unfold fmtEV pad
  rw [List.append_assoc]
  refine num_blanks _ _ _ (Num.word _ ?_ hs h)
  intro c hc
  simp at hc
  rcases hc with rfl | rfl | rfl | rfl <;> decide

/-- an integer as a literal -/
def tokD (n : ℕ) : Tok :=
  match natDigits n with
  | d :: ds => .int .none d ds none
  | [] => .int .none 0 [] none

theorem tokD_spec (n : ℕ) : (tokD n).chars = (natDigits n).map dchar ∧ pyInt (tokD n).chars = some (n : ℤ) := by
  have h := decimal_natDigits n
  unfold tokD
  split
  · rename_i d ds hd
    rw [hd] at h
    refine ⟨by simp [Tok.chars, intChars, exChars, Sgn.chars, hd], ?_⟩
    rw [pyInt_tok, h]
    simp [Sgn.val]
  · rename_i hd
    exact absurd hd (natDigits_ne n)

theorem num_fmtD (w n : ℕ) (cs : List Char) (ts : List Tok) (hs : Stop cs) (h : Num cs ts) :
    Num (fmtD w n ++ cs) (tokD n :: ts) := by
  unfold fmtD pad
  rw [List.append_assoc, ← (tokD_spec n).1]
  exact num_blanks _ _ _ (Num.num _ hs h)

example : fmtE 21 12 (-(4.841651431908e-4 : ℚ)) = "  -4.841651431908e-04".toList ∧
    fmtE 21 12 (99999999999996 / 10) = "  +1.000000000000e+13".toList ∧ fmtE 21 12 0 = "  +0.000000000000e+00".toList := by
  decide +kernel

example : Sig 12 (-4.841651431908e-4 : ℚ) := ⟨-4841651431908, -16, by norm_num, by norm_num⟩

end Verif.HarmIO
