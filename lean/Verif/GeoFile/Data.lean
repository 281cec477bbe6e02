import Verif.GeoFile.Model
import Verif.GeoRead.Props2
import Verif.HarmIO.Format
import Mathlib.Tactic.SplitIfs

/-!
# Lemmas: the data lines
-/
namespace Verif.GeoFile
open Verif.SLR Verif.SpatialIO Verif.HarmIO Verif.MeanField Verif.GIA

/-- the number is printed with an exponent of two digits -/
def InRange (x : ℚ) : Prop := x = 0 ∨ ((10 : ℚ) ^ (-99 : ℤ) ≤ |x| ∧ |x| < (10 : ℚ) ^ (99 : ℤ))

/-- the printed number as a literal -/
def litEL (p : ℕ) (x : ℚ) : Lit := { litE p x with sgn := if x < 0 then .minus else .none }

theorem litEL_val (p : ℕ) (x : ℚ) : (litEL p x).val = roundSig p x := by
  unfold roundSig litEL litE Lit.val
  by_cases h : x < 0 <;> simp [h, Sgn.val]

theorem fmtEL_eq (w p : ℕ) (x : ℚ) :
    fmtEL w p x = List.replicate (w - (litEL p x).chars.length) ' ' ++ (litEL p x).chars := by
  have : (litEL p x).chars = (if x < 0 then ['-'] else []) ++ (natDigits ((sciParts p x).1 / 10 ^ p)).map dchar ++
      '.' :: (lastDigits p (sciParts p x).1).map dchar ++ 'e' :: (if (sciParts p x).2 < 0 then '-' else '+') ::
        ((expDigits (sciParts p x).2.natAbs).1 :: (expDigits (sciParts p x).2.natAbs).2).map dchar := by
    unfold Lit.chars litEL litE
    by_cases h : x < 0 <;> by_cases h' : (sciParts p x).2 < 0 <;> simp [h, h', Sgn.chars, exChars]
  rw [this]
  rfl

theorem natDigits_small : ∀ n < 10, (natDigits n).length = 1 := by decide +kernel
theorem expDigits_small : ∀ n < 100, (expDigits n).2.length = 1 := by decide +kernel

theorem lastDigits_length (p n : ℕ) : (lastDigits p n).length = p := by
  induction p generalizing n with
  | zero => rfl
  | succ k ih => rw [lastDigits, List.length_append, ih]; rfl

theorem sciParts_range (p : ℕ) (x : ℚ) (h : InRange x) : (sciParts p x).1 / 10 ^ p < 10 ∧ (sciParts p x).2.natAbs < 100 := by
  unfold sciParts
  by_cases hx : x = 0
  · rw [if_pos hx]; simp
  rw [if_neg hx]
  have hr := h.resolve_left hx
  obtain ⟨e1, e2⟩ := expOf_spec x hx
  have l1 : (-99 : ℤ) ≤ expOf x := by
    have := (Int.zpow_le_iff_le_log (b := 10) (by norm_num) (abs_pos.2 hx)).1
      (show ((10 : ℕ) : ℚ) ^ (-99 : ℤ) ≤ |x| from by rw [Nat.cast_ofNat]; exact hr.1)
    exact this
  have l2 : expOf x < 99 := by
    have := (Int.lt_zpow_iff_log_lt (b := 10) (by norm_num) (abs_pos.2 hx)).1
      (show |x| < ((10 : ℕ) : ℚ) ^ (99 : ℤ) from by rw [Nat.cast_ofNat]; exact hr.2)
    exact this
  obtain ⟨m1, m2⟩ := mant_range p x hx
  have hp : 0 < 10 ^ p := by positivity
  split_ifs with hm
  · refine ⟨?_, by show (expOf x + 1).natAbs < 100; omega⟩
    show 10 ^ p / 10 ^ p < 10
    rw [Nat.div_self hp]; omega
  · refine ⟨?_, by show (expOf x).natAbs < 100; omega⟩
    show mant p x / 10 ^ p < 10
    rw [Nat.div_lt_iff_lt_mul hp]
    have : 10 ^ (p + 1) = 10 * 10 ^ p := by rw [pow_succ]; ring
    omega

theorem litEL_length (x : ℚ) (h : InRange x) : (litEL 6 x).chars.length ≤ 13 := by
  obtain ⟨h1, h2⟩ := sciParts_range 6 x h
  have d1 := natDigits_small _ h1
  have d2 := expDigits_small _ h2
  have d3 := lastDigits_length 6 (sciParts 6 x).1
  rw [show 10 ^ 6 = 1000000 from rfl] at d1
  unfold Lit.chars litEL litE
  by_cases h : x < 0 <;> by_cases h' : (sciParts 6 x).2 < 0 <;> simp [h, h', Sgn.chars, exChars, d1, d2, d3]

theorem fmtEL_blank (x : ℚ) (h : InRange x) : ∃ k : ℕ, fmtEL 14 6 x = GeoRead.blanks (k + 1) ++ (litEL 6 x).chars := by
  refine ⟨13 - (litEL 6 x).chars.length, ?_⟩
  rw [fmtEL_eq]
  have := litEL_length x h
  have e : 14 - (litEL 6 x).chars.length = 13 - (litEL 6 x).chars.length + 1 := by omega
  rw [e]; rfl

theorem roundSig_near (p : ℕ) (x : ℚ) : |roundSig p x - x| ≤ 1 / 2 / 10 ^ p * |x| := by
  obtain ⟨h1, h2⟩ := roundSig_rounded p x
  by_cases hx : x = 0
  · rw [h1 hx, hx]; simp
  obtain ⟨e1, e2⟩ := expOf_spec x hx
  refine (h2 _ e1 e2).2.trans ?_
  rw [zpow_sub₀ (by norm_num), zpow_natCast]
  have hp : (0 : ℚ) < 10 ^ p := by positivity
  rw [show (1 : ℚ) / 2 * (10 ^ expOf x / 10 ^ p) = 1 / 2 / 10 ^ p * 10 ^ expOf x by field_simp]
  exact mul_le_mul_of_nonneg_left e1 (by positivity)

theorem decimal_zeros (k : ℕ) (ds : List (Fin 10)) : decimal (List.replicate k 0 ++ ds) = decimal ds := by
  unfold decimal
  rw [List.map_append, List.reverse_append, Nat.ofDigits_append, List.map_replicate, List.reverse_replicate]
  have : ∀ k : ℕ, Nat.ofDigits 10 (List.replicate k ((0 : Fin 10) : ℕ)) = 0 := by
    intro k
    induction k with
    | zero => rfl
    | succ k ih => rw [List.replicate_succ, Nat.ofDigits_cons, ih]; rfl
  rw [this]; simp

theorem num_intChars (w n : ℕ) : ∃ d ds, num w n = intChars .none d ds ∧ (decimal (d :: ds) : ℤ) = n := by
  cases h : (List.replicate (w - (natDigits n).length) (0 : Fin 10) ++ natDigits n) with
  | nil => exact absurd (List.append_eq_nil_iff.1 h).2 (natDigits_ne n)
  | cons d ds =>
    refine ⟨d, ds, ?_, ?_⟩
    · unfold num intChars
      rw [← h, List.map_append, List.map_replicate]
      rfl
    · rw [← h, decimal_zeros, decimal_natDigits]

/-- what a date is for the reader -/
def Date.deg1 (d : Date) : GeoRead.Deg1 := ⟨d.time, d.c10, d.c11, d.s11, d.month⟩

theorem written (d : Date) (h0 : InRange d.c10) (h1 : InRange d.c11) (h2 : InRange d.s11) :
    GeoRead.Written d.deg1 (dataLine d) := by
  obtain ⟨k0, e0⟩ := fmtF_eq 11 4 d.time
  obtain ⟨k1, e1⟩ := fmtEL_blank _ h0
  obtain ⟨k2, e2⟩ := fmtEL_blank _ h1
  obtain ⟨k3, e3⟩ := fmtEL_blank _ h2
  obtain ⟨m, ms, em, vm⟩ := num_intChars 3 d.month
  refine ⟨k0, k1, k2, k3, litOf 4 d.time, litEL 6 d.c10, litEL 6 d.c11, litEL 6 d.s11, .none, m, ms, ?_, ?_, ?_, ?_, ?_, ?_⟩
  · unfold dataLine
    rw [e0, e1, e2, e3, em]
    simp [GeoRead.blanks]
  · exact (roundTo_rounded 4 d.time).2
  · rw [litEL_val]; exact roundSig_near 6 _
  · rw [litEL_val]; exact roundSig_near 6 _
  · rw [litEL_val]; exact roundSig_near 6 _
  · show (1 : ℤ) * _ = _
    rw [one_mul]; exact vm

end Verif.GeoFile
