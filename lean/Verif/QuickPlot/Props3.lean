import Verif.QuickPlot.Props2
import Mathlib.Tactic.IntervalCases

/-!
# C107: the shaded gap and the figures
-/
namespace Verif.QuickPlot
open Verif.TimeSeries Verif.RegMaps Verif.Summary

theorem datesOf_one (ls : List Line) (m : ℕ) (a : ℝ) :
    datesOf ls m = [a] ↔ ∃ l, (ls.filter fun x => x.month = m) = [l] ∧ l.date = a := by
  unfold datesOf
  rcases (ls.filter fun x => x.month = m) with _ | ⟨l, _ | ⟨k, r⟩⟩ <;> simp

/-- C107: the gap is shaded from the date of the only line with month 186 to that of the only line with month 198, in the first plot and in
individual plots.  When one of the two months is not in the file exactly once, such a monthly plot ends with an exception after the curve;
further curves of a common plot are drawn in any case -/
theorem span_right (lib : Lib) (i : ℕ) (individual error monthly : Bool) (f : File) (out : Outcome)
    (h : runPlot lib i individual error monthly f = out) (c : List (Option Point)) (hc : out.curve = some c) :
    (monthly = true ∧ (i = 0 ∨ individual = true) →
      (∀ l k, (f.lines.filter fun x => x.month = 186) = [l] → (f.lines.filter fun x => x.month = 198) = [k] →
        out.span = some (l.date, k.date) ∧ out.err = none) ∧
      ((f.lines.filter fun x => x.month = 186).length ≠ 1 ∨ (f.lines.filter fun x => x.month = 198).length ≠ 1 →
        out.span = none ∧ out.err = some .gap)) ∧
    (¬ (monthly = true ∧ (i = 0 ∨ individual = true)) → out.span = none ∧ out.err = none) := by
  subst h
  unfold runPlot at hc ⊢
  split at hc
  · dsimp only at hc ⊢
    split at hc
    · split at hc
      · cases hc
      · split_ifs at hc ⊢ with hm
        · refine ⟨fun _ => ⟨?_, ?_⟩, fun hn => absurd hm hn⟩
          · intro l k hl hk
            rw [(datesOf_one f.lines 186 l.date).2 ⟨l, hl, rfl⟩, (datesOf_one f.lines 198 k.date).2 ⟨k, hk, rfl⟩]
            exact ⟨rfl, rfl⟩
          · intro hne
            split
            · rename_i a b ha hb
              obtain ⟨l, hl, -⟩ := (datesOf_one _ _ _).1 ha
              obtain ⟨k, hk, -⟩ := (datesOf_one _ _ _).1 hb
              rw [hl, hk] at hne
              simp at hne
            · exact ⟨rfl, rfl⟩
        · exact ⟨fun h => absurd h hm, fun _ => ⟨rfl, rfl⟩⟩
    · cases hc
  · cases hc

/-- C107: with several files in individual plots, whatever they are, no more than the first figure is saved, under a name without the
directory that was given, and the run ends with an exception -/
theorem individual_fails (lib : Lib) (error monthly : Bool) (legend zorder : Option ℕ) (dir stem suffix : List Char) (files : List File)
    (h : 2 ≤ files.length) :
    (main lib true error monthly legend zorder dir stem suffix files).2.isSome ∧
    ((main lib true error monthly legend zorder dir stem suffix files).1 = [] ∨
      (main lib true error monthly legend zorder dir stem suffix files).1 = [stem ++ "_1".toList ++ suffix]) := by
  unfold main
  cases runAll lib true error monthly legend zorder 0 files with
  | some e => exact ⟨rfl, .inl rfl⟩
  | none =>
    have h' : 1 < files.length := h
    simp [h']

theorem runAll_none (lib : Lib) (individual error monthly : Bool) (legend zorder : Option ℕ) (files : List File) (i : ℕ) :
    runAll lib individual error monthly legend zorder i files = none ↔
      (∀ k (hk : k < files.length), (runPlot lib (i + k) individual error monthly files[k]).err = none) ∧
      (∀ n, (legend = some n ∨ zorder = some n) → files = [] ∨ i + files.length ≤ n) := by
  induction files generalizing i with
  | nil => simp [runAll]
  | cons f r ih =>
    unfold runAll
    split_ifs with hl
    · simp only [reduceCtorEq, false_iff]
      rintro ⟨-, h2⟩
      rcases hl with hl | hl
      · cases legend with
        | none => simp at hl
        | some n =>
          have := h2 n (.inl rfl)
          simp at hl this; omega
      · cases zorder with
        | none => simp at hl
        | some n =>
          have := h2 n (.inr rfl)
          simp at hl this; omega
    · push Not at hl
      have hl' : ∀ n, (legend = some n ∨ zorder = some n) → i < n := by
        rintro n (rfl | rfl)
        · simpa using hl.1
        · simpa using hl.2
      cases he : (runPlot lib i individual error monthly f).err with
      | some e =>
        simp only [reduceCtorEq, false_iff]
        rintro ⟨h1, -⟩
        have := h1 0 (by simp)
        simp [he] at this
      | none =>
        simp only
        rw [ih (i + 1)]
        constructor
        · rintro ⟨h1, h2⟩
          refine ⟨?_, ?_⟩
          · intro k hk
            cases k with
            | zero => simpa using he
            | succ k =>
              have := h1 k (by simpa using hk)
              rw [show i + 1 + k = i + (k + 1) by omega] at this
              simpa using this
          · intro n hn
            right
            have := hl' n hn
            rcases h2 n hn with rfl | h
            · simpa using this
            · simp; omega
        · rintro ⟨h1, h2⟩
          refine ⟨?_, ?_⟩
          · intro k hk
            have := h1 (k + 1) (by simpa using hk)
            rw [show i + 1 + k = i + (k + 1) by omega]
            simpa using this
          · intro n hn
            right
            rcases h2 n hn with h | h
            · cases h
            · simp at h; omega

/-- C107: a common figure, or the figure of a single file, is saved under the name that was given exactly when every file could be plotted
and there are enough labels; otherwise nothing is saved -/
theorem common_saved (lib : Lib) (individual error monthly : Bool) (legend zorder : Option ℕ) (dir stem suffix : List Char)
    (files : List File) (hne : files ≠ []) (h : individual = false ∨ files.length = 1) :
    ((∀ k (hk : k < files.length), (runPlot lib k individual error monthly files[k]).err = none) ∧
        (∀ n, (legend = some n ∨ zorder = some n) → files.length ≤ n) →
      main lib individual error monthly legend zorder dir stem suffix files = ([dir ++ "/".toList ++ stem ++ suffix], none)) ∧
    (¬ ((∀ k (hk : k < files.length), (runPlot lib k individual error monthly files[k]).err = none) ∧
        (∀ n, (legend = some n ∨ zorder = some n) → files.length ≤ n)) →
      (main lib individual error monthly legend zorder dir stem suffix files).1 = [] ∧
      (main lib individual error monthly legend zorder dir stem suffix files).2.isSome) := by
  have hiff := runAll_none lib individual error monthly legend zorder files 0
  simp only [Nat.zero_add, hne, false_or] at hiff
  have hnot : ¬ (individual = true ∧ 1 < files.length) := by
    rintro ⟨h1, h2⟩
    rcases h with h | h
    · rw [h] at h1; cases h1
    · omega
  unfold main
  constructor
  · intro hall
    rw [hiff.2 hall]
    simp only [if_neg hnot]
  · intro hall
    cases hr : runAll lib individual error monthly legend zorder 0 files with
    | none => exact absurd (hiff.1 hr) hall
    | some e => exact ⟨rfl, rfl⟩

/-! ## An example -/

/-- dates at which the eleven functions of the second fit are independent, with months that leave out the gap and month 190 to 199 -/
noncomputable def exLines : List Line :=
  [⟨1, 0, 5, 1⟩, ⟨2, 1 / 8, 6, 1⟩, ⟨3, 1 / 4, 7, 1⟩, ⟨5, 1 / 2, 8, 2⟩, ⟨6, 3 / 4, 9, 1⟩, ⟨7, 161, 1, 1⟩, ⟨8, 322, 0, 1⟩, ⟨9, 483, 4, 3⟩,
    ⟨10, 644, 4, 1⟩, ⟨186, 1288, 3, 1⟩, ⟨198, 2093, 3, 1⟩, ⟨199, 2254, 2, 1⟩, ⟨200, 2576, 7, 1⟩]

theorem exIncreasing : Increasing exLines := by
  unfold Increasing exLines
  simp

theorem curve_waves (tb : ℝ) (v : ℕ → ℝ) (t : ℝ) : curve tb (comps 2 waves) v t = v 0 + v 1 * (t - tb) + v 2 * (t - tb) ^ 2 +
      v 3 * Real.sin (2 * Real.pi * (2 * t)) + v 4 * Real.cos (2 * Real.pi * (2 * t)) +
      v 5 * Real.sin (2 * Real.pi * t) + v 6 * Real.cos (2 * Real.pi * t) +
      (if t < 2018 then v 7 * Real.sin (2 * Real.pi * (1461 / 644 * t)) + v 8 * Real.cos (2 * Real.pi * (1461 / 644 * t))
       else v 9 * Real.sin (2 * Real.pi * (1461 / 644 * t)) + v 10 * Real.cos (2 * Real.pi * (1461 / 644 * t))) := by
  have hl2 : (comps 2 waves).length = 11 := by simp [comps, waves]
  have e1 : 2 * Real.pi * t / (1 / 2) = 2 * Real.pi * (2 * t) := by ring
  have e2 : 2 * Real.pi * t / (161 / 365.25) = 2 * Real.pi * (1461 / 644 * t) := by norm_num; ring
  unfold curve
  rw [hl2]
  by_cases ht : t < 2018
  · have ht' : ¬ (2018 ≤ t) := by linarith
    simp [Finset.sum_range_succ, comps, waves, List.range_succ, Comp.value, Wave.during, Wave.period, Tide.days, ht, ht']
    norm_num
    rw [show 2 * Real.pi * t * 2 = 2 * Real.pi * (2 * t) by ring, show 2 * Real.pi * t / (644 / 1461) = 2 * Real.pi * (1461 / 644 * t) by ring]
    ring
  · have ht' : 2018 ≤ t := by linarith
    simp [Finset.sum_range_succ, comps, waves, List.range_succ, Comp.value, Wave.during, Wave.period, Tide.days, ht, ht']
    norm_num
    rw [show 2 * Real.pi * t * 2 = 2 * Real.pi * (2 * t) by ring, show 2 * Real.pi * t / (644 / 1461) = 2 * Real.pi * (1461 / 644 * t) by ring]
    ring

/-- the hypotheses of the theorems above hold for these lines -/
theorem exIndependent2 : Independent (series (rowsOf ⟨exLines, true⟩)) (comps 2 waves) := by
  generalize hx : series (rowsOf ⟨exLines, true⟩) = xs
  intro v hv
  have hl2 : (comps 2 waves).length = 11 := by simp [comps, waves]
  generalize meanDate xs = tb at hv
  have hd : ∀ t ∈ exLines.map (·.date), curve tb (comps 2 waves) v t = 0 := by
    intro t ht
    obtain ⟨l, hl, rfl⟩ := List.mem_map.1 ht
    have := hv ⟨1, 1, fun _ _ => l.value, l.date⟩ (by
      rw [← hx]; unfold series rowsOf
      exact List.mem_map.2 ⟨l.row, List.mem_map.2 ⟨l, hl, rfl⟩, rfl⟩)
    exact this
  simp only [curve_waves] at hd
  have ps : ∀ (n : ℕ) (x : ℝ), Real.sin (2 * Real.pi * (n + x)) = Real.sin (2 * Real.pi * x) := by
    intro n x
    rw [show 2 * Real.pi * (n + x) = 2 * Real.pi * x + n * (2 * Real.pi) by ring, Real.sin_add_nat_mul_two_pi]
  have pc : ∀ (n : ℕ) (x : ℝ), Real.cos (2 * Real.pi * (n + x)) = Real.cos (2 * Real.pi * x) := by
    intro n x
    rw [show 2 * Real.pi * (n + x) = 2 * Real.pi * x + n * (2 * Real.pi) by ring, Real.cos_add_nat_mul_two_pi]
  have s0 : Real.sin (2 * Real.pi * 0) = 0 := by simp
  have c0 : Real.cos (2 * Real.pi * 0) = 1 := by simp
  have s1 : Real.sin (2 * Real.pi * (1 / 4)) = 1 := by rw [show 2 * Real.pi * (1 / 4) = Real.pi / 2 by ring, Real.sin_pi_div_two]
  have c1 : Real.cos (2 * Real.pi * (1 / 4)) = 0 := by rw [show 2 * Real.pi * (1 / 4) = Real.pi / 2 by ring, Real.cos_pi_div_two]
  have s2 : Real.sin (2 * Real.pi * (1 / 2)) = 0 := by rw [show 2 * Real.pi * (1 / 2) = Real.pi by ring, Real.sin_pi]
  have c2 : Real.cos (2 * Real.pi * (1 / 2)) = -1 := by rw [show 2 * Real.pi * (1 / 2) = Real.pi by ring, Real.cos_pi]
  have s3 : Real.sin (2 * Real.pi * (3 / 4)) = -1 := by
    rw [show 2 * Real.pi * (3 / 4) = Real.pi / 2 + Real.pi by ring, Real.sin_add_pi, Real.sin_pi_div_two]
  have c3 : Real.cos (2 * Real.pi * (3 / 4)) = 0 := by
    rw [show 2 * Real.pi * (3 / 4) = Real.pi / 2 + Real.pi by ring, Real.cos_add_pi, Real.cos_pi_div_two, neg_zero]
  have get : ∀ (t : ℝ), t ∈ exLines.map (·.date) → ∀ (n m k : ℕ) (x y z : ℝ), 2 * t = n + x → t = m + y → 1461 / 644 * t = k + z →
      v 0 + v 1 * (t - tb) + v 2 * (t - tb) ^ 2 + v 3 * Real.sin (2 * Real.pi * x) + v 4 * Real.cos (2 * Real.pi * x) +
      v 5 * Real.sin (2 * Real.pi * y) + v 6 * Real.cos (2 * Real.pi * y) +
      (if t < 2018 then v 7 * Real.sin (2 * Real.pi * z) + v 8 * Real.cos (2 * Real.pi * z)
       else v 9 * Real.sin (2 * Real.pi * z) + v 10 * Real.cos (2 * Real.pi * z)) = 0 := by
    intro t ht n m k x y z hx hy hz
    have := hd t ht
    rw [hz, ps k, pc k, hx, ps n, pc n] at this
    rw [show Real.sin (2 * Real.pi * t) = Real.sin (2 * Real.pi * y) by rw [hy, ps m],
      show Real.cos (2 * Real.pi * t) = Real.cos (2 * Real.pi * y) by rw [hy, pc m]] at this
    exact this
  have f1 := get 0 (by simp [exLines]) 0 0 0 0 0 0 (by norm_num) (by norm_num) (by norm_num)
  have f2 := get 644 (by simp [exLines]) 1288 644 1461 0 0 0 (by norm_num) (by norm_num) (by norm_num)
  have f3 := get 1288 (by simp [exLines]) 2576 1288 2922 0 0 0 (by norm_num) (by norm_num) (by norm_num)
  have f4 := get 161 (by simp [exLines]) 322 161 365 0 0 (1 / 4) (by norm_num) (by norm_num) (by norm_num)
  have f5 := get 322 (by simp [exLines]) 644 322 730 0 0 (1 / 2) (by norm_num) (by norm_num) (by norm_num)
  have f6 := get 483 (by simp [exLines]) 966 483 1095 0 0 (3 / 4) (by norm_num) (by norm_num) (by norm_num)
  have f7 := get 2093 (by simp [exLines]) 4186 2093 4748 0 0 (1 / 4) (by norm_num) (by norm_num) (by norm_num)
  have f8 := get 2254 (by simp [exLines]) 4508 2254 5113 0 0 (1 / 2) (by norm_num) (by norm_num) (by norm_num)
  have f9 := get 2576 (by simp [exLines]) 5152 2576 5844 0 0 0 (by norm_num) (by norm_num) (by norm_num)
  have g1 := get (1 / 4) (by simp [exLines]) 0 0 0 (1 / 2) (1 / 4) _ (by norm_num) (by norm_num) (by rw [Nat.cast_zero, zero_add])
  have g2 := get (1 / 2) (by simp [exLines]) 1 0 0 0 (1 / 2) _ (by norm_num) (by norm_num) (by rw [Nat.cast_zero, zero_add])
  have g3 := get (3 / 4) (by simp [exLines]) 1 0 0 (1 / 2) (3 / 4) _ (by norm_num) (by norm_num) (by rw [Nat.cast_zero, zero_add])
  have g4 := get (1 / 8) (by simp [exLines]) 0 0 0 (1 / 4) _ _ (by norm_num) (by rw [Nat.cast_zero, zero_add]) (by rw [Nat.cast_zero, zero_add])
  rw [if_pos (by norm_num)] at f1 f2 f3 f4 f5 f6 g1 g2 g3 g4
  rw [if_neg (by norm_num)] at f7 f8 f9
  simp only [s0, c0, s1, c1, s2, c2, s3, c3] at f1 f2 f3 f4 f5 f6 f7 f8 f9 g1 g2 g3 g4
  have h2' : v 2 * 829472 = 0 := by linear_combination f1 + f3 - 2 * f2
  have h2 : v 2 = 0 := by linarith
  have h1' : v 1 * 644 = 0 := by rw [h2] at f1 f2; linear_combination f2 - f1
  have h1 : v 1 = 0 := by linarith
  rw [h1, h2] at f1 f2 f3 f4 f5 f6 f7 f8 f9 g1 g2 g3 g4
  have h8 : v 8 = 0 := by linarith
  have h7 : v 7 = 0 := by linarith
  have h10 : v 10 = 0 := by linarith
  have h9 : v 9 = 0 := by linarith
  rw [h7, h8] at g1 g2 g3 g4
  have h6 : v 6 = 0 := by linarith
  have h5 : v 5 = 0 := by linarith
  have h4 : v 4 = 0 := by linarith
  have h0 : v 0 = 0 := by linarith
  have h3 : v 3 = 0 := by rw [h5, h6] at g4; linarith
  intro k hk
  rw [hl2] at hk
  interval_cases k <;> assumption

/-- all hypotheses of the theorems above at once; the points of months 186 and 198 are not joined, those of months 3 and 5 are -/
example : 2 ≤ exLines.length ∧ Independent (series (rowsOf ⟨exLines, true⟩)) (comps 2 waves) ∧ Increasing exLines ∧
    11 < (rowsOf ⟨exLines, true⟩).length ∧ AcrossGap ⟨186, 1288, 3, 1⟩ ⟨198, 2093, 3, 1⟩ ∧ ¬ AcrossGap ⟨3, 1 / 4, 7, 1⟩ ⟨5, 1 / 2, 8, 2⟩ ∧
    (exLines.filter fun x => x.month = 186).length = 1 ∧ (exLines.filter fun x => x.month = 198).length = 1 :=
  ⟨by simp [exLines], exIndependent2, exIncreasing, by simp [rowsOf, exLines], ⟨187, by simp⟩, by
    rintro ⟨m, h1, h2, h3, h4⟩
    simp at h1 h2; omega, by simp [exLines], by simp [exLines]⟩

/-- a complete plot: printed, drawn and shaded without exception -/
example (lib : Lib) : (runPlot lib 0 false true true ⟨exLines, true⟩).err = none ∧
    (runPlot lib 0 false true true ⟨exLines, true⟩).span = some (1288, 2093) := by
  obtain ⟨-, h⟩ := monthly_curve lib 0 false true _ _ _ true exIndependent2 exIncreasing _ rfl
  obtain ⟨c, hc, -⟩ := h (fun _ => rfl)
  have := ((span_right lib 0 false true true ⟨exLines, true⟩ _ rfl c hc).1 ⟨rfl, .inl rfl⟩).1 ⟨186, 1288, 3, 1⟩ ⟨198, 2093, 3, 1⟩
    (by simp [exLines]) (by simp [exLines])
  exact ⟨this.2, this.1⟩

/-- a repeated month: the hypotheses of `repeated_fails` without independence, which does not depend on the months -/
example : (exLines.map fun l => { l with month := 1 }).Pairwise (fun a b => a.month ≤ b.month) ∧
    ¬ Increasing (exLines.map fun l => { l with month := 1 }) ∧
    series (rowsOf ⟨exLines.map fun l => { l with month := 1 }, true⟩) = series (rowsOf ⟨exLines, true⟩) := by
  refine ⟨by simp [exLines], by simp [exLines, Increasing], by simp [exLines, series, rowsOf, Line.row]⟩

end Verif.QuickPlot
