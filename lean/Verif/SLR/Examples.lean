import Verif.SLR.Props4

/-!
# Concrete files that meet the hypotheses of property C76
-/
namespace Verif.SLR
open Verif.Time Verif.Time.Spec

/-- numbers separated by blanks -/
def joinLits : List Lit → List Char
  | [] => []
  | x :: xs => x.chars ++ ' ' :: joinLits xs

theorem row_join : ∀ xs, Row (joinLits xs) xs
  | [] => .nil
  | x :: xs => .num x (Or.inr ⟨' ', _, rfl, rfl⟩) (.blank ' ' rfl (row_join xs))

/-- words separated by blanks -/
def joinWords : List (List Char) → List Char
  | [] => []
  | w :: ws => w ++ ' ' :: joinWords ws

theorem words_join : ∀ ws : List (List Char), (∀ w ∈ ws, w ≠ [] ∧ ∀ c ∈ w, isSpace c = false) → Words (joinWords ws) ws
  | [], _ => .nil
  | w :: ws, h => .word w (h w (by simp)).1 (h w (by simp)).2 (Or.inr ⟨' ', _, rfl, rfl⟩)
      (.blank ' ' rfl (words_join ws fun x hx => h x (by simp [hx])))

/-- 52640.0, 2003.0, -4.8416e-04, 0.1, 0.5 -/
def tnLine : List Lit :=
  [⟨.none, [5, 2, 6, 4, 0], [0], none, by simp⟩, ⟨.none, [2, 0, 0, 3], [0], none, by simp⟩,
    ⟨.minus, [4], [8, 4, 1, 6], some (false, .minus, 0, [4]), by simp⟩, ⟨.none, [0], [1], none, by simp⟩,
    ⟨.plus, [0], [5], none, by simp⟩]

example : joinLits tnLine = "52640.0 2003.0 -4.8416e-04 0.1 +0.5 ".toList := by decide +kernel

/-- a small TN-14 file -/
def tnFile : File :=
  ⟨"TN-14.txt".toList, ["Title".toList] ++ "Product:".toList :: [joinLits tnLine, []], none⟩

theorem tnLine_mjd : (tnLine.head?.map Lit.val) = some 52640 := by decide +kernel

/-- the hypotheses of `c20_tn` are met -/
theorem tnFile_ok : ∃ rs, c20 tnFile false true = some rs ∧
    List.Forall₂ (fun p r => MjdEntry 2 4 p.2 r) [(joinLits tnLine, tnLine)] rs ∧ MonthsOk rs := by
  refine c20_tn tnFile false ["Title".toList] "Product:".toList [(joinLits tnLine, tnLine), ([], [])]
    (by decide +kernel) rfl (by decide +kernel) (by decide +kernel) ?_ ?_
  · intro p hp
    simp only [List.mem_cons, List.not_mem_nil, or_false] at hp
    rcases hp with rfl | rfl
    · exact row_join _
    · exact .nil
  · intro p hp hne
    simp only [List.mem_cons, List.not_mem_nil, or_false] at hp
    rcases hp with rfl | rfl
    · refine ⟨by decide, by decide, ?_⟩
      intro m hm
      have h := tnLine_mjd
      have hm' : tnLine.head? = some m := hm
      rw [hm'] at h
      simp only [Option.map_some, Option.some.injEq] at h
      rw [h]; norm_num
    · exact absurd rfl hne

/-- a line of a weekly file -/
def weekCoef (p : ℕ × ℕ) : Line :=
  joinWords [[dchar (Fin.ofNat 10 p.1)], [dchar (Fin.ofNat 10 p.2)],
    (⟨.none, [1], [5], none, by simp⟩ : Lit).chars, (⟨.minus, [2], [0], none, by simp⟩ : Lit).chars]

/-- the nineteen degrees and orders -/
def degOrd : List (ℕ × ℕ) :=
  [(2, 0), (2, 1), (2, 2), (3, 0), (3, 1), (3, 2), (3, 3), (4, 0), (4, 1), (4, 2), (4, 3), (4, 4),
    (5, 0), (5, 1), (5, 2), (5, 3), (5, 4), (5, 5), (6, 1)]

/-- a week -/
def aWeek : Week where
  date := joinWords [(⟨.none, [5, 2, 6, 4, 0], [0], none, by simp⟩ : Lit).chars,
    (⟨.none, [2, 0, 0, 3], [0], none, by simp⟩ : Lit).chars]
  lines := degOrd.map weekCoef
  mjd := (⟨.none, [5, 2, 6, 4, 0], [0], none, by simp⟩ : Lit).val
  t := (⟨.none, [2, 0, 0, 3], [0], none, by simp⟩ : Lit).val
  ks := degOrd.map fun p => ⟨p.1, p.2, (⟨.none, [1], [5], none, by simp⟩ : Lit).val,
    (⟨.minus, [2], [0], none, by simp⟩ : Lit).val, 0, 0⟩

example : aWeek.date = "52640.0 2003.0 ".toList ∧ aWeek.lines[18]? = some "6 1 1.5 -2.0 ".toList := by
  decide +kernel

/-- the hypotheses of `readWeekly_spec` are met -/
theorem aWeek_ok : aWeek.Ok := by
  refine ⟨⟨_, _, [], words_join _ (by decide +kernel), ⟨_, rfl, rfl⟩, ⟨_, rfl, rfl⟩⟩, ?_, ?_, ?_, ?_⟩
  · unfold aWeek
    dsimp only
    rw [List.forall₂_map_left_iff, List.forall₂_map_right_iff]
    refine List.forall₂_same.2 ?_
    have hall : ∀ p ∈ degOrd, p.1 < 10 ∧ p.2 < 10 ∧ ∀ w ∈ [[dchar (Fin.ofNat 10 p.1)], [dchar (Fin.ofNat 10 p.2)],
        (⟨.none, [1], [5], none, by simp⟩ : Lit).chars, (⟨.minus, [2], [0], none, by simp⟩ : Lit).chars],
        w ≠ [] ∧ ∀ c ∈ w, isSpace c = false := by decide +kernel
    intro p hp
    obtain ⟨h1, h2, h3⟩ := hall p hp
    refine ⟨_, _, _, _, [], words_join _ h3, ⟨.none, Fin.ofNat 10 p.1, [], rfl, ?_⟩, ⟨.none, Fin.ofNat 10 p.2, [], rfl, ?_⟩,
      ⟨_, rfl, rfl⟩, ⟨_, rfl, rfl⟩, rfl, rfl⟩
    · simp [Sgn.val, decimal, Fin.ofNat, Nat.mod_eq_of_lt h1]
    · simp [Sgn.val, decimal, Fin.ofNat, Nat.mod_eq_of_lt h2]
  · simp [aWeek, degOrd]
  · intro k hk
    simp only [aWeek, List.mem_map] at hk
    obtain ⟨p, hp, rfl⟩ := hk
    revert p
    decide +kernel
  · simp only [aWeek, List.pairwise_map]
    decide +kernel

example : hasProduct "Product: x".toList = true ∧ hasProduct "Title".toList = false := by decide +kernel

example : endHeader "end of header".toList = true ∧ rule (List.replicate 80 '=') = true := by decide +kernel

end Verif.SLR
