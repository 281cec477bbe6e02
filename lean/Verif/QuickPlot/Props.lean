import Verif.QuickPlot.Spec
import Verif.Summary.Props3

/-!
# C107: the curve of a mascon series
-/
namespace Verif.QuickPlot
open Verif.TimeSeries Verif.RegMaps Verif.Summary

/-! ## Segments -/

theorem segments_some_some {P : Type} (p q : P) (r : List (Option P)) :
    segments (some p :: some q :: r) = (p, q) :: segments (some q :: r) := by
  unfold segments; simp

theorem segments_none {P : Type} (r : List (Option P)) : segments (none :: r) = segments r := by
  unfold segments
  cases r with
  | nil => rfl
  | cons x r => simp

theorem segments_some_none {P : Type} (p : P) (r : List (Option P)) : segments (some p :: none :: r) = segments r := by
  have : segments (some p :: none :: r) = segments (none :: r) := by unfold segments; simp
  rw [this, segments_none]

theorem segments_nones {P : Type} (n : ℕ) (r : List (Option P)) : segments (List.replicate n none ++ r) = segments r := by
  induction n with
  | zero => rfl
  | succ n ih => rw [List.replicate_succ, List.cons_append, segments_none, ih]

theorem segments_hole {P : Type} (p : P) (n : ℕ) (q : P) (r : List (Option P)) :
    segments (some p :: (List.replicate n none ++ some q :: r)) =
      if n = 0 then (p, q) :: segments (some q :: r) else segments (some q :: r) := by
  cases n with
  | zero => simp [segments_some_some]
  | succ n =>
    rw [List.replicate_succ, List.cons_append, segments_some_none, segments_nones, if_neg (by omega)]

/-! ## The months of the curve -/

theorem mem_gap (m : ℕ) : m ∈ GAP ↔ 187 ≤ m ∧ m ≤ 197 := by
  unfold GAP
  simp only [List.mem_cons, List.not_mem_nil, or_false]
  omega

theorem months_eq (ls : List Line) (first last : Line) :
    months ls first last = (allMonths first last).filter fun m => m ∈ ls.map (·.month) ∨ m ∈ GAP := by
  unfold months missing
  refine List.filter_congr fun m hm => ?_
  simp only [decide_eq_decide, List.mem_filter, decide_eq_true_eq, not_and]
  constructor
  · intro h
    by_contra hn
    push Not at hn
    exact h hm hn.1 hn.2
  · intro h _ h1 h2
    rcases h with h | h
    · exact h1 h
    · exact h2 h

/-- months from the first to the last line for which `P` holds -/
def shown (P : ℕ → Prop) [DecidablePred P] : List Line → List ℕ
  | [] => []
  | [a] => [a.month].filter fun m => P m
  | a :: b :: r => (a.month :: List.range' (a.month + 1) (b.month - (a.month + 1))).filter (fun m => P m) ++ shown P (b :: r)

theorem range'_split (a b c : ℕ) (h1 : a < b) (h2 : b ≤ c) :
    List.range' a (c + 1 - a) = (a :: List.range' (a + 1) (b - (a + 1))) ++ List.range' b (c + 1 - b) := by
  have e1 : c + 1 - a = (b - (a + 1)) + 1 + (c + 1 - b) := by omega
  have e2 : a + (b - (a + 1) + 1) = b := by omega
  rw [e1, ← List.range'_append_1, List.range'_succ, e2]

theorem last_le (a : Line) (r : List Line) (h : Increasing (a :: r)) : a.month ≤ (r.getLastD a).month := by
  cases r with
  | nil => exact le_rfl
  | cons b r =>
    have hm : (b :: r).getLastD a ∈ b :: r := by
      rw [List.getLastD_eq_getLast?, List.getLast?_eq_some_getLast (by simp)]
      exact List.getLast_mem _
    exact le_of_lt ((List.pairwise_cons.1 h).1 _ hm)

theorem shown_eq (P : ℕ → Prop) [DecidablePred P] (a : Line) (r : List Line) (h : Increasing (a :: r)) :
    (allMonths a (r.getLastD a)).filter (fun m => P m) = shown P (a :: r) := by
  induction r generalizing a with
  | nil => unfold allMonths shown; simp
  | cons b r ih =>
    have hab : a.month < b.month := (List.pairwise_cons.1 h).1 b (by simp)
    have hb : Increasing (b :: r) := (List.pairwise_cons.1 h).2
    have hl := last_le b r hb
    have e : (b :: r).getLastD a = r.getLastD b := List.getLastD_cons ..
    rw [e]
    unfold allMonths shown
    rw [range'_split a.month b.month _ hab hl, List.filter_append]
    rw [← ih b hb]
    rfl

/-! ## The points -/

theorem filter_month (ls : List Line) (h : Increasing ls) (l : Line) (hl : l ∈ ls) : (ls.filter fun x => x.month = l.month) = [l] := by
  induction ls with
  | nil => cases hl
  | cons a r ih =>
    obtain ⟨h1, h2⟩ := List.pairwise_cons.1 h
    rcases List.mem_cons.1 hl with rfl | hr
    · rw [List.filter_cons_of_pos (by simp)]
      congr 1
      rw [List.filter_eq_nil_iff]
      intro x hx
      have := h1 x hx
      simp; omega
    · have := h1 l hr
      rw [List.filter_cons_of_neg (by simp; omega)]
      exact ih h2 hr

/-- the point of a month when no month is repeated and the columns are there -/
theorem monthPoint_ok (f : File) (first : Line) (error : Bool) (h : Increasing f.lines) (hf : error = true → f.four = true) (m : ℕ) :
    monthPoint f first error m = .ok ((f.lines.find? fun l => l.month = m).map (pointOf first error)) := by
  unfold monthPoint
  by_cases hm : ∃ l ∈ f.lines, l.month = m
  · obtain ⟨l, hl, rfl⟩ := hm
    have hfind : f.lines.find? (fun x => x.month = l.month) = some l := by
      have h1 := filter_month f.lines h l hl
      rw [← List.head?_filter, h1]; rfl
    rw [filter_month f.lines h l hl, hfind]
    simp only [Option.map_some]
    rw [if_neg]
    rintro ⟨h1, h2⟩
    exact h2 (hf h1)
  · have h0 : (f.lines.filter fun l => l.month = m) = [] := by
      rw [List.filter_eq_nil_iff]
      intro l hl
      simp only [decide_eq_true_eq]
      exact fun e => hm ⟨l, hl, e⟩
    have hfind : f.lines.find? (fun x => x.month = m) = none := by rw [← List.head?_filter, h0]; rfl
    rw [h0, hfind]; rfl

theorem monthPoints_ok (f : File) (first : Line) (error : Bool) (h : Increasing f.lines) (hf : error = true → f.four = true)
    (ms : List ℕ) : monthPoints f first error ms =
      .ok (ms.map fun m => (f.lines.find? fun l => l.month = m).map (pointOf first error)) := by
  induction ms with
  | nil => rfl
  | cons m r ih => unfold monthPoints; rw [monthPoint_ok f first error h hf, ih]; rfl

theorem monthPoints_error (f : File) (first : Line) (error : Bool) (ms : List ℕ) (m : ℕ) (hm : m ∈ ms) (e : Err)
    (he : monthPoint f first error m = .error e) : ∃ e', monthPoints f first error ms = .error e' := by
  induction ms with
  | nil => cases hm
  | cons k r ih =>
    unfold monthPoints
    rcases List.mem_cons.1 hm with rfl | hr
    · exact ⟨e, by rw [he]⟩
    · obtain ⟨e', h'⟩ := ih hr
      cases hk : monthPoint f first error k with
      | error x => exact ⟨x, rfl⟩
      | ok p => exact ⟨e', by simp only [h']⟩

/-- what the months of a part of the lines show -/
theorem shown_curve (full : List Line) (pt : Line → Point) (g : ℕ → Option Point) (hg : ∀ l ∈ full, g l.month = some (pt l))
    (hn : ∀ m, (∀ l ∈ full, l.month ≠ m) → g m = none) (ls pre : List Line) (hfull : full = pre ++ ls) (hinc : Increasing full) :
    points ((shown (fun m => m ∈ full.map (·.month) ∨ m ∈ GAP) ls).map g) = ls.map pt ∧
    segments ((shown (fun m => m ∈ full.map (·.month) ∨ m ∈ GAP) ls).map g) =
      ((neighbours ls).filter fun x => ¬ AcrossGap x.1 x.2).map (fun x => (pt x.1, pt x.2)) ∧
    (∀ a r, ls = a :: r → ∃ t, (shown (fun m => m ∈ full.map (·.month) ∨ m ∈ GAP) ls).map g = some (pt a) :: t) := by
  induction ls generalizing pre with
  | nil => exact ⟨rfl, rfl, by simp⟩
  | cons a r ih =>
    have ha : a ∈ full := by rw [hfull]; simp
    cases r with
    | nil =>
      have e : shown (fun m => m ∈ full.map (·.month) ∨ m ∈ GAP) [a] = [a.month] := by
        unfold shown
        rw [List.filter_cons_of_pos]
        · rfl
        · simp only [decide_eq_true_eq]
          exact .inl (List.mem_map.2 ⟨a, ha, rfl⟩)
      rw [e]
      refine ⟨?_, ?_, ?_⟩
      · simp [points, hg a ha]
      · simp [segments, neighbours]
      · rintro a' r' h
        cases h
        exact ⟨[], by simp [hg a ha]⟩
    | cons b r =>
      have hb : b ∈ full := by rw [hfull]; simp
      obtain ⟨i1, i2, i3⟩ := ih (pre ++ [a]) (by rw [hfull]; simp)
      obtain ⟨t, ht⟩ := i3 b r rfl
      -- no line between a and b
      have hbetween : ∀ m, a.month < m → m < b.month → ∀ l ∈ full, l.month ≠ m := by
        intro m h1 h2 l hl
        rw [hfull] at hl hinc
        unfold Increasing at hinc
        rw [List.pairwise_append] at hinc
        rcases List.mem_append.1 hl with hp | hp
        · have := hinc.2.2 l hp a (by simp); omega
        · rcases List.mem_cons.1 hp with rfl | hp
          · omega
          · rcases List.mem_cons.1 hp with rfl | hp
            · omega
            · have := (List.pairwise_cons.1 (List.pairwise_cons.1 hinc.2.1).2).1 l hp; omega
      have hab : a.month < b.month := by
        rw [hfull] at hinc
        unfold Increasing at hinc
        rw [List.pairwise_append] at hinc
        exact (List.pairwise_cons.1 hinc.2.1).1 b (by simp)
      have e : shown (fun m => m ∈ full.map (·.month) ∨ m ∈ GAP) (a :: b :: r) =
          a.month :: ((List.range' (a.month + 1) (b.month - (a.month + 1))).filter (fun m => m ∈ GAP) ++
            shown (fun m => m ∈ full.map (·.month) ∨ m ∈ GAP) (b :: r)) := by
        conv_lhs => unfold shown
        rw [List.filter_cons_of_pos, List.cons_append]
        · congr 2
          refine List.filter_congr fun m hm => ?_
          obtain ⟨h1, h2⟩ := List.mem_range'_1.1 hm
          simp only [decide_eq_decide]
          constructor
          · rintro (h | h)
            · obtain ⟨l, hl, rfl⟩ := List.mem_map.1 h
              exact absurd rfl (hbetween l.month (by omega) (by omega) l hl)
            · exact h
          · exact .inr
        · simp only [decide_eq_true_eq]
          exact .inl (List.mem_map.2 ⟨a, ha, rfl⟩)
      have hnone : ((List.range' (a.month + 1) (b.month - (a.month + 1))).filter (fun m => m ∈ GAP)).map g =
          List.replicate ((List.range' (a.month + 1) (b.month - (a.month + 1))).filter (fun m => m ∈ GAP)).length none := by
        rw [List.eq_replicate_iff]
        refine ⟨by simp, ?_⟩
        intro x hx
        obtain ⟨m, hm, rfl⟩ := List.mem_map.1 hx
        obtain ⟨h1, h2⟩ := List.mem_range'_1.1 (List.mem_filter.1 hm).1
        exact hn m (hbetween m (by omega) (by omega))
      have hzero : ((List.range' (a.month + 1) (b.month - (a.month + 1))).filter (fun m => m ∈ GAP)).length = 0 ↔ ¬ AcrossGap a b := by
        rw [List.length_eq_zero_iff, List.filter_eq_nil_iff]
        unfold AcrossGap
        constructor
        · rintro h ⟨m, h1, h2, h3⟩
          exact h m (List.mem_range'_1.2 (by omega)) (by simpa using (mem_gap m).2 h3)
        · intro h m hm hc
          obtain ⟨h1, h2⟩ := List.mem_range'_1.1 hm
          exact h ⟨m, by omega, by omega, (mem_gap m).1 (by simpa using hc)⟩
      rw [e, List.map_cons, List.map_append, hnone, hg a ha]
      refine ⟨?_, ?_, ?_⟩
      · unfold points at i1 ⊢
        rw [List.filterMap_cons_some (f := id) (b := pt a) rfl, List.filterMap_append, i1]
        simp
      · rw [ht, segments_hole, ← ht, i2]
        unfold neighbours
        simp only [List.tail_cons, List.zip_cons_cons]
        by_cases hac : AcrossGap a b
        · rw [if_neg (fun h => hzero.1 h hac), List.filter_cons_of_neg (by simpa using hac)]
        · rw [if_pos (hzero.2 hac), List.filter_cons_of_pos (by simpa using hac)]
          rfl
      · intro a' r' h
        cases h
        exact ⟨_, rfl⟩

end Verif.QuickPlot
